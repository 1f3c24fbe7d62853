import Verif.Spec.TreeBuild
import Mathlib.Data.Int.Log

/-!
# Specification vocabulary: rounding

Floating point numbers without overflow and underflow.
-/

namespace Boxtree.Build

/-- `fl` rounds to numbers with a relative error of at most `u` (the unit roundoff: `2 ^ (-53)` in
double precision, `2 ^ (-24)` in single precision), and multiplying a number by a power of two is
exact. -/
structure Rounds (fl : ℚ → ℚ) (u : ℚ) : Prop where
  err : ∀ x, |fl x - x| ≤ u * |x|
  scale : ∀ y (k : Nat), fl (fl y * 2 ^ k) = fl y * 2 ^ k
  /-- precisions of at least three bits -/
  small : u ≤ 1 / 8

/-- `rt` is the square root with a relative error of at most `u`. -/
def RoundsRoot (rt : ℚ → ℚ) (u : ℚ) : Prop :=
  ∀ x, 0 ≤ x → |(rt x : ℝ) - Real.sqrt x| ≤ u * Real.sqrt x

/-- Rounding to `p` significant bits, where `near` rounds the significand. -/
def roundBy (near : ℚ → ℤ) (p : Nat) (x : ℚ) : ℚ :=
  if x = 0 then 0
  else near (x / 2 ^ (Int.log 2 |x| + 1 - p)) * 2 ^ (Int.log 2 |x| + 1 - p)

/-- Rounding to the nearest number with `p` significant bits, halfway cases upwards. -/
def roundTo (p : Nat) (x : ℚ) : ℚ := roundBy (fun y => ⌊y + 1 / 2⌋) p x

/-- Rounding to the nearest number with `p` significant bits, halfway cases to even significands (the
default of IEEE 754). -/
def roundEven (p : Nat) (x : ℚ) : ℚ :=
  roundBy (fun y => if (⌊y + 1 / 2⌋ : ℚ) = y + 1 / 2 ∧ ⌊y + 1 / 2⌋ % 2 = 1 then ⌊y + 1 / 2⌋ - 1
    else ⌊y + 1 / 2⌋) p x

/-- A square root with a relative error of at most `2 ^ (-k)`. -/
def rootTo (k : Nat) (x : ℚ) : ℚ := Nat.sqrt (x.num.toNat * x.den * 4 ^ k) / (x.den * 2 ^ k)

/-- With rounding the particles with their radii lie in the bounding box up to rounding errors, and
centers not below its lower faces. -/
structure Input.NearlyPlaced (inp : Input) (u : ℚ) : Prop extends inp.OK where
  center : ∀ a < inp.dims, ∀ p < inp.n, inp.lo a ≤ inp.x a p
  lower : ∀ a < inp.dims, ∀ p < inp.n,
    inp.lo a - 2 * u * (|inp.lo a| + inp.ext a) ≤ inp.x a p - inp.radius p
  upper : ∀ a < inp.dims, ∀ p < inp.n,
    inp.x a p + inp.radius p ≤ inp.lo a + inp.ext a + 2 * u * (|inp.lo a| + inp.ext a)

/-- The particles stay away from the upper faces of the bounding box by a few rounding errors. -/
def Input.Room (inp : Input) (u : ℚ) : Prop := ∀ a < inp.dims, ∀ p < inp.n,
  inp.x a p + 5 * u * (|inp.lo a| + inp.ext a) < inp.lo a + inp.ext a

/-- Boxes on the deepest of `nlevels` levels are large compared with the rounding errors of box
centers: `M` bounds the coordinates, `u` is the unit roundoff. -/
structure Input.Fine (inp : Input) (u M : ℚ) (nlevels : Nat) : Prop where
  rounds : Rounds inp.arith.fl u
  size : ∀ a < inp.dims, |inp.lo a + inp.ext 0 / 2| + inp.ext 0 ≤ M
  fine : 5 * (4 * nlevels + 17) * u * M < inp.ext 0 / 2 ^ nlevels

/-- `y` is in the cube of box `b`, enlarged by `δ a` along the axes. -/
def NearBox (t : BoxTree) (δ : Nat → ℚ) (b : Nat) (y : Nat → ℚ) : Prop :=
  ∀ a < t.dims, t.center b a - t.rad (t.level b) - δ a ≤ y a ∧
    y a < t.center b a + t.rad (t.level b) + δ a

/-- The ball of radius `r` around `y` (maximum norm) is in box `b`, enlarged by the stick-out
factor and by `δ a` along the axes. -/
def NearInf (t : BoxTree) (sigma : ℚ) (δ : Nat → ℚ) (b : Nat) (y : Nat → ℚ) (r : ℚ) : Prop :=
  ∀ a < t.dims, t.center b a - (1 + sigma) * t.rad (t.level b) - δ a ≤ y a - r ∧
    y a + r ≤ t.center b a + (1 + sigma) * t.rad (t.level b) + δ a

/-- The ball of radius `r` around `y` (Euclidean norm) is in the ball around box `b`, enlarged by
the stick-out factor and by `δ` along each axis. -/
def NearL2 (t : BoxTree) (sigma δ : ℚ) (b : Nat) (y : Nat → ℚ) (r : ℚ) : Prop :=
  Real.sqrt (((List.range t.dims).map fun a => (y a - t.center b a) ^ 2).sum : ℚ) + (r : ℝ)
    ≤ Real.sqrt t.dims * ((1 + sigma) * t.rad (t.level b) + δ : ℚ)

end Boxtree.Build
