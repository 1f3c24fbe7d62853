import Verif.Spec.Coarsest

/-!
# Specification vocabulary: the same call for other points and in exact arithmetic
-/

namespace Boxtree.Build

/-- The same input for the points `y`, without rounding. -/
def Input.atPoints (inp : Input) (y : Nat → Nat → ℚ) : Input :=
  { inp with x := y, radius := fun _ => 0, arith := .exact }

/-- The point particles are not moved by more than five rounding errors of the bounding box. -/
def Input.SmallMove (inp : Input) (u : ℚ) (y : Nat → Nat → ℚ) : Prop :=
  ∀ a < inp.dims, ∀ p < inp.n, |y a p - inp.x a p| ≤ 5 * u * (|inp.lo a| + inp.ext a)

/-- The same boxes with the same numbers, centers, flags and source counts, and the same particles in
them in the same order; the positions of the particles and what is computed from them, the extents,
may differ. -/
def SameTree (t t' : Built) : Prop :=
  t'.tree = { t.tree with tgtMin := t'.tree.tgtMin, tgtMax := t'.tree.tgtMax } ∧
  t'.particles = t.particles

end Boxtree.Build
