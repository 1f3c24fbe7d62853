import Verif.Spec.Geometry

/-!
# Specification vocabulary: points in boxes
-/

namespace Boxtree

/-- The number whose binary digits, most significant first, are `f 0, f 1, ..., f (d-1)`. -/
def mortonOf (d : Nat) (f : Nat → Bool) : Nat :=
  (List.range d).foldl (fun a i => 2 * a + (f i).toNat) 0

/-- `x` lies in the half-open box `b` (lower faces belong to the box, upper faces do not). -/
def BoxTree.InCell (t : BoxTree) (b : Nat) (x : Nat → ℚ) : Prop :=
  ∀ i, i < t.dims → t.center b i - t.rad (t.level b) ≤ x i ∧ x i < t.center b i + t.rad (t.level b)

end Boxtree
