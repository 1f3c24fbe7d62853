import Verif.Spec.Tree

/-!
# Specification vocabulary: boxes as closed intervals

Independent of the code's distance computations and tolerances.
-/

namespace Boxtree.BoxTree
variable (t : BoxTree)

/-- Lower end of box `b` along axis `i`. -/
def lo (b i : Nat) : ℚ := t.center b i - t.rad (t.level b)
/-- Upper end of box `b` along axis `i`. -/
def hi (b i : Nat) : ℚ := t.center b i + t.rad (t.level b)
/-- Side length of box `b`. -/
def width (b : Nat) : ℚ := 2 * t.rad (t.level b)

/-- The closed boxes `a` and `b` have a point in common. -/
def Touch (a b : Nat) : Prop := ∀ i, i < t.dims → t.lo b i ≤ t.hi a i ∧ t.lo a i ≤ t.hi b i

/-- The closed box `b` meets the closed box `a` enlarged by `k` widths of `a` on every side. -/
def TouchEnlarged (k : Nat) (a b : Nat) : Prop :=
  ∀ i, i < t.dims → t.lo b i ≤ t.hi a i + k * t.width a ∧ t.lo a i - k * t.width a ≤ t.hi b i

end Boxtree.BoxTree
