import Verif.Model.Communicate

/-!
# Specification of the multipole reduction
-/

namespace Boxtree.Dist

/-- Box `b` is on level `l`. -/
def MpoleLayout.OnLevel (L : MpoleLayout) (b l : Nat) : Prop :=
  l < L.nlevels ∧ L.levelStart l ≤ b ∧ b < L.levelStart (l + 1)

/-- Boxes are numbered level by level and each box is on some level. -/
structure MpoleLayout.OK (L : MpoleLayout) (nboxes : Nat) : Prop where
  mono : ∀ l, l < L.nlevels → L.levelStart l ≤ L.levelStart (l + 1)
  cover : ∀ b, b < nboxes → ∃ l, L.OnLevel b l

end Boxtree.Dist
