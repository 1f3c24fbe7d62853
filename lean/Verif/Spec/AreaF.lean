import Verif.Spec.AreaQuery
import Verif.Spec.DeviceTests

/-!
# Specification vocabulary: area queries with rounding
-/

namespace Boxtree
open BoxTree Build

/-- Area queries on a device that rounds by `fl` (and by `hf` where C constants are involved). -/
structure RoundedArea (t : BoxTree) (fl hf : ℚ → ℚ) (c0 bmin : Nat → ℚ) (u M : ℚ) : Prop where
  rounds : Rounds fl u
  host : Rounds hf u
  wf : t.WF
  dims : 0 < t.dims
  fine : FineEnough t c0 u M 1
  /-- the bounding box begins at the lower corner of the root box -/
  bmin : ∀ i, i < t.dims → bmin i = t.lo 0 i
  /-- the extent of the root is a floating point number, and so are its halves -/
  halves : ∀ l, fl (t.rootExtent / 2 ^ l) = t.rootExtent / 2 ^ l
  /-- the stretch of the bounding box (1e-4) is not lost by rounding -/
  stretch : 200000 * u * M ≤ t.rootExtent

/-- `LeavesOccupied` up to `e`: particles can leave their boxes when the tree builder rounds. -/
def BoxTree.LeavesNear (t : BoxTree) (e : ℚ) : Prop :=
  ∀ b, b < t.nboxes → t.IsLeaf b → ∃ x : Nat → ℚ, ∀ i, i < t.dims →
    (t.lo b i - e ≤ x i ∧ x i ≤ t.hi b i + e) ∧ x i ≤ t.lo 0 i + t.rootExtent / (1 + 1 / 10000) + e

/-- By how much the radius of a ball is uncertain: errors of the stored centers and of the
comparison of sizes `M` and `r`. -/
def ballTol (t : BoxTree) (u M r : ℚ) : ℚ := (3 * t.nlevels + 5) * u * M + 3 * u * r

end Boxtree
