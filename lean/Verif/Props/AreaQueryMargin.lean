import Verif.Props.AreaQuery

/-!
# Leaves inside the margin of the bounding box (limits of C32)

The guiding box is found by clamping the ball center to the bounding box *without* the
stretch factor `1 + 1e-4`.  In a tree built with a user-supplied bounding box a particle, and
hence a small leaf, may lie entirely in the outermost `1e-4` of the root box, and then the
area query can miss it.
-/

namespace Boxtree
open BoxTree Area
namespace Ex

/-- A one-dimensional tree on `[0, 10001]` refined towards the right end: box `k` for `k ≤ 13` is
the rightmost box of level `k`, 14 and 15 are the halves of 13, 16 and 17 the halves of 14. -/
def marginTree : BoxTree where
  dims := 1
  nboxes := 18
  nlevels := 16
  rootExtent := 10001
  parent b := if b ≤ 13 then b - 1 else if b ≤ 15 then 13 else 14
  child m b := if b ≤ 12 then (if m = 1 then b + 1 else 0)
    else if b = 13 then 14 + m else if b = 14 then 16 + m else 0
  level b := if b ≤ 13 then b else if b ≤ 15 then 14 else 15
  center b _ :=
    if b ≤ 13 then 10001 - 10001 / 2 ^ (b + 1)
    else if b = 14 then 10001 - 3 * 10001 / 2 ^ 15
    else if b = 15 then 10001 - 10001 / 2 ^ 15
    else if b = 16 then 10001 - 7 * 10001 / 2 ^ 16
    else 10001 - 5 * 10001 / 2 ^ 16
  flags b := if b ≤ 14 then 12 else 19
  srcCountCumul _ := 1
  tgtMin _ _ := 0
  tgtMax _ _ := 0
  levelStart l := l

theorem marginTree_wf : marginTree.WF where
  ext_pos := by norm_num [marginTree]
  nboxes_pos := by decide
  level_root := by decide
  parent_root := by decide
  parent_lt := by decide
  level_parent := by decide
  level_lt := by decide
  child_lt := by decide
  child_parent := by decide
  child_inj := by decide
  parent_child := by decide
  center_child := by
    intro m hm b hb hc i hi
    have hm' : m < 2 := hm
    have hb' : b < 18 := hb
    interval_cases m <;> interval_cases b <;>
      first
      | exact absurd rfl hc
      | (have hi' : i = 0 := by have : i < 1 := hi
                                omega
         subst hi'
         norm_num [marginTree, mortonSign, BoxTree.rad])

theorem marginTree_childFlags : marginTree.ChildFlagsOK := by
  intro b hb
  have hb' : b < 18 := hb
  unfold IsLeaf
  interval_cases b <;> decide

end Ex

/-- C32, limit: without the assumption that leaves reach into the unstretched bounding box the
query can miss a leaf that the ball meets (here: leaf 15, which contains the whole ball). -/
theorem C32_leaf_in_margin_missed :
    ∃ (t : BoxTree) (bmin : Nat → ℚ) (ball : Ball) (aq : BuiltList) (b : Nat),
      t.WF ∧ t.ChildFlagsOK ∧ (∀ i, i < t.dims → bmin i = t.lo 0 i) ∧ 0 ≤ ball.radius ∧
      areaQuery t bmin [ball] none = .ok aq ∧ b < t.nboxes ∧ t.IsLeaf b ∧
      t.MeetsBall b ball.center ball.radius ∧ b ∉ aq.row 0 := by
  refine ⟨Ex.marginTree, fun _ => 0, ⟨fun _ => 10001 - 1 / 10, 1 / 100⟩, _, 15, Ex.marginTree_wf,
    Ex.marginTree_childFlags, ?_, by norm_num, areaQuery_ok _ _ _ (Or.inl rfl), by decide, ?_, ?_, ?_⟩
  · intro i hi
    norm_num [Ex.marginTree, BoxTree.lo, BoxTree.rad]
  · unfold IsLeaf; decide
  · refine ⟨fun _ => 10001 - 1 / 10, fun i hi => ?_⟩
    norm_num [Ex.marginTree, BoxTree.lo, BoxTree.hi, BoxTree.rad]
  · decide +kernel

end Boxtree
