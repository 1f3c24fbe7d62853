import Verif.Spec.Traversal
import Mathlib.Tactic.NormNum
import Mathlib.Tactic.IntervalCases

/-!
# Concrete inputs used to show that hypotheses can be met

`exTree` is an adaptive one-dimensional tree with nine boxes on four levels whose traversal
has entries in lists 1, 2, 3 and 4:

```
level 0  |               0               |
level 1  |       1       |       2       |
level 2  |   3   |   4   |   5   |   6   |
level 3                          | 7 | 8 |
```
-/

namespace Boxtree.Ex

def exTree : BoxTree where
  dims := 1
  nboxes := 9
  nlevels := 4
  rootExtent := 16
  parent b := [0, 0, 0, 1, 1, 2, 2, 6, 6].getD b 0
  child m b := ([[1, 2], [3, 4], [5, 6], [0, 0], [0, 0], [0, 0], [7, 8], [0, 0],
    [0, 0]].getD b []).getD m 0
  level b := [0, 1, 1, 2, 2, 2, 2, 3, 3].getD b 0
  center b _ := [8, 4, 12, 2, 6, 10, 14, 13, 15].getD b 0
  flags b := [12, 12, 12, 19, 19, 19, 12, 19, 19].getD b 0
  srcCountCumul b := [5, 2, 3, 1, 1, 1, 2, 1, 1].getD b 0
  tgtMin b _ := [0, 0, 8, 0, 4, 8, 12, 12, 14].getD b 0
  tgtMax b _ := [16, 8, 16, 4, 8, 12, 16, 14, 16].getD b 0
  levelStart l := [0, 1, 3, 7, 9].getD l 0

theorem exTree_wf : exTree.WF where
  ext_pos := by norm_num [exTree]
  nboxes_pos := by decide
  level_root := by decide
  parent_root := by decide
  parent_lt := by decide
  level_parent := by decide
  level_lt := by decide
  child_lt := by decide
  child_parent := by decide
  child_inj := by decide
  parent_child := by decide
  center_child := by
    intro m hm b hb hc i hi
    have hm' : m < 2 := hm
    have hb' : b < 9 := hb
    interval_cases m <;> interval_cases b <;>
      first
      | exact absurd rfl hc
      | (have hi' : i = 0 := by have : i < 1 := hi
                                omega
         subst hi'
         norm_num [exTree, mortonSign, BoxTree.rad])

theorem exTree_flags : exTree.FlagsOK where
  src := by decide
  tgt := by decide

/-- Sources and targets identical, no extents. -/
def exInput : TravInput where
  tree := exTree
  isPruned := true
  sourcesAreTargets := true
  sourcesHaveExtent := false
  targetsHaveExtent := false
  extentNorm := none
  stickOut := 0
  eps := 0
  nAway := 1
  crit := none
  minNsources := none
  srcMask := none
  srcParentMask := none

/-- Distinct targets with extents, `precise_linf` criterion, two boxes away. -/
def exInputExt : TravInput :=
  { exInput with
    sourcesAreTargets := false, targetsHaveExtent := true, extentNorm := some .linf
    stickOut := 1 / 4, eps := 1 / 1000, nAway := 2 }

theorem exInput_ok : exInput.OK where
  wf := exTree_wf
  flags := exTree_flags
  nAway_pos := by decide
  stickOut_nonneg := by decide
  eps_small := by norm_num [exInput]
  srcTgt := by decide
  srcTgtChild := fun _ _ => by decide

theorem exInputExt_ok : exInputExt.OK where
  wf := exTree_wf
  flags := exTree_flags
  nAway_pos := by decide
  stickOut_nonneg := by norm_num [exInputExt]
  eps_small := by norm_num [exInputExt]
  srcTgt := by intro h; cases h
  srcTgtChild := by intro h; cases h

theorem exInput_builds : ∃ trav, buildTraversal exInput = .ok trav := ⟨_, rfl⟩
theorem exInputExt_builds : ∃ trav, buildTraversal exInputExt = .ok trav := ⟨_, rfl⟩

end Boxtree.Ex
