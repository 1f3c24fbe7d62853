import Verif.Lemmas.LevelStarts
import Verif.Examples

/-!
# C10: level-start arrays
-/

namespace Boxtree
open BoxTree

theorem boxListOK_of (t : BoxTree) (f : Nat → Bool) :
    BoxListOK t ((List.range t.nboxes).filter f) :=
  ⟨List.pairwise_lt_range.filter f, fun _ hb => List.mem_range.1 (List.mem_filter.1 hb).1⟩

/-- **C10.** For each of the four box lists of a traversal over a level-ordered tree, the
level-start array has `nlevels + 1` entries, and for every level `l` the slice
`boxes[level_start[l] : level_start[l+1]]` is exactly the sublist of boxes on level `l`. -/
theorem C10_level_starts (inp : TravInput) (trav : Traversal) (hw : inp.tree.WF)
    (hl : inp.tree.LevelsOK) (h : buildTraversal inp = .ok trav) :
    ∀ p ∈ [(trav.sourceBoxes, trav.levelStartSource),
           (trav.sourceParentBoxes, trav.levelStartSourceParent),
           (trav.targetBoxes, trav.levelStartTarget),
           (trav.ttpBoxes, trav.levelStartTtp)],
      p.2.length = inp.tree.nlevels + 1 ∧
      (∀ l, l ≤ inp.tree.nlevels →
        p.2.getD l 0 = (p.1.filter fun b => decide (inp.tree.level b < l)).length) ∧
      ∀ l, l < inp.tree.nlevels →
        (p.1.drop (p.2.getD l 0)).take (p.2.getD (l + 1) 0 - p.2.getD l 0) =
          p.1.filter fun b => decide (inp.tree.level b = l) := by
  have F := travFields h
  have key : ∀ boxes, BoxListOK inp.tree boxes →
      (extractLevelStarts inp.tree boxes).length = inp.tree.nlevels + 1 ∧
      (∀ l, l ≤ inp.tree.nlevels → (extractLevelStarts inp.tree boxes).getD l 0 =
        (boxes.filter fun b => decide (inp.tree.level b < l)).length) ∧
      ∀ l, l < inp.tree.nlevels →
        (boxes.drop ((extractLevelStarts inp.tree boxes).getD l 0)).take
          ((extractLevelStarts inp.tree boxes).getD (l + 1) 0 -
            (extractLevelStarts inp.tree boxes).getD l 0) =
          boxes.filter fun b => decide (inp.tree.level b = l) := by
    intro boxes hb
    have h1 := extractLevelStarts_spec hb hw hl
    exact ⟨h1.1, h1.2, fun l hlt => levelSlice_extract hb hw hl hlt⟩
  intro p hp
  simp only [List.mem_cons, List.not_mem_nil, or_false] at hp
  rcases hp with rfl | rfl | rfl | rfl
  · simp only [F.lsSource]
    exact key _ (by rw [F.sourceBoxes]; exact boxListOK_of _ _)
  · simp only [F.lsSourceParent]
    exact key _ (by rw [F.sourceParentBoxes]; exact boxListOK_of _ _)
  · simp only [F.lsTarget]
    exact key _ (by rw [F.targetBoxes]; split <;> exact boxListOK_of _ _)
  · simp only [F.lsTtp]
    exact key _ (by rw [F.ttpBoxes]; exact boxListOK_of _ _)

theorem Ex.exTree_levels : Ex.exTree.LevelsOK where
  start_le := by decide
  lt_start := by
    intro b hb l h1 h2
    have hb' : b < 9 := hb
    have h2' : l ≤ 4 := h2
    interval_cases b <;> interval_cases l <;> revert h1 <;> decide

/-- A traversal with a list that has an empty level (no source box on levels 0 and 1). -/
example : ∃ trav, buildTraversal Ex.exInput = .ok trav ∧
    trav.sourceBoxes = [3, 4, 5, 7, 8] ∧ trav.levelStartSource = [0, 0, 0, 3, 5] :=
  ⟨_, rfl, by decide +kernel, by decide +kernel⟩

end Boxtree
