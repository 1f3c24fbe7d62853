import Verif.Lemmas.Criteria
import Verif.Examples

/-!
# C01: every source/target box pair interacts exactly once
-/

namespace Boxtree
open BoxTree

/-- **C01.** For every well-formed tree and every admissible choice of parameters, a traversal
that is built carries the sources of every source box to the targets of every target box
of the traversal along exactly one path through its interaction lists. -/
theorem C01_exactly_once (inp : TravInput) (trav : Traversal) (ok : inp.OK)
    (h : buildTraversal inp = .ok trav) (tgt s : Nat) (htgt : tgt ∈ trav.targetBoxes)
    (hs : s < inp.tree.nboxes) (hsrc : inp.tree.isSource s = true) :
    trav.pathCount inp.tree tgt s = 1 := by
  have F := travFields h
  have ht := F.target_lt htgt
  have htt := F.target_is ok htgt
  have http := F.target_sub ok htgt
  have core := exactly_once_core (p := inp.params) ok.wf ok.flags ok.adjOK
    ok.sepMono F.row_slnws ht hs htt hsrc
  rw [← core]
  unfold Traversal.pathCount
  congr 1
  congr 1
  congr 1
  congr 1
  congr 1
  · rw [F.row1, if_pos htgt]
  · unfold l2sum BoxTree.ancestorsOrSelf
    rw [List.map_map]
    congr 1
    apply List.map_congr_left
    intro l hl
    simp only [Function.comp, List.map_map]
    rw [F.row2, if_pos (F.anc_ttp ok http (by have := List.mem_range.1 hl; omega))]
    rfl
  · unfold l3sum BoxTree.ancestorsOrSelf
    rw [F.length3]
    congr 1
    apply List.map_congr_left
    intro l hl
    rw [List.map_map]
    congr 1
    apply List.map_congr_left
    intro l' _
    simp only [Function.comp]
    rw [F.row3 l (List.mem_range.1 hl), if_pos htgt, count_sepPart]
  · unfold closeCount
    cases he : inp.targetsHaveExtent with
    | true =>
      obtain ⟨bl, hbl, _, hrow⟩ := F.row3Close he
      rw [hbl]
      simp only [hrow, if_pos htgt, count_closePart]
    | false =>
      rw [F.list3Close, if_neg (by rw [he]; decide)]
      classical
      rw [count_list3_close ok.wf ok.flags ok.adjOK F.row_slnws ht hs, if_neg
        (by rintro ⟨_, _, _, _, _, _, h7, _⟩; exact h7 (sep3_of_no_extent he _ _))]
  · unfold l4sum BoxTree.ancestorsOrSelf
    rw [List.map_map]
    congr 1
    apply List.map_congr_left
    intro l hl
    simp only [Function.comp]
    rw [F.row4, if_pos (F.anc_ttp ok http (by have := List.mem_range.1 hl; omega)),
      count_sepPart]
  · unfold closeCount
    cases he : inp.targetsHaveExtent with
    | true =>
      obtain ⟨bl, hbl, _, hrow⟩ := F.row4Close ok he
      rw [hbl]
      simp only [hrow, if_pos htgt, count_closePart]
    | false =>
      rw [F.list4Close, if_neg (by rw [he]; decide)]
      classical
      rw [count_list4_close ok.wf ok.adjOK F.row_slnws ht hs, if_neg
        (by rintro ⟨_, _, _, _, _, _, _, _, h7⟩; exact h7 (Or.inl he))]

/-- The hypotheses hold for the example (`Ex.exInput_ok`, `Ex.exInputExt_ok`), where different
pairs use different lists. -/
example : ∃ trav, buildTraversal Ex.exInput = .ok trav ∧ 5 ∈ trav.targetBoxes ∧
    (List.range 9).map (trav.pathCount Ex.exTree 5) = [0, 0, 0, 1, 1, 1, 0, 1, 1] :=
  ⟨_, rfl, by decide +kernel⟩

example : ∃ trav, buildTraversal Ex.exInputExt = .ok trav ∧ 5 ∈ trav.targetBoxes ∧
    (List.range 9).map (trav.pathCount Ex.exTree 5) = [0, 0, 0, 1, 1, 1, 0, 1, 1] :=
  ⟨_, rfl, by decide +kernel⟩

end Boxtree
