import Verif.Lemmas.Traversal
import Verif.Examples

set_option linter.unusedVariables false

/-!
# C09: merging lists
-/

namespace Boxtree
open BoxTree

/-- `bl` is the CSR form of `n` rows: what every list builder of the package returns. -/
def BuiltList.WellFormed (bl : BuiltList) (n : Nat) : Prop :=
  ∃ rows : List (List Nat), rows.length = n ∧ bl = buildLists rows

theorem wf_inputs {inputs : List BuiltList} {n : Nat} (h : ∀ bl ∈ inputs, bl.WellFormed n) :
    ∃ rowss : List (List (List Nat)), inputs = rowss.map buildLists ∧
      ∀ rows ∈ rowss, rows.length = n := by
  induction inputs with
  | nil => exact ⟨[], rfl, by simp⟩
  | cons bl l ih =>
    obtain ⟨rs, h1, h2⟩ := ih (fun x hx => h x (List.mem_cons_of_mem _ hx))
    obtain ⟨r, h3, h4⟩ := h bl List.mem_cons_self
    refine ⟨r :: rs, by simp [h1, h4], ?_⟩
    intro rows hr
    rcases List.mem_cons.1 hr with rfl | hr
    · exact h3
    · exact h2 rows hr

theorem merge_general (inputs : List BuiltList) (n : Nat) (hin : ∀ bl ∈ inputs, bl.WellFormed n)
    (o2i order : List Nat) (ho : ∀ i ∈ o2i, i < n) (hperm : order.Perm (List.range o2i.length)) :
    (mergeListsWith inputs o2i order).WellFormed o2i.length ∧
    ∀ k, k < o2i.length → (mergeListsWith inputs o2i order).row k =
      inputs.flatMap fun bl => bl.row (o2i.getD k 0) := by
  obtain ⟨rowss, rfl, hl⟩ := wf_inputs hin
  have := mergeListsWith_eq (rowss.map buildLists) o2i order
    (fun b hb => mergedCount_build rowss b (fun rows hr => by rw [hl rows hr]; exact ho b hb))
    (fun i => by rw [hperm.mem_iff]; simp)
  rw [this]
  refine ⟨⟨_, by simp, rfl⟩, fun k hk => ?_⟩
  rw [row_build _ _ (by simpa using hk), List.getD_eq_getElem _ _ (by simpa using hk),
    List.getElem_map, List.getD_eq_getElem _ _ hk]
  rfl

/-- **C09**, general merger: for any number of well-formed input lists and any order in which
the work items of the copy kernel run, the merged list is well-formed and the row of each
output box is the concatenation of that box's rows in the inputs.  `inBoxes` are the boxes
the inputs are indexed by and `outBoxes ⊆ inBoxes` those of the output; the code computes
the index map as the inverse of `inBoxes`. -/
theorem C09_merger_any_order (inputs : List BuiltList) (inBoxes outBoxes order : List Nat)
    (nboxes : Nat) (hin : ∀ bl ∈ inputs, bl.WellFormed inBoxes.length)
    (hnd : inBoxes.Nodup) (hlt : ∀ b ∈ inBoxes, b < nboxes) (hnd' : outBoxes.Nodup)
    (hsub : ∀ b ∈ outBoxes, b ∈ inBoxes) (hperm : order.Perm (List.range outBoxes.length)) :
    let merged := mergeListsWith inputs
      (outBoxes.map fun b => (reverseIndexArray inBoxes nboxes).getD b 0) order
    merged.WellFormed outBoxes.length ∧
    ∀ b ∈ outBoxes, merged.rowFor outBoxes b =
      inputs.flatMap fun bl => bl.rowFor inBoxes b := by
  intro merged
  have hrev : ∀ b ∈ outBoxes, (reverseIndexArray inBoxes nboxes).getD b 0 < inBoxes.length ∧
      inBoxes.getD ((reverseIndexArray inBoxes nboxes).getD b 0) 0 = b := by
    intro b hb
    obtain ⟨k, hk, hkb⟩ := List.mem_iff_getElem.1 (hsub b hb)
    have hkb' : inBoxes.getD k 0 = b := by rw [List.getD_eq_getElem _ _ hk]; exact hkb
    have := reverseIndexArray_getD inBoxes nboxes hnd hlt k hk
    rw [hkb'] at this
    rw [this]; exact ⟨hk, hkb'⟩
  have hg := merge_general inputs inBoxes.length hin
    (outBoxes.map fun b => (reverseIndexArray inBoxes nboxes).getD b 0) order
    (by intro i hi
        obtain ⟨b, hb, rfl⟩ := List.mem_map.1 hi
        exact (hrev b hb).1)
    (by simpa using hperm)
  refine ⟨by have := hg.1; rwa [List.length_map] at this, fun b hb => ?_⟩
  have rowFor_eq : ∀ (bl : BuiltList) (boxes : List Nat), boxes.Nodup → ∀ k, k < boxes.length →
      bl.rowFor boxes (boxes.getD k 0) = bl.row k := by
    intro bl boxes hnd k hk
    unfold BuiltList.rowFor
    exact flatMap_single boxes.length k hk _ (fun i => boxes.getD i 0 = boxes.getD k 0)
      (fun i hi => ⟨fun h => getD_inj_of_nodup hnd hi hk h, fun h => by rw [h]⟩)
  obtain ⟨k, hk, hkb⟩ := List.mem_iff_getElem.1 hb
  have hkb' : outBoxes.getD k 0 = b := by rw [List.getD_eq_getElem _ _ hk]; exact hkb
  have h1 := rowFor_eq merged outBoxes hnd' k hk
  rw [hkb'] at h1
  rw [h1, hg.2 k (by simpa using hk)]
  have hidx : (outBoxes.map fun b => (reverseIndexArray inBoxes nboxes).getD b 0).getD k 0 =
      (reverseIndexArray inBoxes nboxes).getD b 0 := by
    rw [List.getD_eq_getElem _ _ (by simpa using hk), List.getElem_map, hkb]
  rw [hidx]
  apply List.flatMap_congr
  intro bl _
  have := rowFor_eq bl inBoxes hnd _ (hrev b hb).1
  rw [(hrev b hb).2] at this
  exact this.symm

/-- **C09**, the class `_ListMerger` as called by the package: every supported combination of
index styles succeeds and concatenates rows; the unsupported one is rejected. -/
theorem C09_listMerger (inputs : List BuiltList) (targetBoxes ttpBoxes : List Nat) (nboxes : Nat)
    (hndT : targetBoxes.Nodup) (hnd : ttpBoxes.Nodup) (hlt : ∀ b ∈ ttpBoxes, b < nboxes)
    (hsub : ∀ b ∈ targetBoxes, b ∈ ttpBoxes) :
    ((∀ bl ∈ inputs, bl.WellFormed ttpBoxes.length) →
      ∃ out, listMerger inputs .targetOrTargetParentBoxes .targetBoxes targetBoxes ttpBoxes
          nboxes = .ok out ∧
        ∀ b ∈ targetBoxes, out.rowFor targetBoxes b =
          inputs.flatMap fun bl => bl.rowFor ttpBoxes b) ∧
    ((∀ bl ∈ inputs, bl.WellFormed targetBoxes.length) →
      ∃ out, listMerger inputs .targetBoxes .targetBoxes targetBoxes ttpBoxes nboxes = .ok out ∧
        ∀ b ∈ targetBoxes, out.rowFor targetBoxes b =
          inputs.flatMap fun bl => bl.rowFor targetBoxes b) ∧
    ((∀ bl ∈ inputs, bl.WellFormed ttpBoxes.length) →
      ∃ out, listMerger inputs .targetOrTargetParentBoxes .targetOrTargetParentBoxes targetBoxes
          ttpBoxes nboxes = .ok out ∧
        ∀ b ∈ ttpBoxes, out.rowFor ttpBoxes b =
          inputs.flatMap fun bl => bl.rowFor ttpBoxes b) ∧
    listMerger inputs .targetBoxes .targetOrTargetParentBoxes targetBoxes ttpBoxes nboxes =
      .error "ValueError" := by
  have same : ∀ boxes : List Nat, boxes.Nodup → (∀ bl ∈ inputs, bl.WellFormed boxes.length) →
      ∀ b ∈ boxes, (mergeListsWith inputs (List.range boxes.length)
        (List.range (List.range boxes.length).length)).rowFor boxes b =
        inputs.flatMap fun bl => bl.rowFor boxes b := by
    intro boxes hnd hin b hb
    have hg := merge_general inputs boxes.length hin (List.range boxes.length)
      (List.range (List.range boxes.length).length) (by simp) (List.Perm.refl _)
    have rowFor_eq : ∀ (bl : BuiltList) k, k < boxes.length →
        bl.rowFor boxes (boxes.getD k 0) = bl.row k := by
      intro bl k hk
      unfold BuiltList.rowFor
      exact flatMap_single boxes.length k hk _ (fun i => boxes.getD i 0 = boxes.getD k 0)
        (fun i hi => ⟨fun h => getD_inj_of_nodup hnd hi hk h, fun h => by rw [h]⟩)
    obtain ⟨k, hk, hkb⟩ := List.mem_iff_getElem.1 hb
    have hkb' : boxes.getD k 0 = b := by rw [List.getD_eq_getElem _ _ hk]; exact hkb
    rw [← hkb', rowFor_eq _ k hk, hg.2 k (by simpa using hk)]
    apply List.flatMap_congr
    intro bl _
    rw [rowFor_eq bl k hk, List.getD_eq_getElem _ _ (by simpa using hk)]
    simp
  refine ⟨fun hin => ⟨_, rfl, ?_⟩, fun hin => ⟨_, rfl, same _ hndT hin⟩,
    fun hin => ⟨_, rfl, same _ hnd hin⟩, rfl⟩
  exact (C09_merger_any_order inputs ttpBoxes targetBoxes _ nboxes hin hnd hlt hndT hsub
    (by simp)).2

/-- **C09**, `merge_close_lists`: for every traversal built with target extents the call
succeeds, removes the close lists, leaves every other list alone and makes list 1 of each
target box the concatenation of its former list 1, list 3 close and list 4 close. -/
theorem C09_merge_close_lists (inp : TravInput) (trav : Traversal) (ok : inp.OK)
    (h : buildTraversal inp = .ok trav) (he : inp.targetsHaveExtent = true) :
    ∃ trav' c3 c4, mergeCloseLists trav inp.tree.nboxes = some trav' ∧
      trav.list3Close = some c3 ∧ trav.list4Close = some c4 ∧
      trav' = { trav with list1 := trav'.list1, list3Close := none, list4Close := none } ∧
      ∀ b ∈ trav.targetBoxes, trav'.list1.rowFor trav.targetBoxes b =
        trav.list1.rowFor trav.targetBoxes b ++ c3.rowFor trav.targetBoxes b ++
          c4.rowFor trav.targetBoxes b := by
  have F := travFields h
  obtain ⟨c3, h3, e3, _⟩ := F.row3Close he
  obtain ⟨c4, h4, e4, _⟩ := F.row4Close ok he
  have hm := (C09_listMerger [trav.list1, c3, c4] trav.targetBoxes trav.ttpBoxes inp.tree.nboxes
    F.nodup_target F.nodup_ttp (fun b hb => F.ttp_lt hb) (fun b hb => F.target_sub ok hb)).2.1
    (by
      intro bl hbl
      simp only [List.mem_cons, List.not_mem_nil, or_false] at hbl
      rcases hbl with rfl | rfl | rfl
      · exact ⟨_, by simp, F.list1⟩
      · exact ⟨_, by simp, e3⟩
      · exact ⟨_, by simp, e4⟩)
  obtain ⟨out, ho, hrow⟩ := hm
  refine ⟨{ trav with list1 := out, list3Close := none, list4Close := none }, c3, c4, ?_, h3, h4,
    rfl, ?_⟩
  · unfold mergeCloseLists
    rw [h3, h4]
    simp only [bind, Option.bind, pure, ho, Except.toOption]
  · intro b hb
    rw [hrow b hb]
    simp

/-- Without target extents there are no close lists and the merge fails (in the code: a `None`
is passed to the merger). -/
theorem C09_merge_close_lists_needs_extents (inp : TravInput) (trav : Traversal)
    (h : buildTraversal inp = .ok trav) (he : inp.targetsHaveExtent = false) :
    mergeCloseLists trav inp.tree.nboxes = none := by
  have F := travFields h
  unfold mergeCloseLists
  rw [F.list3Close, if_neg (by rw [he]; decide)]
  rfl

/-- A traversal with non-empty close lists, merged. -/
example : ∃ trav trav', buildTraversal Ex.exInputExt = .ok trav ∧
    mergeCloseLists trav 9 = some trav' ∧
    trav.list4Close.map (·.lists) = some [5, 3, 5] ∧
    trav'.list1.rowFor trav.targetBoxes 3 = [3, 4, 5] := by
  refine ⟨_, _, rfl, rfl, ?_, ?_⟩ <;> decide +kernel

end Boxtree
