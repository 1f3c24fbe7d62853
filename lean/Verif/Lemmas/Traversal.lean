import Verif.Spec.Traversal
import Verif.Lemmas.Csr
import Verif.Lemmas.ExactlyOnce

set_option linter.unusedSimpArgs false
set_option linter.unusedVariables false

namespace Boxtree
open BoxTree

theorem flatMap_single (n : Nat) (k : Nat) (hk : k < n) (g : Nat → List Nat) (c : Nat → Prop)
    [DecidablePred c] (h : ∀ i, i < n → (c i ↔ i = k)) :
    ((List.range n).flatMap fun i => if c i then g i else []) = g k := by
  induction n with
  | zero => omega
  | succ n ih =>
    rw [List.range_succ, List.flatMap_append]
    by_cases hkn : k = n
    · subst hkn
      have : ((List.range k).flatMap fun i => if c i then g i else []) = [] := by
        rw [List.flatMap_eq_nil_iff]
        intro i hi
        have hi' : i < k := by simpa using hi
        rw [if_neg]
        rw [h i (by omega)]; omega
      rw [this]
      simp [(h k (by omega)).2 rfl]
    · rw [ih (by omega) (fun i hi => h i (by omega))]
      have : ¬ c n := by rw [h n (by omega)]; omega
      simp [this]

/-- Reading the row of a box in the CSR form of `boxes.map f`. -/
theorem rowFor_build (boxes : List Nat) (hnd : boxes.Nodup) (f : Nat → List Nat) (b : Nat) :
    (buildLists (boxes.map f)).rowFor boxes b = if b ∈ boxes then f b else [] := by
  unfold BuiltList.rowFor
  split
  · rename_i hb
    obtain ⟨k, hk, hkb⟩ := List.mem_iff_getElem.1 hb
    have hkb' : boxes.getD k 0 = b := by rw [List.getD_eq_getElem _ _ hk]; exact hkb
    rw [flatMap_single boxes.length k hk _ (fun i => boxes.getD i 0 = b)]
    · rw [row_build _ _ (by simpa using hk), List.getD_eq_getElem _ _ (by simpa using hk)]
      simp [hkb]
    · intro i hi
      constructor
      · intro h; exact getD_inj_of_nodup hnd hi hk (h.trans hkb'.symm)
      · rintro rfl; exact hkb'
  · rename_i hb
    rw [List.flatMap_eq_nil_iff]
    intro i hi
    have hi' : i < boxes.length := by simpa using hi
    rw [if_neg]
    intro h
    apply hb
    rw [← h, List.getD_eq_getElem _ _ hi']; exact List.getElem_mem hi'

theorem nonemptyRows_map (boxes : List Nat) (f : Nat → List Nat) :
    nonemptyRows (boxes.map f) = (boxes.filter fun b => !(f b).isEmpty).map f := by
  unfold nonemptyRows
  rw [List.filter_map]; rfl

theorem nonemptyIndices_map (boxes : List Nat) (f : Nat → List Nat) :
    (nonemptyIndices (boxes.map f)).map (fun i => boxes.getD i 0) =
      boxes.filter fun b => !(f b).isEmpty := by
  unfold nonemptyIndices
  have h1 : (List.range (boxes.map f).length).filter
      (fun i => !((boxes.map f).getD i []).isEmpty) =
      (List.range boxes.length).filter (fun i => !(f (boxes.getD i 0)).isEmpty) := by
    rw [List.length_map]
    apply List.filter_congr
    intro i hi
    have hi' : i < boxes.length := by simpa using hi
    rw [List.getD_eq_getElem _ _ (by simpa using hi'), List.getD_eq_getElem _ _ hi']
    simp
  rw [h1]
  have h2 : boxes = (List.range boxes.length).map (fun i => boxes.getD i 0) := by
    apply List.ext_getElem
    · simp
    · intro i hi _
      simp [List.getElem?_eq_getElem hi]
  conv_rhs => rw [h2, List.filter_map]
  rfl

theorem rowFor_nonempty (boxes : List Nat) (hnd : boxes.Nodup) (f : Nat → List Nat) (b : Nat) :
    (buildLists (nonemptyRows (boxes.map f))).rowFor
      ((nonemptyIndices (boxes.map f)).map fun i => boxes.getD i 0) b =
      if b ∈ boxes then f b else [] := by
  rw [nonemptyRows_map, nonemptyIndices_map, rowFor_build _ (hnd.filter _)]
  by_cases hb : b ∈ boxes
  · by_cases he : f b = []
    · simp [hb, he]
    · simp [hb, he]
  · simp [hb]

theorem mergedCount_build (rowss : List (List (List Nat))) (i : Nat)
    (h : ∀ rows ∈ rowss, i < rows.length) :
    mergedCount (rowss.map buildLists) i = (mergedRow (rowss.map buildLists) i).length := by
  unfold mergedCount mergedRow
  induction rowss with
  | nil => rfl
  | cons r rs ih =>
    simp only [List.map_cons, List.sum_cons, List.flatMap_cons, List.length_append]
    rw [ih (fun rows hr => h rows (List.mem_cons_of_mem _ hr)),
      row_length_build _ _ (h r List.mem_cons_self)]

theorem mergedRow_build (rowss : List (List (List Nat))) (i : Nat)
    (h : ∀ rows ∈ rowss, i < rows.length) :
    mergedRow (rowss.map buildLists) i = rowss.flatMap fun rows => rows.getD i [] := by
  unfold mergedRow
  induction rowss with
  | nil => rfl
  | cons r rs ih =>
    simp only [List.map_cons, List.flatMap_cons]
    rw [ih (fun rows hr => h rows (List.mem_cons_of_mem _ hr)),
      row_build _ _ (h r List.mem_cons_self)]

/-- Merging CSR lists with the same index style concatenates rows. -/
theorem merge_same (fs : List (Nat → List Nat)) (boxes : List Nat) (order : List Nat)
    (hperm : ∀ i, i ∈ order ↔ i < boxes.length) :
    mergeListsWith (fs.map fun f => buildLists (boxes.map f)) (List.range boxes.length) order =
      buildLists (boxes.map fun b => fs.flatMap fun f => f b) := by
  have hconv : (fs.map fun f => buildLists (boxes.map f)) =
      (fs.map fun f => boxes.map f).map buildLists := by rw [List.map_map]; rfl
  rw [hconv, mergeListsWith_eq]
  · congr 1
    apply List.ext_getElem
    · simp
    · intro i h1 h2
      have hi : i < boxes.length := by simpa using h2
      rw [List.getElem_map, List.getElem_map, mergedRow_build]
      · simp only [List.getElem_range, List.flatMap_map]
        apply List.flatMap_congr
        intro f _
        rw [List.getD_eq_getElem _ _ (by simpa using hi)]; simp
      · intro rows hr
        obtain ⟨f, _, rfl⟩ := List.mem_map.1 hr
        simpa using hi
  · intro b hb
    apply mergedCount_build
    intro rows hr
    obtain ⟨f, _, rfl⟩ := List.mem_map.1 hr
    simpa using hb
  · simpa using hperm

/-- Merging lists indexed by `ttp` into lists indexed by `tb ⊆ ttp`. -/
theorem merge_restrict (fs : List (Nat → List Nat)) (tb ttp : List Nat) (n : Nat)
    (order : List Nat) (hnd : ttp.Nodup) (hlt : ∀ x ∈ ttp, x < n) (hsub : ∀ b ∈ tb, b ∈ ttp)
    (hperm : ∀ i, i ∈ order ↔ i < tb.length) :
    mergeListsWith (fs.map fun f => buildLists (ttp.map f))
      (tb.map fun b => (reverseIndexArray ttp n).getD b 0) order =
      buildLists (tb.map fun b => fs.flatMap fun f => f b) := by
  have hrev : ∀ b ∈ tb, (reverseIndexArray ttp n).getD b 0 < ttp.length ∧
      ttp.getD ((reverseIndexArray ttp n).getD b 0) 0 = b := by
    intro b hb
    obtain ⟨k, hk, hkb⟩ := List.mem_iff_getElem.1 (hsub b hb)
    have hkb' : ttp.getD k 0 = b := by rw [List.getD_eq_getElem _ _ hk]; exact hkb
    have := reverseIndexArray_getD ttp n hnd hlt k hk
    rw [hkb'] at this
    rw [this]; exact ⟨hk, hkb'⟩
  have hconv : (fs.map fun f => buildLists (ttp.map f)) =
      (fs.map fun f => ttp.map f).map buildLists := by rw [List.map_map]; rfl
  rw [hconv, mergeListsWith_eq]
  · congr 1
    rw [List.map_map]
    apply List.map_congr_left
    intro b hb
    obtain ⟨h1, h2⟩ := hrev b hb
    simp only [Function.comp]
    rw [mergedRow_build]
    · rw [List.flatMap_map]
      apply List.flatMap_congr
      intro f _
      rw [List.getD_eq_getElem _ _ (by simpa using h1)]
      rw [List.getD_eq_getElem _ _ h1] at h2
      rw [List.getElem_map, h2]
    · intro rows hr
      obtain ⟨f, _, rfl⟩ := List.mem_map.1 hr
      simpa using h1
  · intro i hi
    obtain ⟨b, hb, rfl⟩ := List.mem_map.1 hi
    apply mergedCount_build
    intro rows hr
    obtain ⟨f, _, rfl⟩ := List.mem_map.1 hr
    simpa using (hrev b hb).1
  · simpa using hperm

/-! ### role lists -/

theorem nodup_selSource (t : BoxTree) (m) : (selSourceBoxes t m).Nodup :=
  List.nodup_range.filter _
theorem nodup_selTarget (t : BoxTree) : (selTargetBoxes t).Nodup :=
  List.nodup_range.filter _
theorem nodup_selTtp (t : BoxTree) : (selTtpBoxes t).Nodup :=
  List.nodup_range.filter _
theorem nodup_selSourceParent (t : BoxTree) (m) : (selSourceParentBoxes t m).Nodup :=
  List.nodup_range.filter _


theorem hasFlag_or (f a b : Nat) : hasFlag f (a ||| b) = (hasFlag f a || hasFlag f b) := by
  unfold hasFlag
  rw [Nat.and_or_distrib_left]
  cases ha : (f &&& a) with
  | zero => simp
  | succ n =>
    have hne : ((n + 1) ||| (f &&& b)) ≠ 0 := by
      intro h
      have := Nat.or_eq_zero_iff.1 h
      omega
    simp [hne]

theorem mem_selTtp (t : BoxTree) (b : Nat) : b ∈ selTtpBoxes t ↔
    b < t.nboxes ∧ (t.isTarget b = true ∨ t.hasTargetChild b = true) := by
  unfold selTtpBoxes
  rw [List.mem_filter, hasFlag_or]
  simp only [List.mem_range, Bool.or_eq_true, BoxTree.isTarget, BoxTree.hasTargetChild]
  tauto

theorem mem_selTarget (t : BoxTree) (b : Nat) : b ∈ selTargetBoxes t ↔
    b < t.nboxes ∧ t.isTarget b = true := by
  unfold selTargetBoxes
  simp

theorem mem_selSource (t : BoxTree) (m : Option (Nat → Bool)) (b : Nat) :
    b ∈ selSourceBoxes t m ↔
    b < t.nboxes ∧ t.isSource b = true ∧ (m.getD fun _ => true) b = true := by
  unfold selSourceBoxes
  simp

theorem mem_selSourceParent (t : BoxTree) (m : Option (Nat → Bool)) (b : Nat) :
    b ∈ selSourceParentBoxes t m ↔
    b < t.nboxes ∧ t.hasSourceChild b = true ∧ (m.getD fun _ => true) b = true := by
  unfold selSourceParentBoxes
  simp

/-! ### the fields of a built traversal -/

/-- What a successfully built traversal consists of. -/
structure TravFields (inp : TravInput) (trav : Traversal) : Prop where
  checked : inp.check = .ok ()
  sourceBoxes : trav.sourceBoxes = selSourceBoxes inp.tree inp.srcMask
  sourceParentBoxes : trav.sourceParentBoxes = selSourceParentBoxes inp.tree inp.srcParentMask
  ttpBoxes : trav.ttpBoxes = selTtpBoxes inp.tree
  targetBoxes : trav.targetBoxes =
    if inp.sourcesAreTargets then selSourceBoxes inp.tree inp.srcMask else selTargetBoxes inp.tree
  lsSource : trav.levelStartSource = extractLevelStarts inp.tree trav.sourceBoxes
  lsTarget : trav.levelStartTarget = extractLevelStarts inp.tree trav.targetBoxes
  lsSourceParent : trav.levelStartSourceParent =
    extractLevelStarts inp.tree trav.sourceParentBoxes
  lsTtp : trav.levelStartTtp = extractLevelStarts inp.tree trav.ttpBoxes
  slnws : trav.slnws =
    buildLists ((List.range inp.tree.nboxes).map (slnwsKernel inp.tree inp.params))
  list1 : trav.list1 = buildLists (trav.targetBoxes.map (list1Kernel inp.tree inp.params))
  list2 : trav.list2 =
    buildLists (trav.ttpBoxes.map (list2Kernel inp.tree inp.params trav.slnws.row))
  list3 : trav.list3 = (List.range inp.tree.nlevels).map fun (l : Nat) =>
    buildLists (nonemptyRows (trav.targetBoxes.map fun b =>
      sepPart (list3Kernel inp.tree inp.params trav.slnws.row (l : Int) b)))
  list3Targets : trav.list3Targets = (List.range inp.tree.nlevels).map fun (l : Nat) =>
    (nonemptyIndices (trav.targetBoxes.map fun b =>
      sepPart (list3Kernel inp.tree inp.params trav.slnws.row (l : Int) b))).map
        fun i => trav.targetBoxes.getD i 0
  list3Close : trav.list3Close =
    if inp.targetsHaveExtent then
      some (buildLists (trav.targetBoxes.map fun b =>
        closePart (list3Kernel inp.tree inp.params trav.slnws.row (-1) b)))
    else none
  list4 : trav.list4 = buildLists (trav.ttpBoxes.map fun b =>
    sepPart (list4Kernel inp.tree inp.params trav.slnws.row b))
  list4Close : trav.list4Close =
    if inp.targetsHaveExtent then
      (listMerger [buildLists (trav.ttpBoxes.map fun b =>
        closePart (list4Kernel inp.tree inp.params trav.slnws.row b))]
        .targetOrTargetParentBoxes .targetBoxes trav.targetBoxes trav.ttpBoxes
        inp.tree.nboxes).toOption
    else none

theorem travFields {inp : TravInput} {trav : Traversal} (h : buildTraversal inp = .ok trav) :
    TravFields inp trav := by
  unfold buildTraversal at h
  cases hc : inp.check with
  | error e => rw [hc] at h; cases h
  | ok u =>
    rw [hc] at h
    have h' := Except.ok.inj h
    subst h'
    constructor <;> first | rfl | exact hc

section Fields
variable {inp : TravInput} {trav : Traversal}

theorem TravFields.row_slnws (F : TravFields inp trav) (b : Nat) (hb : b < inp.tree.nboxes) :
    trav.slnws.row b = slnwsKernel inp.tree inp.params b := by
  rw [F.slnws, row_build _ _ (by simpa using hb), List.getD_eq_getElem _ _ (by simpa using hb)]
  simp

theorem TravFields.nodup_target (F : TravFields inp trav) : trav.targetBoxes.Nodup := by
  rw [F.targetBoxes]; split
  · exact nodup_selSource _ _
  · exact nodup_selTarget _

theorem TravFields.nodup_ttp (F : TravFields inp trav) : trav.ttpBoxes.Nodup := by
  rw [F.ttpBoxes]; exact nodup_selTtp _

theorem TravFields.target_lt (F : TravFields inp trav) {b : Nat} (hb : b ∈ trav.targetBoxes) :
    b < inp.tree.nboxes := by
  rw [F.targetBoxes] at hb
  split at hb
  · exact ((mem_selSource _ _ _).1 hb).1
  · exact ((mem_selTarget _ _).1 hb).1

theorem TravFields.target_is (F : TravFields inp trav) (ok : inp.OK) {b : Nat}
    (hb : b ∈ trav.targetBoxes) : inp.tree.isTarget b = true := by
  have hlt := F.target_lt hb
  rw [F.targetBoxes] at hb
  split at hb
  · rename_i hs
    obtain ⟨-, h1, h2⟩ := (mem_selSource _ _ _).1 hb
    rw [← ok.srcTgt hs b hlt h2]
    exact h1
  · exact ((mem_selTarget _ _).1 hb).2

theorem TravFields.target_sub (F : TravFields inp trav) (ok : inp.OK) {b : Nat}
    (hb : b ∈ trav.targetBoxes) : b ∈ trav.ttpBoxes := by
  rw [F.ttpBoxes, mem_selTtp]
  exact ⟨F.target_lt hb, Or.inl (F.target_is ok hb)⟩

theorem TravFields.ttp_lt (F : TravFields inp trav) {b : Nat} (hb : b ∈ trav.ttpBoxes) :
    b < inp.tree.nboxes := by
  rw [F.ttpBoxes, mem_selTtp] at hb; exact hb.1

theorem TravFields.anc_ttp (F : TravFields inp trav) (ok : inp.OK) {b l : Nat}
    (hb : b ∈ trav.ttpBoxes) (hl : l ≤ inp.tree.level b) :
    inp.tree.ancAt b l ∈ trav.ttpBoxes := by
  have hlt := F.ttp_lt hb
  rw [F.ttpBoxes, mem_selTtp] at hb ⊢
  refine ⟨ok.wf.ancAt_lt hlt l, ?_⟩
  rcases Nat.lt_or_ge l (inp.tree.level b) with h | h
  · exact Or.inr (ok.flags.tgt_anc ok.wf hlt hb.2 h)
  · have : l = inp.tree.level b := by omega
    rw [this, ancAt_self]; exact hb.2

theorem TravFields.row1 (F : TravFields inp trav) (b : Nat) :
    trav.list1.rowFor trav.targetBoxes b =
      if b ∈ trav.targetBoxes then list1Kernel inp.tree inp.params b else [] := by
  rw [F.list1, rowFor_build _ F.nodup_target]

theorem TravFields.row2 (F : TravFields inp trav) (b : Nat) :
    trav.list2.rowFor trav.ttpBoxes b =
      if b ∈ trav.ttpBoxes then list2Kernel inp.tree inp.params trav.slnws.row b else [] := by
  rw [F.list2, rowFor_build _ F.nodup_ttp]

theorem TravFields.length3 (F : TravFields inp trav) :
    trav.list3.length = inp.tree.nlevels := by rw [F.list3]; simp

theorem TravFields.row3 (F : TravFields inp trav) (l : Nat) (hl : l < inp.tree.nlevels)
    (b : Nat) :
    (trav.list3.getD l ⟨[], []⟩).rowFor (trav.list3Targets.getD l []) b =
      if b ∈ trav.targetBoxes then
        sepPart (list3Kernel inp.tree inp.params trav.slnws.row (l : Int) b) else [] := by
  rw [F.list3, F.list3Targets, List.getD_eq_getElem _ _ (by simpa using hl),
    List.getD_eq_getElem _ _ (by simpa using hl)]
  simp only [List.getElem_map, List.getElem_range]
  rw [rowFor_nonempty _ F.nodup_target (fun b =>
    sepPart (list3Kernel inp.tree inp.params trav.slnws.row (l : Int) b))]

theorem TravFields.row3Close (F : TravFields inp trav) (he : inp.targetsHaveExtent = true) :
    ∃ bl, trav.list3Close = some bl ∧ bl = buildLists (trav.targetBoxes.map fun b =>
        closePart (list3Kernel inp.tree inp.params trav.slnws.row (-1) b)) ∧
      ∀ b, bl.rowFor trav.targetBoxes b =
        if b ∈ trav.targetBoxes then
          closePart (list3Kernel inp.tree inp.params trav.slnws.row (-1) b) else [] := by
  refine ⟨_, by rw [F.list3Close, if_pos he], rfl, fun b => ?_⟩
  rw [rowFor_build _ F.nodup_target]

theorem TravFields.row4 (F : TravFields inp trav) (b : Nat) :
    trav.list4.rowFor trav.ttpBoxes b =
      if b ∈ trav.ttpBoxes then
        sepPart (list4Kernel inp.tree inp.params trav.slnws.row b) else [] := by
  rw [F.list4, rowFor_build _ F.nodup_ttp]

theorem TravFields.row4Close (F : TravFields inp trav) (ok : inp.OK)
    (he : inp.targetsHaveExtent = true) :
    ∃ bl, trav.list4Close = some bl ∧ bl = buildLists (trav.targetBoxes.map fun b =>
        closePart (list4Kernel inp.tree inp.params trav.slnws.row b)) ∧
      ∀ b, bl.rowFor trav.targetBoxes b =
        if b ∈ trav.targetBoxes then
          closePart (list4Kernel inp.tree inp.params trav.slnws.row b) else [] := by
  have hm := merge_restrict [fun b => closePart (list4Kernel inp.tree inp.params trav.slnws.row b)]
    trav.targetBoxes trav.ttpBoxes inp.tree.nboxes (List.range trav.targetBoxes.length)
    F.nodup_ttp (fun x hx => F.ttp_lt hx) (fun b hb => F.target_sub ok hb) (by simp)
  refine ⟨_, ?_, rfl, fun b => ?_⟩
  · rw [F.list4Close, if_pos he]
    unfold listMerger
    simp only [List.map_cons, List.map_nil, List.flatMap_cons, List.flatMap_nil,
      List.append_nil] at hm
    simp only [List.length_map, hm]
    rfl
  · rw [rowFor_build _ F.nodup_target]

end Fields

theorem count_sepPart (l : List Out) (s : Nat) : (sepPart l).count s = l.count (Out.sep s) := by
  induction l with
  | nil => rfl
  | cons o l ih =>
    unfold sepPart at *
    cases o with
    | sep b => simp only [List.filterMap_cons, List.count_cons, ih]; simp
    | close b => simp only [List.filterMap_cons, List.count_cons, ih]; simp

theorem count_closePart (l : List Out) (s : Nat) :
    (closePart l).count s = l.count (Out.close s) := by
  induction l with
  | nil => rfl
  | cons o l ih =>
    unfold closePart at *
    cases o with
    | sep b => simp only [List.filterMap_cons, List.count_cons, ih]; simp
    | close b => simp only [List.filterMap_cons, List.count_cons, ih]; simp

end Boxtree
