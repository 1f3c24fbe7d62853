import Verif.Lemmas.Partition
import Verif.Lemmas.FmmTotal
import Verif.Props.Fmm

/-!
# C38: the box masks
-/

namespace Boxtree
open BoxTree Dist

variable {t : BoxTree}

theorem addParents_iff {cur : Nat → Bool} {p : Nat} :
    addParents t cur p = true ↔ ∃ i, i < t.nboxes ∧ i ≠ 0 ∧ cur i = true ∧ t.parent i = p := by
  unfold addParents
  simp only [List.any_eq_true, List.mem_range, Bool.and_eq_true, bne_iff_ne, ne_eq, beq_iff_eq]
  constructor
  · rintro ⟨i, h1, ⟨h2, h3⟩, h4⟩; exact ⟨i, h1, h2, h3, h4⟩
  · rintro ⟨i, h1, h2, h3, h4⟩; exact ⟨i, h1, ⟨h2, h3⟩, h4⟩

theorem properAnc_parent (hw : t.WF) {r b : Nat} (hr : r < t.nboxes) (hb : b < t.nboxes)
    (h0 : b ≠ 0) (h : b = r ∨ t.IsProperAnc b r) : t.IsProperAnc (t.parent b) r := by
  have hl := hw.level_parent b hb h0
  rcases h with rfl | ⟨h1, h2⟩
  · refine ⟨by omega, ?_⟩
    rw [← ancAt_parent t (by omega), show t.level (t.parent b) + 1 = t.level b by omega,
      ancAt_self]
  · refine ⟨by omega, ?_⟩
    rw [← ancAt_parent t (by omega), show t.level (t.parent b) + 1 = t.level b by omega, h2]

theorem ancestorLoop_spec (hw : t.WF) (resp : Nat → Bool) : ∀ n anc last,
    (∀ b, b < t.nboxes → last b = true → t.level b < n) →
    (∀ b, b < t.nboxes → anc b = true → ∃ r, r < t.nboxes ∧ resp r = true ∧ t.IsProperAnc b r) →
    (∀ b, b < t.nboxes → last b = true → resp b = true ∨ anc b = true) →
    (∀ b, b < t.nboxes → b ≠ 0 → resp b = true ∨ anc b = true →
      last b = true ∨ anc (t.parent b) = true) →
    ∃ m, ancestorLoop t n anc last = some m ∧ ∀ b, b < t.nboxes →
      (m b = true ↔ ∃ r, r < t.nboxes ∧ resp r = true ∧ t.IsProperAnc b r) := by
  intro n
  induction n with
  | zero =>
    intro anc last h1 h2 h3 h4
    unfold ancestorLoop
    rw [if_neg]
    · refine ⟨anc, rfl, fun b hb => ⟨h2 b hb, ?_⟩⟩
      rintro ⟨r, hr, hrr, ha⟩
      have key : ∀ k, k < t.level r → anc (t.ancAt r (t.level r - 1 - k)) = true := by
        intro k
        induction k with
        | zero =>
          intro hk
          have h0 : r ≠ 0 := by rintro rfl; rw [hw.level_root] at hk; omega
          rcases h4 r hr h0 (Or.inl hrr) with h | h
          · have := h1 r hr h; omega
          · rw [← ancAt_parent t (by omega),
              show t.level r - 1 - 0 + 1 = t.level r by omega, ancAt_self]
            exact h
        | succ k ih =>
          intro hk
          have h := ih (by omega)
          have hlt := hw.ancAt_lt hr (t.level r - 1 - k)
          have h0 := hw.ancAt_ne_zero hr (l := t.level r - 1 - k) (by omega) (by omega)
          rcases h4 _ hlt h0 (Or.inr h) with h' | h'
          · have := h1 _ hlt h'; omega
          · rw [← ancAt_parent t (by omega),
              show t.level r - 1 - (k + 1) + 1 = t.level r - 1 - k by omega]
            exact h'
      have := key (t.level r - 1 - t.level b) (by have := ha.1; omega)
      rw [show t.level r - 1 - (t.level r - 1 - t.level b) = t.level b by
        have := ha.1; omega, ha.2] at this
      exact this
    · simp only [List.any_eq_true, List.mem_range, not_exists, not_and]
      intro b hb h
      have := h1 b hb h
      omega
  | succ n ih =>
    intro anc last h1 h2 h3 h4
    unfold ancestorLoop
    by_cases hany : (List.range t.nboxes).any last = true
    · rw [if_pos hany]
      simp only
      have hnew : ∀ p, addParents t last p = true → p < t.nboxes ∧
          ∃ i, i < t.nboxes ∧ i ≠ 0 ∧ last i = true ∧ t.parent i = p := by
        intro p hp
        obtain ⟨i, hi, h0, hl, rfl⟩ := addParents_iff.1 hp
        exact ⟨hw.parent_lt i hi, i, hi, h0, hl, rfl⟩
      apply ih
      · intro b hb hbn
        simp only [Bool.and_eq_true] at hbn
        obtain ⟨-, i, hi, h0, hl, rfl⟩ := hnew b hbn.1
        have := h1 i hi hl
        have := hw.level_parent i hi h0
        omega
      · intro b hb hbn
        simp only [Bool.or_eq_true, Bool.and_eq_true] at hbn
        rcases hbn with hbn | ⟨hbn, -⟩
        · exact h2 b hb hbn
        · obtain ⟨-, i, hi, h0, hl, rfl⟩ := hnew b hbn
          rcases h3 i hi hl with h | h
          · exact ⟨i, hi, h, properAnc_parent hw hi hi h0 (Or.inl rfl)⟩
          · obtain ⟨r, hr, hrr, ha⟩ := h2 i hi h
            exact ⟨r, hr, hrr, properAnc_parent hw hr hi h0 (Or.inr ha)⟩
      · intro b hb hbn
        right
        simp only [Bool.or_eq_true]
        exact Or.inr hbn
      · intro b hb h0 hbn
        simp only [Bool.or_eq_true, Bool.and_eq_true, Bool.not_eq_true'] at hbn ⊢
        have old : resp b = true ∨ anc b = true →
            (addParents t last b = true ∧ anc b = false) ∨ anc (t.parent b) = true ∨
              addParents t last (t.parent b) = true ∧ anc (t.parent b) = false := by
          intro h
          rcases h4 b hb h0 h with h | h
          · right
            by_cases hp : anc (t.parent b) = true
            · exact Or.inl hp
            · exact Or.inr ⟨addParents_iff.2 ⟨b, hb, h0, h, rfl⟩, by simpa using hp⟩
          · exact Or.inr (Or.inl h)
        rcases hbn with h | h | h
        · exact old (Or.inl h)
        · exact old (Or.inr h)
        · exact Or.inl h
    · have hno : ∀ b, b < t.nboxes → last b = false := by
        intro b hb
        by_contra hc
        apply hany
        simp only [List.any_eq_true, List.mem_range]
        exact ⟨b, hb, by simpa using hc⟩
      -- the mask `last` is empty, so fewer iterations give the same result
      rw [if_neg hany]
      obtain ⟨m, hm, hmm⟩ := ih anc last (fun b hb h => by rw [hno b hb] at h; cases h) h2 h3 h4
      unfold ancestorLoop at hm
      rw [if_neg hany] at hm
      exact ⟨m, hm, hmm⟩

/-- **C38**: the loop of `get_ancestor_boxes_mask` ends, and the mask it returns holds exactly the
strict ancestors of responsible boxes. -/
theorem C38_ancestor_mask (t : BoxTree) (hw : t.WF) (resp : Nat → Bool) :
    (ancestorLoop t (t.nlevels + 1) (fun _ => false) resp).isSome = true ∧
    ∀ b, b < t.nboxes → (ancestorMask t resp b = true ↔
      ∃ r, r < t.nboxes ∧ resp r = true ∧ t.IsProperAnc b r) := by
  obtain ⟨m, h1, h2⟩ := ancestorLoop_spec hw resp (t.nlevels + 1) (fun _ => false) resp
    (fun b hb _ => by have := hw.level_lt b hb; omega) (by simp) (by simp) (by
      intro b hb h0 h
      simp only [Bool.false_eq_true, or_false] at h
      exact Or.inl h)
  unfold ancestorMask
  rw [h1]
  exact ⟨rfl, h2⟩

theorem addInteractionBoxes_iff {boxes : List Nat} {mask src : Nat → Bool} {bl : BuiltList}
    {x : Nat} : addInteractionBoxes boxes mask bl src x = true ↔
      src x = true ∨ ∃ b, mask b = true ∧ x ∈ bl.rowFor boxes b := by
  unfold addInteractionBoxes BuiltList.rowFor
  simp only [Bool.or_eq_true, List.any_eq_true, List.mem_range, Bool.and_eq_true,
    List.mem_flatMap, List.contains_iff_mem]
  constructor
  · rintro (h | ⟨i, hi, hm, hx⟩)
    · exact Or.inl h
    · exact Or.inr ⟨_, hm, i, hi, by rw [if_pos rfl]; exact hx⟩
  · rintro (h | ⟨b, hm, i, hi, hx⟩)
    · exact Or.inl h
    · split at hx
      · rename_i he
        exact Or.inr ⟨i, hi, by rw [he]; exact hm, hx⟩
      · simp at hx

/-- **C38**: the point source mask holds the responsible boxes, the boxes on list 1 and on the
close lists of responsible boxes, and the boxes on list 4 of responsible boxes and their
ancestors (with target extents also on the close list 4 of ancestors), and no others. -/
theorem C38_point_sources_exact (inp : TravInput) (trav : Traversal)
    (h : buildTraversal inp = .ok trav) (boxes : List Nat) (x : Nat) :
    let m := getBoxMasks inp.tree trav inp.targetsHaveExtent boxes
    m.pointSrc x = true ↔ x ∈ boxes ∨
      (∃ b ∈ boxes, x ∈ trav.list1.rowFor trav.targetBoxes b) ∨
      (∃ b, (b ∈ boxes ∨ m.ancestor b = true) ∧ x ∈ trav.list4.rowFor trav.ttpBoxes b) ∨
      (∃ bl, trav.list3Close = some bl ∧ ∃ b ∈ boxes, x ∈ bl.rowFor trav.targetBoxes b) ∨
      (∃ bl, trav.list4Close = some bl ∧ ∃ b, (b ∈ boxes ∨ m.ancestor b = true) ∧
        x ∈ bl.rowFor trav.targetBoxes b) := by
  have F := travFields h
  simp only [getBoxMasks, pointSrcMask]
  have hr : ∀ b, listMask boxes b = true ↔ b ∈ boxes := by
    intro b; unfold listMask; rw [List.contains_iff_mem]
  cases he : inp.targetsHaveExtent with
  | false =>
    have h3 : trav.list3Close = none := by rw [F.list3Close]; simp [he]
    have h4 : trav.list4Close = none := by rw [F.list4Close]; simp [he]
    simp only [Bool.false_eq_true, if_false, addInteractionBoxes_iff, Bool.or_eq_true, hr, h3, h4,
      reduceCtorEq, false_and, exists_false, or_false, or_assoc]
  | true =>
    obtain ⟨bl3, h3⟩ : ∃ bl, trav.list3Close = some bl := by
      rw [F.list3Close]; simp [he]
    cases h4 : trav.list4Close with
    | none =>
      simp only [if_true, h3, addInteractionBoxes_iff, Bool.or_eq_true, hr,
        reduceCtorEq, false_and, exists_false, or_false, or_assoc, Option.some.injEq,
        exists_eq_left']
    | some bl4 =>
      simp only [if_true, h3, addInteractionBoxes_iff, Bool.or_eq_true, hr,
        or_assoc, Option.some.injEq, exists_eq_left']

/-- **C38**: the multipole mask holds the boxes on list 2 of responsible boxes and their ancestors
and the boxes on list 3 of responsible boxes, and no others. -/
theorem C38_multipoles_exact (inp : TravInput) (trav : Traversal)
    (h : buildTraversal inp = .ok trav) (boxes : List Nat) (x : Nat) :
    let m := getBoxMasks inp.tree trav inp.targetsHaveExtent boxes
    m.multipoleSrc x = true ↔
      (∃ b, (b ∈ boxes ∨ m.ancestor b = true) ∧ x ∈ trav.list2.rowFor trav.ttpBoxes b) ∨
      (∃ l, l < trav.list3.length ∧ ∃ b ∈ boxes,
        x ∈ (trav.list3.getD l ⟨[], []⟩).rowFor (trav.list3Targets.getD l []) b) := by
  have F := travFields h
  have hr : ∀ b, listMask boxes b = true ↔ b ∈ boxes := by
    intro b; unfold listMask; rw [List.contains_iff_mem]
  simp only [getBoxMasks, multipoleSrcMask]
  rw [F.length3]
  have key : ∀ n (m0 : Nat → Bool), ((List.range n).foldl (fun m l =>
      addInteractionBoxes (trav.list3Targets.getD l []) (listMask boxes)
        (trav.list3.getD l ⟨[], []⟩) m) m0) x = true ↔ m0 x = true ∨
      ∃ l, l < n ∧ ∃ b ∈ boxes,
        x ∈ (trav.list3.getD l ⟨[], []⟩).rowFor (trav.list3Targets.getD l []) b := by
    intro n m0
    induction n with
    | zero => simp
    | succ n ih =>
      rw [List.range_succ, List.foldl_append, List.foldl_cons, List.foldl_nil,
        addInteractionBoxes_iff, ih]
      simp only [hr]
      constructor
      · rintro ((h | ⟨l, hl, h⟩) | h)
        · exact Or.inl h
        · exact Or.inr ⟨l, by omega, h⟩
        · exact Or.inr ⟨n, by omega, h⟩
      · rintro (h | ⟨l, hl, h⟩)
        · exact Or.inl (Or.inl h)
        · rcases Nat.lt_succ_iff_lt_or_eq.1 hl with hl | rfl
          · exact Or.inl (Or.inr ⟨l, hl, h⟩)
          · exact Or.inr h
  rw [key, addInteractionBoxes_iff]
  simp only [Bool.false_eq_true, false_or, Bool.or_eq_true, hr]

/-- A box is a responsible box or an ancestor of one iff its subtree has a responsible box. -/
theorem anc_of_responsible (hw : t.WF) {boxes : List Nat} {tgt a : Nat} (ht : tgt < t.nboxes)
    (hm : tgt ∈ boxes) (ha : a ∈ t.ancestorsOrSelf tgt) :
    a ∈ boxes ∨ ancestorMask t (listMask boxes) a = true := by
  obtain ⟨halt, h1, h2⟩ := (mem_ancestorsOrSelf hw ht).1 ha
  rcases Nat.lt_or_ge (t.level a) (t.level tgt) with h | h
  · right
    rw [(C38_ancestor_mask t hw _).2 a halt]
    exact ⟨tgt, ht, by unfold listMask; rw [List.contains_iff_mem]; exact hm, h, h2⟩
  · left
    rw [ancAt_ge t h] at h2
    rw [← h2]; exact hm

/-- Sources used particle by particle for a responsible box are in the point source mask. -/
theorem pointSrc_of_uses (inp : TravInput) (trav : Traversal) (hw : inp.tree.WF)
    (h : buildTraversal inp = .ok trav) (boxes : List Nat) {tgt s : Nat}
    (ht : tgt < inp.tree.nboxes) (hm : tgt ∈ boxes)
    (hu : UsesSources trav inp.tree tgt s) :
    (getBoxMasks inp.tree trav inp.targetsHaveExtent boxes).pointSrc s = true := by
  apply (C38_point_sources_exact inp trav h boxes s).2
  rcases hu with hu | ⟨bl, hbl, hu⟩ | ⟨bl, hbl, hu⟩ | ⟨a, ha, hu⟩
  · exact Or.inr (Or.inl ⟨tgt, hm, hu⟩)
  · exact Or.inr (Or.inr (Or.inr (Or.inl ⟨bl, hbl, tgt, hm, hu⟩)))
  · exact Or.inr (Or.inr (Or.inr (Or.inr ⟨bl, hbl, tgt, Or.inl hm, hu⟩)))
  · exact Or.inr (Or.inr (Or.inl ⟨a, anc_of_responsible hw ht hm ha, hu⟩))

/-- Multipoles used for a responsible box are in the multipole mask. -/
theorem multipoleSrc_of_uses (inp : TravInput) (trav : Traversal) (hw : inp.tree.WF)
    (h : buildTraversal inp = .ok trav) (boxes : List Nat) {tgt s : Nat}
    (ht : tgt < inp.tree.nboxes) (hm : tgt ∈ boxes)
    (hu : UsesMultipole trav inp.tree tgt s) :
    (getBoxMasks inp.tree trav inp.targetsHaveExtent boxes).multipoleSrc s = true := by
  apply (C38_multipoles_exact inp trav h boxes s).2
  rcases hu with ⟨a, ha, hu⟩ | ⟨l, hl, hu⟩
  · exact Or.inl ⟨a, anc_of_responsible hw ht hm ha, hu⟩
  · exact Or.inr ⟨l, hl, tgt, hm, hu⟩

section
variable {M : Type} [AddCommMonoid M]

/-- What the evaluation phase returns at a target depends only on the sources and multipoles it
uses there. -/
theorem evaluate_congr {inp : TravInput} {trav : Traversal} (ok : inp.OK)
    (hlev : inp.tree.LevelsOK) (h : buildTraversal inp = .ok trav) (q : Particles)
    (w w' mp mp' : Nat → M) (tgt p : Nat) (htgt : tgt ∈ trav.targetBoxes)
    (hp : ∀ b ∈ trav.targetBoxes, InTgt q b p ↔ b = tgt)
    (hW : ∀ s, UsesSources trav inp.tree tgt s → Fmm.boxWeight q w s = Fmm.boxWeight q w' s)
    (hmp : ∀ s, UsesMultipole trav inp.tree tgt s → mp s = mp' s) :
    Fmm.evaluate inp.tree q trav w mp p = Fmm.evaluate inp.tree q trav w' mp' p := by
  have F := travFields h
  have hw := ok.wf
  have http := F.target_sub ok htgt
  have hb : BoxListOK inp.tree trav.ttpBoxes := by
    rw [F.ttpBoxes]
    exact ⟨List.pairwise_lt_range.filter _, fun _ hb => List.mem_range.1 (List.mem_filter.1 hb).1⟩
  have hparent : ∀ b ∈ trav.ttpBoxes, b ≠ 0 → inp.tree.parent b ∈ trav.ttpBoxes := by
    intro b hb h0
    have hblt := F.ttp_lt hb
    have hl := hw.level_pos hblt h0
    have := F.anc_ttp ok hb (l := inp.tree.level b - 1) (by omega)
    unfold ancAt at this
    rwa [show inp.tree.level b - (inp.tree.level b - 1) = 1 by omega] at this
  have s1 : Fmm.evalDirect q trav.targetBoxes trav.list1 w p =
      Fmm.evalDirect q trav.targetBoxes trav.list1 w' p := by
    rw [evalDirect_at q _ F.nodup_target _ w p tgt htgt hp,
      evalDirect_at q _ F.nodup_target _ w' p tgt htgt hp]
    congr 1
    exact List.map_congr_left fun s hs => hW s (Or.inl hs)
  have s3 : Fmm.evalMultipoles q trav.list3Targets trav.list3 mp p =
      Fmm.evalMultipoles q trav.list3Targets trav.list3 mp' p := by
    rw [evalMultipoles_at q _ _ mp p tgt fun l hl b hb => hp b (list3Targets_sub F hl hb),
      evalMultipoles_at q _ _ mp' p tgt fun l hl b hb => hp b (list3Targets_sub F hl hb)]
    congr 1
    apply List.map_congr_left
    intro l hl
    congr 1
    exact List.map_congr_left fun s hs => hmp s (Or.inr ⟨l, List.mem_range.1 hl, hs⟩)
  have close : ∀ (o : Option BuiltList) (pot pot' : Nat → M),
      (∀ bl, o = some bl → ∀ s ∈ bl.rowFor trav.targetBoxes tgt,
        UsesSources trav inp.tree tgt s) → pot p = pot' p →
      Fmm.addDirect q trav.targetBoxes o w pot p =
        Fmm.addDirect q trav.targetBoxes o w' pot' p := by
    intro o pot pot' ho hpot
    unfold Fmm.addDirect
    cases o with
    | none => exact hpot
    | some bl =>
      simp only
      rw [evalDirect_at q _ F.nodup_target _ w p tgt htgt hp,
        evalDirect_at q _ F.nodup_target _ w' p tgt htgt hp, hpot]
      congr 2
      exact List.map_congr_left fun s hs => hW s (ho bl rfl s hs)
  have sloc : Fmm.evalLocals q trav.targetBoxes
      (Fmm.refineLocals inp.tree trav.levelStartTtp trav.ttpBoxes fun b =>
        Fmm.multipoleToLocal trav.ttpBoxes trav.list2 mp b +
          Fmm.formLocals q trav.ttpBoxes trav.list4 w b) p =
      Fmm.evalLocals q trav.targetBoxes
      (Fmm.refineLocals inp.tree trav.levelStartTtp trav.ttpBoxes fun b =>
        Fmm.multipoleToLocal trav.ttpBoxes trav.list2 mp' b +
          Fmm.formLocals q trav.ttpBoxes trav.list4 w' b) p := by
    rw [evalLocals_at q _ F.nodup_target _ p tgt htgt hp,
      evalLocals_at q _ F.nodup_target _ p tgt htgt hp, F.lsTtp,
      refineLocals_at hw hlev hb hparent _ _ http, refineLocals_at hw hlev hb hparent _ _ http]
    congr 1
    apply List.map_congr_left
    intro a ha
    rw [multipoleToLocal_at, multipoleToLocal_at, formLocals_at, formLocals_at]
    congr 2
    · exact List.map_congr_left fun s hs => hmp s (Or.inl ⟨a, ha, hs⟩)
    · exact List.map_congr_left fun s hs => hW s (Or.inr (Or.inr (Or.inr ⟨a, ha, hs⟩)))
  unfold Fmm.evaluate
  rw [sloc]
  congr 1
  apply close _ _ _ fun bl hbl s hs => Or.inr (Or.inr (Or.inl ⟨bl, hbl, hs⟩))
  apply close _ _ _ fun bl hbl s hs => Or.inr (Or.inl ⟨bl, hbl, hs⟩)
  rw [s1, s3]

/-- **C38**: the masks contain everything a rank needs.  Changing the weights of sources in boxes
outside the point source mask, and the multipoles of boxes outside the multipole mask, does
not change the potential at any target of a responsible box. -/
theorem C38_masks_suffice (inp : TravInput) (trav : Traversal) (ok : inp.OK)
    (hlev : inp.tree.LevelsOK) (h : buildTraversal inp = .ok trav) (hm : inp.srcMask = none)
    (q : Particles) (hq : q.OK inp.tree) (boxes : List Nat) (w w' mp mp' : Nat → M)
    (hw : ∀ s, s < inp.tree.nboxes →
      (getBoxMasks inp.tree trav inp.targetsHaveExtent boxes).pointSrc s = true →
      ∀ j, q.srcStart s ≤ j → j < q.srcStart s + q.srcCount s → w j = w' j)
    (hmp : ∀ s, s < inp.tree.nboxes →
      (getBoxMasks inp.tree trav inp.targetsHaveExtent boxes).multipoleSrc s = true →
      mp s = mp' s)
    (tgt p : Nat) (hlt : tgt < inp.tree.nboxes) (htgt : inp.tree.isTarget tgt = true)
    (hmem : tgt ∈ boxes) (hp1 : q.tgtStart tgt ≤ p) (hp2 : p < q.tgtStart tgt + q.tgtCount tgt) :
    Fmm.evaluate inp.tree q trav w mp p = Fmm.evaluate inp.tree q trav w' mp' p := by
  have F := travFields h
  have htb : ∀ b, b ∈ trav.targetBoxes ↔ b < inp.tree.nboxes ∧ inp.tree.isTarget b = true :=
    mem_targetBoxes_iff inp trav ok h hm
  apply evaluate_congr ok hlev h q w w' mp mp' tgt p ((htb tgt).2 ⟨hlt, htgt⟩)
  · intro b hb
    obtain ⟨b1, b2⟩ := (htb b).1 hb
    constructor
    · rintro ⟨h5, h6⟩
      exact hq.tgt_disjoint b b1 b2 tgt hlt htgt p h5 h6 hp1 hp2
    · rintro rfl; exact ⟨hp1, hp2⟩
  · intro s hs
    obtain ⟨hs1, -⟩ := usesSources_is ok h ((htb tgt).2 ⟨hlt, htgt⟩) hs
    unfold Fmm.boxWeight
    congr 1
    apply List.map_congr_left
    intro j hj
    have := List.mem_range.1 hj
    exact hw s hs1 (pointSrc_of_uses inp trav ok.wf h boxes hlt hmem hs) _ (by omega) (by omega)
  · intro s hs
    obtain ⟨hs1, -⟩ := usesMultipole_is ok h ((htb tgt).2 ⟨hlt, htgt⟩) hs
    exact hmp s hs1 (multipoleSrc_of_uses inp trav ok.wf h boxes hlt hmem hs)

end

/-- Rank 1 of the example partition, responsible for boxes 7, 5 and 1: its ancestors are the root,
2 and 6; it needs sources of 4 and 8 besides its own, and multipoles of 3, 4 and 8. -/
example : (match buildTraversal Ex.exInput with
    | .ok trav =>
      let m := getBoxMasks Ex.exTree trav false [7, 5, 1]
      some ((List.range 9).filter m.ancestor, (List.range 9).filter m.pointSrc,
        (List.range 9).filter m.multipoleSrc)
    | .error _ => none) = some ([0, 2, 6], [1, 4, 5, 7, 8], [3, 4, 8]) := by
  decide +kernel

end Boxtree
