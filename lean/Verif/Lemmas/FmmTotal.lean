import Verif.Lemmas.Fmm
import Verif.Props.ExactlyOnce
import Verif.Spec.Fmm
import Mathlib.Tactic.Abel

set_option linter.unusedSimpArgs false
set_option linter.unusedVariables false

namespace Boxtree
open BoxTree

variable {M : Type} [AddCommMonoid M]

/-- source box `s` is used particle by particle for targets of `tgt` -/
def UsesSources (trav : Traversal) (t : BoxTree) (tgt s : Nat) : Prop :=
  s ∈ trav.list1.rowFor trav.targetBoxes tgt ∨
  (∃ bl, trav.list3Close = some bl ∧ s ∈ bl.rowFor trav.targetBoxes tgt) ∨
  (∃ bl, trav.list4Close = some bl ∧ s ∈ bl.rowFor trav.targetBoxes tgt) ∨
  ∃ a ∈ t.ancestorsOrSelf tgt, s ∈ trav.list4.rowFor trav.ttpBoxes a

/-- the multipole expansion of `s` is used for targets of `tgt` -/
def UsesMultipole (trav : Traversal) (t : BoxTree) (tgt s : Nat) : Prop :=
  (∃ a ∈ t.ancestorsOrSelf tgt, s ∈ trav.list2.rowFor trav.ttpBoxes a) ∨
  ∃ l, l < trav.list3.length ∧
    s ∈ (trav.list3.getD l ⟨[], []⟩).rowFor (trav.list3Targets.getD l []) tgt

section
variable {inp : TravInput} {trav : Traversal}

theorem usesSources_is (ok : inp.OK) (h : buildTraversal inp = .ok trav) {tgt s : Nat}
    (htgt : tgt ∈ trav.targetBoxes) (hu : UsesSources trav inp.tree tgt s) :
    s < inp.tree.nboxes ∧ inp.tree.isSource s = true := by
  have F := travFields h
  rcases hu with hu | ⟨bl, hbl, hu⟩ | ⟨bl, hbl, hu⟩ | ⟨a, ha, hu⟩
  · have := ((C03_list1_exact inp trav ok h tgt htgt).2 s).1 hu
    exact ⟨this.1, this.2.1⟩
  · have he : inp.targetsHaveExtent = true := by
      by_contra hc
      rw [F.list3Close, if_neg hc] at hbl
      cases hbl
    obtain ⟨bl', hbl', h3⟩ := C06_list3_close_exact inp trav ok h he
    rw [hbl] at hbl'
    cases hbl'
    have := ((h3 tgt htgt).2 s).1 hu
    exact ⟨this.1, this.2.2.1⟩
  · have he : inp.targetsHaveExtent = true := by
      by_contra hc
      rw [F.list4Close, if_neg hc] at hbl
      cases hbl
    obtain ⟨bl', hbl', h3⟩ := C07_list4_close_exact inp trav ok h he
    rw [hbl] at hbl'
    cases hbl'
    have := ((h3 tgt htgt).2 s).1 hu
    exact ⟨this.1, this.2.1⟩
  · have hanc : a ∈ trav.ttpBoxes := by
      unfold ancestorsOrSelf at ha
      obtain ⟨l, hl, rfl⟩ := List.mem_map.1 ha
      exact F.anc_ttp ok (F.target_sub ok htgt) (by have := List.mem_range.1 hl; omega)
    have := ((C07_list4_exact inp trav ok h a hanc).2 s).1 hu
    exact ⟨this.1, this.2.1⟩

/-- Only multipoles on level 2 or deeper are ever used. -/
theorem usesMultipole_is (ok : inp.OK) (h : buildTraversal inp = .ok trav) {tgt s : Nat}
    (htgt : tgt ∈ trav.targetBoxes) (hu : UsesMultipole trav inp.tree tgt s) :
    s < inp.tree.nboxes ∧ 2 ≤ inp.tree.level s := by
  have F := travFields h
  have ht := F.target_lt htgt
  have hw := ok.wf
  rcases hu with ⟨a, ha, hu⟩ | ⟨l, hl, hu⟩
  · have hanc : a ∈ trav.ttpBoxes := by
      unfold ancestorsOrSelf at ha
      obtain ⟨l, hl, rfl⟩ := List.mem_map.1 ha
      exact F.anc_ttp ok (F.target_sub ok htgt) (by have := List.mem_range.1 hl; omega)
    have halt := F.ttp_lt hanc
    obtain ⟨h1, h2, h3, h4⟩ := ((C05_list2_exact inp trav ok h a hanc).2 s).1 hu
    refine ⟨h1, ?_⟩
    by_contra hc
    apply h3
    rw [← hw.nws_iff_touch ok.nAway_pos halt h1]
    have : inp.tree.level s = 0 ∨ inp.tree.level s = 1 := by omega
    rcases this with h0 | h0
    · have e1 := hw.eq_zero_of_level h1 h0
      have e2 := hw.eq_zero_of_level halt (by omega)
      rw [e1, e2]; exact hw.nws_self ok.nAway_pos
    · have hs0 : s ≠ 0 := by rintro rfl; rw [hw.level_root] at h0; omega
      have ha0 : a ≠ 0 := by rintro rfl; rw [hw.level_root] at h2; omega
      apply hw.nws_of_parent_eq ok.nAway_pos halt h1 ha0 hs0
      have p1 := hw.eq_zero_of_level (hw.parent_lt a halt)
        (by have := hw.level_parent a halt ha0; omega)
      have p2 := hw.eq_zero_of_level (hw.parent_lt s h1)
        (by have := hw.level_parent s h1 hs0; omega)
      rw [p1, p2]
  · have hl' : l < inp.tree.nlevels := by rwa [F.length3] at hl
    obtain ⟨h1, h2, h3, _, _, _, h7, _⟩ :=
      ((C06_list3_exact inp trav ok h tgt l htgt hl').2 s).1 hu
    refine ⟨h1, ?_⟩
    by_contra hc
    apply h7
    rw [← hw.nws_one_iff ht h1]
    have e2 := hw.eq_zero_of_level ht (by omega)
    rw [e2, ← hw.ancAt_zero h1]
    exact hw.nws_anc h1

theorem list3Targets_sub (F : TravFields inp trav) {l b : Nat} (hl : l < trav.list3.length)
    (hb : b ∈ trav.list3Targets.getD l []) : b ∈ trav.targetBoxes := by
  rw [F.length3] at hl
  rw [F.list3Targets, List.getD_eq_getElem _ _ (by simpa using hl)] at hb
  simp only [List.getElem_map, List.getElem_range] at hb
  obtain ⟨i, hi, rfl⟩ := List.mem_map.1 hb
  unfold nonemptyIndices at hi
  have := (List.mem_filter.1 hi).1
  rw [List.mem_range, List.length_map] at this
  exact getD_mem this

/-- The evaluation phase delivers the sum over all source boxes, whatever supplies the
multipoles and source weights, as long as those it uses are right. -/
theorem evaluate_total (ok : inp.OK) (hlev : inp.tree.LevelsOK)
    (h : buildTraversal inp = .ok trav) (q : Particles) (w mp W : Nat → M)
    (tgt p : Nat) (htgt : tgt ∈ trav.targetBoxes)
    (hp : ∀ b ∈ trav.targetBoxes, InTgt q b p ↔ b = tgt)
    (hW : ∀ s, UsesSources trav inp.tree tgt s → Fmm.boxWeight q w s = W s)
    (hmp : ∀ s, UsesMultipole trav inp.tree tgt s → mp s = subtreeSum inp.tree W s) :
    Fmm.evaluate inp.tree q trav w mp p =
      ∑ s ∈ Finset.range inp.tree.nboxes, if inp.tree.isSource s = true then W s else 0 := by
  have F := travFields h
  have ht := F.target_lt htgt
  have hw := ok.wf
  have http := F.target_sub ok htgt
  set own : Nat → M := fun s => if inp.tree.isSource s = true then W s else 0 with hown
  -- each stage as a weighted sum over boxes
  have stageS : ∀ l : List Nat, (∀ s ∈ l, UsesSources trav inp.tree tgt s) →
      (l.map (Fmm.boxWeight q w)).sum =
        ∑ s ∈ Finset.range inp.tree.nboxes, l.count s • own s := by
    intro l hl
    rw [← sum_sources W l (fun b hb => (usesSources_is ok h htgt (hl b hb)).1)
      (fun b hb => (usesSources_is ok h htgt (hl b hb)).2)]
    congr 1
    exact List.map_congr_left fun s hs => hW s (hl s hs)
  have stageM : ∀ l : List Nat, (∀ s ∈ l, UsesMultipole trav inp.tree tgt s) →
      (l.map mp).sum = ∑ s ∈ Finset.range inp.tree.nboxes,
        ((inp.tree.ancestorsOrSelf s).map fun b => l.count b).sum • own s := by
    intro l hl
    rw [← sum_subtree hw W l (fun b hb => (usesMultipole_is ok h htgt (hl b hb)).1)]
    congr 1
    exact List.map_congr_left fun s hs => hmp s (hl s hs)
  have sum_list : ∀ (l : List Nat) (f : Nat → M) (c : Nat → Nat → Nat),
      (∀ a ∈ l, f a = ∑ s ∈ Finset.range inp.tree.nboxes, c a s • own s) →
      (l.map f).sum = ∑ s ∈ Finset.range inp.tree.nboxes, (l.map fun a => c a s).sum • own s := by
    intro l f c hf
    induction l with
    | nil => simp
    | cons a l ih =>
      simp only [List.map_cons, List.sum_cons]
      rw [hf a List.mem_cons_self, ih (fun b hb => hf b (List.mem_cons_of_mem _ hb)),
        ← Finset.sum_add_distrib]
      exact Finset.sum_congr rfl fun s _ => (add_smul _ _ _).symm
  have s1 : Fmm.evalDirect q trav.targetBoxes trav.list1 w p =
      ∑ s ∈ Finset.range inp.tree.nboxes,
        (trav.list1.rowFor trav.targetBoxes tgt).count s • own s := by
    rw [evalDirect_at q _ F.nodup_target _ w p tgt htgt hp]
    exact stageS _ fun s hs => Or.inl hs
  have s3 : Fmm.evalMultipoles q trav.list3Targets trav.list3 mp p =
      ∑ s ∈ Finset.range inp.tree.nboxes, ((List.range trav.list3.length).map fun l =>
        ((inp.tree.ancestorsOrSelf s).map fun b =>
      ((trav.list3.getD l ⟨[], []⟩).rowFor (trav.list3Targets.getD l []) tgt).count b).sum).sum
        • own s := by
    rw [evalMultipoles_at q _ _ mp p tgt fun l hl b hb => hp b (list3Targets_sub F hl hb)]
    apply sum_list
    intro l hl
    exact stageM _ fun s hs => Or.inr ⟨l, List.mem_range.1 hl, hs⟩
  have hb : BoxListOK inp.tree trav.ttpBoxes := by
    rw [F.ttpBoxes]
    exact ⟨List.pairwise_lt_range.filter _, fun _ hb => List.mem_range.1 (List.mem_filter.1 hb).1⟩
  have hparent : ∀ b ∈ trav.ttpBoxes, b ≠ 0 → inp.tree.parent b ∈ trav.ttpBoxes := by
    intro b hb h0
    have hblt := F.ttp_lt hb
    have hl := hw.level_pos hblt h0
    have := F.anc_ttp ok hb (l := inp.tree.level b - 1) (by omega)
    unfold ancAt at this
    rwa [show inp.tree.level b - (inp.tree.level b - 1) = 1 by omega] at this
  have sloc : Fmm.evalLocals q trav.targetBoxes
      (Fmm.refineLocals inp.tree trav.levelStartTtp trav.ttpBoxes fun b =>
        Fmm.multipoleToLocal trav.ttpBoxes trav.list2 mp b +
          Fmm.formLocals q trav.ttpBoxes trav.list4 w b) p =
      ∑ s ∈ Finset.range inp.tree.nboxes,
        (((inp.tree.ancestorsOrSelf tgt).map fun a => ((inp.tree.ancestorsOrSelf s).map fun b =>
          (trav.list2.rowFor trav.ttpBoxes a).count b).sum).sum +
        ((inp.tree.ancestorsOrSelf tgt).map fun a =>
          (trav.list4.rowFor trav.ttpBoxes a).count s).sum) • own s := by
    rw [evalLocals_at q _ F.nodup_target _ p tgt htgt hp, F.lsTtp,
      refineLocals_at hw hlev hb hparent _ _ http, List.sum_map_add]
    have a2 : ((inp.tree.ancestorsOrSelf tgt).map fun a =>
        Fmm.multipoleToLocal trav.ttpBoxes trav.list2 mp a).sum =
        ∑ s ∈ Finset.range inp.tree.nboxes,
          ((inp.tree.ancestorsOrSelf tgt).map fun a => ((inp.tree.ancestorsOrSelf s).map fun b =>
          (trav.list2.rowFor trav.ttpBoxes a).count b).sum).sum • own s := by
      apply sum_list
      intro a ha
      rw [multipoleToLocal_at]
      exact stageM _ fun s hs => Or.inl ⟨a, ha, hs⟩
    have a4 : ((inp.tree.ancestorsOrSelf tgt).map fun a =>
        Fmm.formLocals q trav.ttpBoxes trav.list4 w a).sum =
        ∑ s ∈ Finset.range inp.tree.nboxes,
          ((inp.tree.ancestorsOrSelf tgt).map fun a =>
            (trav.list4.rowFor trav.ttpBoxes a).count s).sum • own s := by
      apply sum_list
      intro a ha
      rw [formLocals_at]
      exact stageS _ fun s hs => Or.inr (Or.inr (Or.inr ⟨a, ha, hs⟩))
    rw [a2, a4, ← Finset.sum_add_distrib]
    exact Finset.sum_congr rfl fun s _ => (add_smul _ _ _).symm
  have close : ∀ o : Option BuiltList,
      (∀ bl, o = some bl → ∀ s ∈ bl.rowFor trav.targetBoxes tgt,
        UsesSources trav inp.tree tgt s) → ∀ (pot : Nat → M),
      Fmm.addDirect q trav.targetBoxes o w pot p = pot p +
        ∑ s ∈ Finset.range inp.tree.nboxes, closeCount o trav.targetBoxes tgt s • own s := by
    intro o ho pot
    unfold Fmm.addDirect closeCount
    cases o with
    | none => simp
    | some bl =>
      simp only
      rw [evalDirect_at q _ F.nodup_target _ w p tgt htgt hp]
      rw [stageS _ (ho bl rfl)]
  have hfin : Fmm.evaluate inp.tree q trav w mp p =
      ∑ s ∈ Finset.range inp.tree.nboxes, trav.pathCount inp.tree tgt s • own s := by
    unfold Fmm.evaluate
    rw [sloc, close trav.list4Close
      (fun bl hbl s hs => Or.inr (Or.inr (Or.inl ⟨bl, hbl, hs⟩))),
      close trav.list3Close (fun bl hbl s hs => Or.inr (Or.inl ⟨bl, hbl, hs⟩)), s1, s3,
      ← Finset.sum_add_distrib, ← Finset.sum_add_distrib, ← Finset.sum_add_distrib,
      ← Finset.sum_add_distrib]
    apply Finset.sum_congr rfl
    intro s _
    unfold Traversal.pathCount
    simp only [add_smul]
    abel
  rw [hfin]
  apply Finset.sum_congr rfl
  intro s hs
  by_cases hsrc : inp.tree.isSource s = true
  · rw [C01_exactly_once inp trav ok h tgt s htgt (Finset.mem_range.1 hs) hsrc, one_smul]
  · rw [hown]; simp [hsrc]

/-- The upward pass of an unmasked traversal leaves the sum over the subtree in every multipole
on level 2 or deeper. -/
theorem upward_subtree (ok : inp.OK) (hlev : inp.tree.LevelsOK)
    (h : buildTraversal inp = .ok trav) (hm : inp.srcMask = none) (hm' : inp.srcParentMask = none)
    (q : Particles) (w : Nat → M) (b : Nat) (hb : b < inp.tree.nboxes)
    (h2 : 2 ≤ inp.tree.level b) :
    Fmm.upward inp.tree q trav w b = subtreeSum inp.tree (Fmm.boxWeight q w) b := by
  have F := travFields h
  have hw := ok.wf
  unfold Fmm.upward
  have hpar : ∀ b, b ∈ trav.sourceParentBoxes ↔
      b < inp.tree.nboxes ∧ inp.tree.hasSourceChild b = true := by
    intro b; rw [F.sourceParentBoxes, mem_selSourceParent, hm']; simp
  have hsrc : ∀ b, b < inp.tree.nboxes →
      Fmm.formMultipoles q trav.sourceBoxes w b =
        if inp.tree.isSource b = true then Fmm.boxWeight q w b else 0 := by
    intro b hb
    rw [formMultipoles_at q _ (by rw [F.sourceBoxes]; exact nodup_selSource _ _)]
    have : b ∈ trav.sourceBoxes ↔ inp.tree.isSource b = true := by
      rw [F.sourceBoxes, mem_selSource, hm]; simp [hb]
    simp only [this]
  rw [F.lsSourceParent, coarsen_spec hw hlev (par := trav.sourceParentBoxes) _ _
    (subtreeSum inp.tree (Fmm.boxWeight q w)) _ _ b hb, if_pos h2]
  · rw [F.sourceParentBoxes]
    exact ⟨List.pairwise_lt_range.filter _, fun _ hb => List.mem_range.1 (List.mem_filter.1 hb).1⟩
  · intro x hx
    have hxlt := ((hpar x).1 hx).1
    rw [hsrc x hxlt, subtreeSum_rec hw _ hxlt]
  · intro x hx hnx
    rw [hsrc x hx, subtreeSum_leaf hw ok.flags _ hx]
    by_contra hc
    exact hnx ((hpar x).2 ⟨hx, by simpa using hc⟩)

end

/-- Source slices that split `0..nsources` add up to the sum of all weights. -/
theorem boxWeight_total {t : BoxTree} {q : Particles} (hq : q.OK t) (w : Nat → M) :
    (∑ s ∈ Finset.range t.nboxes, if t.isSource s = true then Fmm.boxWeight q w s else 0) =
      ∑ j ∈ Finset.range q.nsources, w j := by
  classical
  have e : ∀ s, s < t.nboxes → (if t.isSource s = true then Fmm.boxWeight q w s else 0) =
      ∑ j ∈ Finset.range q.nsources,
        if t.isSource s = true ∧ q.srcStart s ≤ j ∧ j < q.srcStart s + q.srcCount s
        then w j else 0 := by
    intro s hs
    by_cases hsrc : t.isSource s = true
    · rw [if_pos hsrc]
      unfold Fmm.boxWeight
      rw [list_sum_range, ← Finset.sum_filter]
      have hle := hq.src_le s hs hsrc
      apply Finset.sum_nbij (fun j => q.srcStart s + j)
      · intro j hj
        have := Finset.mem_range.1 hj
        simp [hsrc]; omega
      · intro a _ b _ hab
        simpa using hab
      · intro j hj
        simp only [Finset.coe_filter, Finset.mem_range, Set.mem_ofPred_eq] at hj
        refine ⟨j - q.srcStart s, ?_, ?_⟩
        · simp; omega
        · simp; omega
      · intro j _; rfl
    · rw [if_neg hsrc]
      simp [hsrc]
  rw [Finset.sum_congr rfl fun s hs => e s (Finset.mem_range.1 hs), Finset.sum_comm]
  apply Finset.sum_congr rfl
  intro j hj
  obtain ⟨b, hb, hsrc, h1, h2⟩ := hq.src_cover j (Finset.mem_range.1 hj)
  rw [Finset.sum_eq_single b]
  · rw [if_pos ⟨hsrc, h1, h2⟩]
  · intro b' hb' hne
    rw [if_neg]
    rintro ⟨hsrc', h1', h2'⟩
    exact hne (hq.src_disjoint b' (Finset.mem_range.1 hb') hsrc' b hb hsrc j h1' h2' h1 h2)
  · intro hc; exact absurd (Finset.mem_range.2 hb) hc

theorem sum_perm_range (n : Nat) (u : Nat → Nat) (hlt : ∀ j, j < n → u j < n)
    (hinj : ∀ i, i < n → ∀ j, j < n → u i = u j → i = j) (f : Nat → M) :
    ∑ j ∈ Finset.range n, f (u j) = ∑ j ∈ Finset.range n, f j := by
  have hinj' : Set.InjOn u (Finset.range n : Finset Nat) := by
    intro a ha b hb hab
    exact hinj a (by simpa using ha) b (by simpa using hb) hab
  have him : (Finset.range n).image u = Finset.range n := by
    apply Finset.eq_of_subset_of_card_le
    · intro x hx
      obtain ⟨j, hj, rfl⟩ := Finset.mem_image.1 hx
      exact Finset.mem_range.2 (hlt j (Finset.mem_range.1 hj))
    · rw [Finset.card_image_of_injOn hinj']
  conv_rhs => rw [← him]
  rw [Finset.sum_image hinj']

end Boxtree
