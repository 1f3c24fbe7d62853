import Verif.Lemmas.CostFactory
import Verif.Props.ListSizesBuilt

/-! Counts behind the costs of the stages. -/

namespace Boxtree.Cost
open BoxTree

section
variable {K : Type} [CommSemiring K] [PartialOrder K] [IsOrderedRing K]

theorem sum_cost_le {α : Type} (l : List α) (n : α → Nat) (f : α → K) {c : K} {N : Nat} (hc : 0 ≤ c)
    (hf : ∀ a ∈ l, f a ≤ c) (hN : (l.map n).sum ≤ N) :
    (l.map fun a => (n a : K) * f a).sum ≤ (N : K) * c := by
  have h1 : (l.map fun a => (n a : K) * f a).sum ≤ (((l.map n).sum : Nat) : K) * c := by
    clear hN
    induction l with
    | nil => simp
    | cons a l ih =>
      rw [List.map_cons, List.map_cons, List.sum_cons, List.sum_cons, Nat.cast_add, add_mul]
      exact add_le_add (natCast_mul_le _ (hf a (by simp))) (ih fun b hb => hf b (by simp [hb]))
  exact h1.trans (mul_le_mul_of_nonneg_right (Nat.mono_cast hN) hc)

end

theorem sum_nChildren_le {t : BoxTree} (hw : t.WF) {l : List Nat} (hl : l.Nodup)
    (hlt : ∀ b ∈ l, b < t.nboxes) : (l.map (nChildren t)).sum ≤ t.nboxes := by
  set kids : Nat → List Nat := fun b =>
    ((List.range t.nch).filter fun m => t.child m b ≠ 0).map fun m => t.child m b with hk
  have hmem : ∀ b ∈ l, ∀ c ∈ kids b, c < t.nboxes ∧ t.parent c = b := by
    intro b hb c hc
    obtain ⟨m, hm, rfl⟩ := List.mem_map.1 hc
    rw [List.mem_filter, List.mem_range] at hm
    exact ⟨hw.child_lt m hm.1 b (hlt b hb), hw.child_parent m hm.1 b (hlt b hb) (by simpa using hm.2)⟩
  have e : (l.map (nChildren t)).sum = (l.flatMap kids).length := by
    rw [List.length_flatMap]
    congr 1
    refine List.map_congr_left fun b _ => ?_
    rw [hk, List.length_map]
    rfl
  rw [e]
  refine length_le_nboxes ?_ ?_
  · rw [List.nodup_flatMap]
    refine ⟨fun b hb => ?_, ?_⟩
    · refine List.Nodup.map_on ?_ (List.nodup_range.filter _)
      intro m hm m' hm' he
      rw [List.mem_filter, List.mem_range] at hm hm'
      exact hw.child_inj m hm.1 m' hm'.1 b (hlt b hb) (by simpa using hm.2) he
    · refine hl.imp_of_mem fun {b b'} hb hb' hne => ?_
      intro c hc hc'
      exact hne ((hmem b hb c hc).2.symm.trans (hmem b' hb' c hc').2)
  · intro c hc
    obtain ⟨b, hb, hc⟩ := List.mem_flatMap.1 hc
    exact (hmem b hb c hc).1

theorem sum_telescope_le {a : Nat → Nat} (h : ∀ i, a i ≤ a (i + 1)) : ∀ k,
    ((List.range' 1 k).map fun i => a (i + 1) - a i).sum ≤ a (k + 1)
  | 0 => by simp
  | k + 1 => by
    rw [List.range'_concat, List.map_append, List.sum_append]
    have := sum_telescope_le h k
    have h1 := h (k + 1)
    simp only [List.map_cons, List.map_nil, List.sum_cons, List.sum_nil]
    have e : 1 + 1 * k = k + 1 := by omega
    rw [e]
    omega

theorem sum_own_le {t : BoxTree} {n : Nat} {start own cumul : Nat → Nat}
    (h : Build.NestedRanges t n start own cumul) {l : List Nat} (hl : l.Nodup)
    (hlt : ∀ b ∈ l, b < t.nboxes) : (l.map own).sum ≤ n := by
  have e : (l.map own).sum = (l.flatMap (Build.span start own)).length := by
    rw [List.length_flatMap]
    congr 1
    refine List.map_congr_left fun b _ => ?_
    simp [Build.span]
  rw [e]
  refine length_le_nboxes ?_ ?_
  · rw [List.nodup_flatMap]
    refine ⟨fun b _ => List.nodup_range', ?_⟩
    refine hl.imp_of_mem fun {b b'} hb hb' hne => ?_
    intro i hi hi'
    obtain ⟨w, _, _, hu⟩ := h.partition i (h.owned_lt b (hlt b hb) i hi)
    exact hne ((hu b (hlt b hb) hi).trans (hu b' (hlt b' hb') hi').symm)
  · intro i hi
    obtain ⟨b, hb, hi⟩ := List.mem_flatMap.1 hi
    exact h.owned_lt b (hlt b hb) i hi

section
variable {inp : TravInput} {trav : Traversal}

theorem list3_rows (h : buildTraversal inp = .ok trav) : ∀ l < trav.list3.length,
    ∀ i < (trav.list3Targets.getD l []).length,
      (trav.list3.getD l ⟨[], []⟩).starts.getD (i + 1) 0 -
        (trav.list3.getD l ⟨[], []⟩).starts.getD i 0 =
      ((trav.list3.getD l ⟨[], []⟩).row i).length := by
  have F := travFields h
  have hl3 : trav.list3.length = inp.tree.nlevels := by rw [F.list3]; simp
  intro l hl i hi
  rw [hl3] at hl
  have e1 : trav.list3.getD l ⟨[], []⟩ = buildLists (nonemptyRows (trav.targetBoxes.map fun b =>
      sepPart (list3Kernel inp.tree inp.params trav.slnws.row (l : Int) b))) := by
    rw [F.list3, List.getD_eq_getElem _ _ (by simpa using hl)]; simp
  have e2 : trav.list3Targets.getD l [] = (nonemptyIndices (trav.targetBoxes.map fun b =>
      sepPart (list3Kernel inp.tree inp.params trav.slnws.row (l : Int) b))).map
        fun i => trav.targetBoxes.getD i 0 := by
    rw [F.list3Targets, List.getD_eq_getElem _ _ (by simpa using hl)]; simp
  rw [e1]
  rw [e2, nonemptyIndices_map] at hi
  apply row_length_build
  rw [nonemptyRows_map]
  simpa using hi

variable {K : Type} [CommSemiring K] [PartialOrder K] [IsOrderedRing K]

/-- Each stage against a count, for costs of at most `c` for one operation. -/
theorem stage_bounds (ok : inp.OK) (hlev : inp.tree.LevelsOK) (h : buildTraversal inp = .ok trav)
    (he : inp.targetsHaveExtent = false)
    (hsrc : ∀ b < inp.tree.nboxes, inp.tree.isSource b = true → inp.tree.IsLeaf b)
    (htgt : ∀ b ∈ trav.targetBoxes, inp.tree.IsLeaf b) (q : Particles) (tc : Nat → Nat) {m ns nt : Nat}
    (hms : ∀ b < inp.tree.nboxes, inp.tree.isSource b = true → q.srcCount b ≤ m)
    (hmt : ∀ b ∈ trav.targetBoxes, tc b ≤ m) (hns : (trav.sourceBoxes.map q.srcCount).sum ≤ ns)
    (hnt : (trav.targetBoxes.map tc).sum ≤ nt) {f : Factors K} {c : K} (hc : 0 ≤ c)
    (hp2m : ∀ l, f.p2m l ≤ c) (hm2m : ∀ l, f.m2m l ≤ c) (hp2p : f.p2p ≤ c) (hm2l : ∀ l, f.m2l l ≤ c)
    (hm2p : ∀ l, f.m2p l ≤ c) (hp2l : ∀ l, f.p2l l ≤ c) (hl2l : ∀ l, f.l2l l ≤ c)
    (hl2p : ∀ l, f.l2p l ≤ c) :
    (perStage inp.tree q trav tc f).formMultipoles ≤ (ns : K) * c ∧
    (perStage inp.tree q trav tc f).coarsenMultipoles ≤ (inp.tree.nboxes : K) * c ∧
    (perStage inp.tree q trav tc f).evalDirect ≤
      ((m ^ 2 * (2 * 3 ^ inp.tree.dims * inp.tree.nboxes) : Nat) : K) * c ∧
    (perStage inp.tree q trav tc f).multipoleToLocal ≤
      ((((4 * inp.nAway + 2) ^ inp.tree.dims - (2 * inp.nAway + 1) ^ inp.tree.dims)
        * inp.tree.nboxes : Nat) : K) * c ∧
    (perStage inp.tree q trav tc f).evalMultipoles ≤
      ((m * ((2 * inp.nAway + 1) ^ inp.tree.dims * inp.tree.nboxes) : Nat) : K) * c ∧
    (perStage inp.tree q trav tc f).formLocals ≤
      ((m * (((2 * inp.nAway + 2) ^ inp.tree.dims - 3 ^ inp.tree.dims) * inp.tree.nboxes) : Nat) : K)
        * c ∧
    (perStage inp.tree q trav tc f).refineLocals ≤ (inp.tree.nboxes : K) * c ∧
    (perStage inp.tree q trav tc f).evalLocals ≤ (nt : K) * c := by
  have F := travFields h
  have hw := ok.wf
  have hbt : BoxListOK inp.tree trav.ttpBoxes := by rw [F.ttpBoxes]; exact boxListOK_of _ _
  have hbp : BoxListOK inp.tree trav.sourceParentBoxes := by
    rw [F.sourceParentBoxes]; exact boxListOK_of _ _
  have hndp : trav.sourceParentBoxes.Nodup := hbp.sorted.imp (fun h => Nat.ne_of_lt h)
  have hndt : trav.ttpBoxes.Nodup := hbt.sorted.imp (fun h => Nat.ne_of_lt h)
  have hlen := length_le_nboxes hndt hbt.lt
  refine ⟨?_, ?_, ?_, ?_, ?_, ?_, ?_, ?_⟩
  · exact sum_cost_le _ _ _ hc (fun b _ => hp2m _) hns
  · refine le_trans (sum_map_mono _ _ (fun b => (nChildren inp.tree b : K) * c) fun b _ => ?_)
      (sum_cost_le _ _ _ hc (fun _ _ => le_refl c) (sum_nChildren_le hw hndp hbp.lt))
    split
    · exact mul_nonneg (Nat.cast_nonneg _) hc
    · exact natCast_mul_le _ (hm2m _)
  · refine sum_cost_le _ _ _ hc (fun _ _ => hp2p) ?_
    refine le_trans ?_ (Nat.mul_le_mul_left (m ^ 2) (C72_list1_total inp trav ok h hsrc htgt))
    rw [← map_range_getD trav.targetBoxes, ← sum_map_mul_left']
    refine List.sum_le_sum fun i hi => ?_
    have hi := List.mem_range.1 hi
    have hb : trav.targetBoxes.getD i 0 ∈ trav.targetBoxes := by
      rw [List.getD_eq_getElem _ _ hi]; exact List.getElem_mem hi
    have e3 : trav.list3Close = none := by rw [F.list3Close, he]; rfl
    have e4 : trav.list4Close = none := by rw [F.list4Close, he]; rfl
    have e : (nDirect q trav).getD i 0 = nDirectOf q trav.list1 i := by
      unfold nDirect
      rw [List.getD_eq_getElem _ _ (by simpa using hi)]
      simp [e3, e4, nDirectOfOpt]
    rw [e, rowFor_row _ _ F.nodup_target _ hi]
    have hrow : nDirectOf q trav.list1 i ≤ m * (trav.list1.row i).length := by
      unfold nDirectOf
      refine Build.sum_rows_le (fun s hs => ?_) le_rfl
      rw [← rowFor_row _ _ F.nodup_target _ hi] at hs
      obtain ⟨g1, g2, g3⟩ := ((C03_list1_exact inp trav ok h _ hb).2 s).1 hs
      exact hms s g1 g2
    have h2 := hmt _ hb
    calc nDirectOf q trav.list1 i * tc (trav.targetBoxes.getD i 0)
        ≤ (m * (trav.list1.row i).length) * m := Nat.mul_le_mul hrow h2
      _ = m ^ 2 * (trav.list1.row i).length := by ring
  · refine sum_cost_le _ _ _ hc (fun _ _ => hm2l _) ?_
    refine le_trans ?_ (Build.sum_rows_le (C72_list2 inp trav ok h) hlen)
    rw [← map_range_getD trav.ttpBoxes]
    refine List.sum_le_sum fun i hi => ?_
    have hi := List.mem_range.1 hi
    rw [rowFor_row _ _ hndt _ hi, F.list2, row_length_build _ _ (by simpa using hi)]
  · have hl3 : trav.list3.length = inp.tree.nlevels := by rw [F.list3]; simp
    have h3 := C72_list3_total inp trav ok h he htgt
    set R : Nat → Nat → Nat := fun l b =>
      ((trav.list3.getD l ⟨[], []⟩).rowFor (trav.list3Targets.getD l []) b).length with hR
    have hz : ∀ l < inp.tree.nlevels, ∀ b, b ∉ trav.targetBoxes → R l b = 0 := by
      intro l hl b hb
      rw [hR]
      simp only
      rw [F.row3 l hl, if_neg hb]
      rfl
    have hb3 : ∀ b, list3 trav tc f.m2p b ≤
        ((tc b * ((List.range inp.tree.nlevels).map fun l => R l b).sum : Nat) : K) * c := by
      intro b
      rw [list3_at trav tc f.m2p b (list3_rows h), sum_map_mul_left', hl3, Nat.cast_mul, mul_assoc]
      refine natCast_mul_le _ ?_
      refine le_trans (sum_map_mono _ _ (fun l => ((R l b : Nat) : K) * c) fun l _ => ?_)
        (sum_cost_le _ _ _ hc (fun _ _ => le_refl c) le_rfl)
      rw [sum_const' _ _ (f.m2p l) (fun _ _ => rfl)]
      exact natCast_mul_le _ (hm2p l)
    refine le_trans (sum_map_mono _ _ _ fun b _ => hb3 b)
      (sum_cost_le _ _ _ hc (fun _ _ => le_refl c) ?_)
    rw [sum_support trav.targetBoxes F.nodup_target _ (fun b hb => F.target_lt hb)]
    · refine le_trans ?_ (Nat.mul_le_mul_left m h3)
      have e : (∑ L ∈ Finset.range inp.tree.nlevels, (trav.targetBoxes.map fun b => R L b).sum) =
          (trav.targetBoxes.map fun b => ((List.range inp.tree.nlevels).map fun l => R l b).sum).sum := by
        generalize trav.targetBoxes = l
        induction l with
        | nil => simp
        | cons a l ih =>
          simp only [List.map_cons, List.sum_cons, Finset.sum_add_distrib]
          rw [ih]
          congr 1
      rw [e, ← sum_map_mul_left']
      refine List.sum_le_sum fun b hb => ?_
      exact Nat.mul_le_mul_right _ (hmt b hb)
    · intro b hb
      have : ((List.range inp.tree.nlevels).map fun l => R l b).sum = 0 := by
        apply List.sum_eq_zero
        intro x hx
        obtain ⟨l, hl, rfl⟩ := List.mem_map.1 hx
        exact hz l (List.mem_range.1 hl) b hb
      rw [this, Nat.mul_zero]
  · rw [C43_form_locals h]
    have h4 := Build.sum_rows_le (C72_list4 inp trav ok h he hsrc) hlen
    refine le_trans (sum_map_mono _ _
      (fun b => ((m * (trav.list4.rowFor trav.ttpBoxes b).length : Nat) : K) * c) fun b hb => ?_)
      (sum_cost_le _ _ _ hc (fun _ _ => le_refl c) ?_)
    · have e : ((trav.list4.rowFor trav.ttpBoxes b).map fun s =>
          f.p2l (inp.tree.level s) * (q.srcCount s : K)) =
          (trav.list4.rowFor trav.ttpBoxes b).map fun s =>
          (q.srcCount s : K) * f.p2l (inp.tree.level s) :=
        List.map_congr_left fun s _ => mul_comm _ _
      rw [e]
      refine sum_cost_le _ _ _ hc (fun _ _ => hp2l _) ?_
      refine Build.sum_rows_le (fun s hs => ?_) le_rfl
      obtain ⟨g1, g2, g3⟩ := ((C07_list4_exact inp trav ok h b hb).2 s).1 hs
      exact hms s g1 g2
    · rw [sum_map_mul_left']
      exact Nat.mul_le_mul_left m h4
  · refine sum_cost_le _ _ _ hc (fun _ _ => hl2l _) ?_
    obtain ⟨-, h2⟩ := extractLevelStarts_spec hbt hw hlev
    have hmono : ∀ l, cntLt inp.tree trav.ttpBoxes l ≤ cntLt inp.tree trav.ttpBoxes (l + 1) := by
      intro l
      unfold cntLt
      refine (List.monotone_filter_right _ fun b hb => ?_).length_le
      simp only [decide_eq_true_eq] at hb ⊢
      omega
    refine le_trans (le_of_eq ?_) (le_trans (sum_telescope_le hmono (inp.tree.nlevels - 1))
      ((cntLt_le _ _ _).trans hlen))
    congr 1
    refine List.map_congr_left fun i hi => ?_
    rw [List.mem_range'_1] at hi
    rw [F.lsTtp, h2 i (by omega), h2 (i + 1) (by omega)]
  · exact sum_cost_le _ _ _ hc (fun b _ => hl2p _) hnt

end
end Boxtree.Cost
