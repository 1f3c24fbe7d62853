import Verif.Props.ListSizes
import Verif.Props.AreaBuilt
import Verif.Props.RoundedCall
import Verif.Props.Prune

/-!
# C72: the number of boxes and of list entries for trees of documented calls
-/

namespace Boxtree.Build
open BoxTree

/-- A particle in the range of a box is owned by a box of its subtree. -/
theorem NestedRanges.owner {t : BoxTree} (hw : t.WF) {n : Nat} {start own cumul : Nat → Nat}
    (h : NestedRanges t n start own cumul) {i : Nat} :
    ∀ d, ∀ b < t.nboxes, t.nlevels - t.level b ≤ d → i ∈ span start cumul b →
      ∃ o < t.nboxes, i ∈ span start own o ∧ t.IsAncOrSelf b o := by
  intro d
  induction d with
  | zero =>
    intro b hb hd
    have := hw.level_lt b hb
    omega
  | succ d ih =>
    intro b hb hd hi
    rw [h.nested b hb, List.mem_append] at hi
    rcases hi with hi | hi
    · exact ⟨b, hb, hi, le_rfl, ancAt_self t b⟩
    · obtain ⟨m, hm, hi⟩ := List.mem_flatMap.1 hi
      split at hi
      · cases hi
      · rename_i hc
        have hm := List.mem_range.1 hm
        have hcb := hw.child_lt m hm b hb
        have hp := hw.level_parent _ hcb hc
        rw [hw.child_parent m hm b hb hc] at hp
        obtain ⟨o, h1, h2, h3⟩ := ih _ hcb (by omega) hi
        exact ⟨o, h1, h2, ((isAncOrSelf_iff_child hw hb h1).2 ⟨m, hm, hc, h3⟩).1⟩

/-- The ranges of two boxes of one level are disjoint. -/
theorem NestedRanges.level_inj {t : BoxTree} (hw : t.WF) {n : Nat} {start own cumul : Nat → Nat}
    (h : NestedRanges t n start own cumul) {i b b' : Nat} (hb : b < t.nboxes) (hb' : b' < t.nboxes)
    (hl : t.level b = t.level b') (hi : i ∈ span start cumul b) (hi' : i ∈ span start cumul b') :
    i < n ∧ b = b' := by
  obtain ⟨o, h1, h2, h3⟩ := h.owner hw _ b hb le_rfl hi
  obtain ⟨o', g1, g2, g3⟩ := h.owner hw _ b' hb' le_rfl hi'
  have hn := h.owned_lt o h1 i h2
  obtain ⟨w, _, _, hu⟩ := h.partition i hn
  have e : o = o' := (hu o h1 h2).trans (hu o' g1 g2).symm
  rw [← h3.2, ← g3.2, e, hl]
  exact ⟨hn, rfl⟩

theorem start_mem {start cumul : Nat → Nat} {b : Nat} (h : 0 < cumul b) :
    start b ∈ span start cumul b := by
  unfold span
  rw [List.mem_range'_1]
  omega

/-- **C72**, number of boxes: a pruned tree has on each level at most as many boxes as there are
particles. -/
theorem C72_nboxes (inp : Input) (ok : inp.OK) (hr : inp.Regular) (hs : inp.skipPrune = false)
    (t : Built) (h : inp.build = .ok t) (l : Nat) :
    ((Finset.range t.tree.nboxes).filter fun b => t.tree.level b = l).card ≤ inp.n := by
  have hw := (C52_built_tree_wf inp ok t h).1
  obtain ⟨n1, n2⟩ := C20_nested_ranges_partial inp ok hr t h
  have hpop := C24_no_empty_boxes inp ok hs t h
  obtain ⟨e1, e2, _⟩ := C19_order_is_permutation inp ok t h
  have hst : inp.sourcesAreTargets = true → ∀ b, t.particles.srcCumul b = t.particles.tgtCumul b := by
    intro hst b
    obtain ⟨L, s, hc, o, rfl, _⟩ := Input.build_cases ok h
    have e : inp.cloud.sourcesAreTargets = true := hst
    unfold finish finishFlat boxInfo
    simp only [e, if_true]
  have hsum : (if inp.sourcesAreTargets then t.particles.nsources else
      t.particles.nsources + t.particles.ntargets) = inp.n := by
    have := ok.nsources_le
    rw [e1, e2]
    split <;> omega
  rw [← Finset.card_range inp.n]
  refine Finset.card_le_card_of_injOn (fun b => if 0 < t.particles.srcCumul b then
    t.particles.srcStart b else t.particles.nsources + t.particles.tgtStart b) ?_ ?_
  · intro b hb
    have hb : b < t.tree.nboxes ∧ t.tree.level b = l := by simpa using hb
    have hp := hpop b hb.1
    unfold Built.population at hp
    simp only [Finset.coe_range, Set.mem_Iio]
    split
    · rename_i h0
      have := (n1.level_inj hw hb.1 hb.1 rfl (start_mem h0) (start_mem h0)).1
      split at hsum <;> omega
    · rename_i h0
      have := (n2.level_inj hw hb.1 hb.1 rfl (start_mem (by omega)) (start_mem (by omega))).1
      split at hsum
      · rename_i hc
        have := hst hc b
        omega
      · omega
  · intro b hb b' hb' he
    have hb : b < t.tree.nboxes ∧ t.tree.level b = l := by simpa using hb
    have hb' : b' < t.tree.nboxes ∧ t.tree.level b' = l := by simpa using hb'
    have hp := hpop b hb.1
    have hp' := hpop b' hb'.1
    unfold Built.population at hp hp'
    have hl := hb.2.trans hb'.2.symm
    simp only at he
    by_cases h0 : 0 < t.particles.srcCumul b <;> by_cases h1 : 0 < t.particles.srcCumul b'
    · rw [if_pos h0, if_pos h1] at he
      exact (n1.level_inj hw hb.1 hb'.1 hl (start_mem h0) (by rw [he]; exact start_mem h1)).2
    · rw [if_pos h0, if_neg h1] at he
      have := (n1.level_inj hw hb.1 hb.1 rfl (start_mem h0) (start_mem h0)).1
      omega
    · rw [if_neg h0, if_pos h1] at he
      have := (n1.level_inj hw hb'.1 hb'.1 rfl (start_mem h1) (start_mem h1)).1
      omega
    · rw [if_neg h0, if_neg h1, Nat.add_left_cancel_iff] at he
      exact (n2.level_inj hw hb.1 hb'.1 hl (start_mem (by omega))
        (by rw [he]; exact start_mem (by omega))).2

theorem C72_nboxes_total (inp : Input) (ok : inp.OK) (hr : inp.Regular) (hs : inp.skipPrune = false)
    (t : Built) (h : inp.build = .ok t) : t.tree.nboxes ≤ t.tree.nlevels * inp.n := by
  have hw := (C52_built_tree_wf inp ok t h).1
  have := Finset.card_eq_sum_card_fiberwise (s := Finset.range t.tree.nboxes)
    (t := Finset.range t.tree.nlevels) (f := t.tree.level)
    (fun b hb => by
      have := hw.level_lt b (by simpa using hb)
      simpa using this)
  rw [Finset.card_range] at this
  rw [this]
  refine (Finset.sum_le_card_nsmul _ _ inp.n fun l _ => C72_nboxes inp ok hr hs t h l).trans ?_
  rw [Finset.card_range, smul_eq_mul]

/-- Number of entries of `neighbor_source_boxes_lists`, `from_sep_siblings_lists`,
`from_sep_smaller_by_level[i].lists` for all levels and `from_sep_bigger_lists`. -/
def listEntries (trav : Traversal) : Nat :=
  trav.list1.lists.length + trav.list2.lists.length +
  (trav.list3.map fun bl => bl.lists.length).sum + trav.list4.lists.length

section
variable {c : Call} {ns nt : Nat} {dtype : String} {t : Built} {tin : TravInput} {trav : Traversal}

theorem sum_rows_le {l : List Nat} {f : Nat → Nat} {k N : Nat} (h : ∀ b ∈ l, f b ≤ k)
    (hl : l.length ≤ N) : (l.map f).sum ≤ k * N := by
  have := List.sum_le_card_nsmul (l.map f) k (fun x hx => by
    obtain ⟨b, hb, rfl⟩ := List.mem_map.1 hx
    exact h b hb)
  rw [List.length_map, smul_eq_mul] at this
  exact this.trans (by rw [Nat.mul_comm]; exact Nat.mul_le_mul_left _ hl)

/-- The entries of the lists are those of their rows. -/
theorem listEntries_eq (ht : buildTraversal tin = .ok trav) : listEntries trav =
    (trav.targetBoxes.map fun b => (trav.list1.rowFor trav.targetBoxes b).length).sum +
    (trav.ttpBoxes.map fun b => (trav.list2.rowFor trav.ttpBoxes b).length).sum +
    (∑ L ∈ Finset.range tin.tree.nlevels, (trav.targetBoxes.map fun b =>
      ((trav.list3.getD L ⟨[], []⟩).rowFor (trav.list3Targets.getD L []) b).length).sum) +
    (trav.ttpBoxes.map fun b => (trav.list4.rowFor trav.ttpBoxes b).length).sum := by
  have F := travFields ht
  have key : ∀ (l : List Nat) (f g : Nat → List Nat), (∀ b ∈ l, f b = g b) →
      (buildLists (l.map f)).lists.length = (l.map fun b => (g b).length).sum := by
    intro l f g h
    unfold buildLists
    simp only [List.length_flatten, List.map_map]
    congr 1
    exact List.map_congr_left fun b hb => by simp [h b hb]
  unfold listEntries
  congr 1
  · congr 1
    · congr 1
      · conv_lhs => rw [F.list1]
        exact key _ _ _ fun b hb => by rw [F.row1 b, if_pos hb]
      · conv_lhs => rw [F.list2]
        exact key _ _ _ fun b hb => by rw [F.row2 b, if_pos hb]
    · conv_lhs => rw [F.list3]
      rw [List.map_map, ← List.sum_toFinset _ List.nodup_range, List.toFinset_range]
      refine Finset.sum_congr rfl fun L hL => ?_
      have hflat : ∀ rows : List (List Nat), (nonemptyRows rows).flatten = rows.flatten := by
        intro rows
        unfold nonemptyRows
        exact List.flatten_filter_not_isEmpty
      rw [Function.comp_apply]
      have e := key trav.targetBoxes (fun b => sepPart (list3Kernel tin.tree tin.params
        trav.slnws.row (L : Int) b)) (fun b => (trav.list3.getD L ⟨[], []⟩).rowFor
          (trav.list3Targets.getD L []) b) fun b hb => by
            rw [F.row3 L (Finset.mem_range.1 hL) b, if_pos hb]
      rw [← e]
      unfold buildLists
      simp only [hflat]
  · conv_lhs => rw [F.list4]
    exact key _ _ _ fun b hb => by rw [F.row4 b, if_pos hb]

/-- Sources and targets of the traversal are in leaves. -/
theorem leaves_only {inp : Input} (ok : inp.OK) (he : inp.haveExtent = false)
    (h : inp.build = .ok t) (hi : TravOf inp t tin) (ht : buildTraversal tin = .ok trav) :
    (∀ b < tin.tree.nboxes, tin.tree.isSource b = true → tin.tree.IsLeaf b) ∧
    ∀ b ∈ trav.targetBoxes, tin.tree.IsLeaf b := by
  have hf := C25_flags inp ok t h
  rw [hi.tree]
  have h1 : ∀ b < t.tree.nboxes, t.tree.isSource b = true → t.tree.IsLeaf b := fun b hb hs =>
    leaf_of_own ok he h hb (.inl ((hf.1 b).1 hs))
  refine ⟨h1, fun b hb => ?_⟩
  obtain ⟨hb, h2⟩ := ((C12_role_lists tin trav ht).2.2.1.2 b).1 hb
  rw [hi.tree] at hb h2
  split at h2
  · exact h1 b hb h2.1
  · exact leaf_of_own ok he h hb (.inr ((hf.2.1 b).1 h2))

/-- **C72**, storage: for particles without radii, the number of entries of the interaction lists is
at most proportional to the number of particles times the number of levels, no matter how the
particles are distributed. -/
theorem C72_list_entries (hd : c.Documented ns nt dtype) (hw : c.SomeWeight)
    (hr : c.args.sourceRadii = none ∧ c.args.targetRadii = none) (hs : c.skipPrune = false)
    (h : c.run = .ok t) (hi : CallTrav c t tin) (he : tin.targetsHaveExtent = false)
    (ht : buildTraversal tin = .ok trav) :
    t.tree.nboxes ≤ t.tree.nlevels * (ns + nt) ∧
    listEntries trav ≤ (3 ^ t.tree.dims + (4 * tin.nAway + 2) ^ t.tree.dims +
      (2 * tin.nAway + 2) ^ t.tree.dims) * (t.tree.nlevels * (ns + nt)) := by
  obtain ⟨inp, h1, ok, _, hin⟩ := C56_documented_call c ns nt dtype hd hw
  rw [h1] at h
  have hne : inp.haveExtent = false := by
    unfold Input.haveExtent
    rw [hin.sourcesHaveExtent, hin.targetsHaveExtent, hr.1, hr.2]
    rfl
  have hto : TravOf inp t tin := ⟨hi.tree, by rw [hi.sourcesAreTargets, hin.sourcesAreTargets],
    hi.nAway, hi.stickOut, hi.eps, hi.noMask, hi.noParentMask, hi.tests⟩
  have tok := hto.ok ok h
  obtain ⟨l1, l2⟩ := leaves_only ok hne h hto ht
  have hnb := C72_nboxes_total inp ok (.inr hne) (hin.prune.trans hs) t h
  rw [hin.n] at hnb
  refine ⟨hnb, le_trans ?_ (Nat.mul_le_mul_left _ hnb)⟩
  have F := travFields ht
  have g1 := C72_list1_total tin trav tok ht l1 l2
  have hlen := length_le_nboxes (ttpBoxes_nodup tin trav ht) fun b hb => F.ttp_lt hb
  have g2 := sum_rows_le (C72_list2 tin trav tok ht) hlen
  have g3 := C72_list3_total tin trav tok ht he l2
  have g4 := sum_rows_le (C72_list4 tin trav tok ht he l1) hlen
  rw [hi.tree] at g1 g2 g3 g4
  rw [listEntries_eq ht, hi.tree]
  refine (Nat.add_le_add (Nat.add_le_add (Nat.add_le_add g1 g2) g3) g4).trans ?_
  rw [← Nat.add_mul, ← Nat.add_mul, ← Nat.add_mul]
  refine Nat.mul_le_mul_right _ ?_
  have e1 : (2 * tin.nAway + 1) ^ t.tree.dims ≤ (4 * tin.nAway + 2) ^ t.tree.dims :=
    Nat.pow_le_pow_left (by omega) _
  have e2 : 3 ^ t.tree.dims ≤ (2 * tin.nAway + 2) ^ t.tree.dims :=
    Nat.pow_le_pow_left (by have := hi.nAway; omega) _
  omega

/-- **C72**, balanced trees: for particles without radii and `kind="adaptive-level-restricted"`, list
1 of every box has at most `4^d - 2^d + 1` entries, with rounding throughout, if the smallest boxes
are large compared with rounding errors. -/
theorem C72_restricted_list1 {rt : ℚ → ℚ} {u M : ℚ} (hd : c.Documented ns nt dtype)
    (hw : c.SomeWeight) (hr : c.args.sourceRadii = none ∧ c.args.targetRadii = none)
    (hk : c.args.kind = "adaptive-level-restricted")
    (h : c.run = .ok t) (ht : c.TravOf rt t tin) (hfl : Rounds c.arith.fl u)
    (hl : t.LargeBoxes u M tin.nAway) (htr : buildTraversal tin = .ok trav) (b : Nat)
    (hb : b ∈ trav.targetBoxes) :
    (trav.list1.rowFor trav.targetBoxes b).length ≤ 4 ^ t.tree.dims - 2 ^ t.tree.dims + 1 := by
  have hi := C71_traversal_ok hd hw h ht hfl hl
  obtain ⟨inp, h1, ok, _, hin⟩ := C56_documented_call c ns nt dtype hd hw
  rw [h1] at h
  have hne : inp.haveExtent = false := by
    unfold Input.haveExtent
    rw [hin.sourcesHaveExtent, hin.targetsHaveExtent, hr.1, hr.2]
    rfl
  have hto : TravOf inp t tin := ⟨hi.tree, by rw [hi.sourcesAreTargets, hin.sourcesAreTargets],
    hi.nAway, hi.stickOut, hi.eps, hi.noMask, hi.noParentMask, hi.tests⟩
  have tok := hto.ok ok h
  obtain ⟨l1, l2⟩ := leaves_only ok hne h hto htr
  have hF := hl.toFine ok hin hfl ht.nAway h
  have hblt := (travFields htr).target_lt hb
  rw [← ht.tree]
  refine C72_list1_balanced tin trav tok htr l1 b hb (l2 b hb) fun s hs hleaf htouch => ?_
  have := (C27_rounded_two_to_one_partial inp ok (hin.levelRestrict.2 hk) hne t h hF b s
    ⟨by rw [← ht.tree]; exact hblt, by rw [← ht.tree]; exact l2 b hb⟩
    ⟨by rw [← ht.tree]; exact hs, by rw [← ht.tree]; exact hleaf⟩ (fun a ha => by
      rw [← ht.tree] at ha ⊢
      have := htouch a ha
      unfold BoxTree.lo BoxTree.hi at this
      rw [abs_le]
      constructor <;> linarith)).1
  rw [ht.tree]
  exact this

end

namespace Ex
open _root_.Boxtree.Ex

/-- Eight evenly spaced particles, level-restricted. -/
def evenly : Call :=
  { lineOf "float64" 53 [0, 1, 2, 3, 4, 5, 6, 7] none with
    args := { (lineOf "float64" 53 [0, 1, 2, 3, 4, 5, 6, 7] none).args with
      kind := "adaptive-level-restricted" } }

theorem evenly_documented : evenly.Documented 8 0 "float64" where
  shapes :=
    { kind := Or.inr (Or.inl rfl)
      norm := Or.inl rfl
      particles := ⟨by decide, by decide⟩
      targets := rfl
      radii := by decide
      sourceRadii := Or.inl rfl
      targetRadii := Or.inl rfl
      nonempty := by decide }
  limit := Or.inl ⟨1, rfl, rfl, rfl, le_refl _⟩
  dtype := Or.inl rfl
  arith := Arith.sound_roundEven (p := 53) (by decide) rfl
  coords := by decide +kernel
  radius_nonneg := by decide +kernel
  box := Or.inr ⟨0, by decide, 0, by decide, 1, by decide, by decide +kernel⟩

theorem evenly_travOf (t : Built) : evenly.TravOf (rootTo 53) t (travOf 53 t) where
  tree := rfl
  sourcesAreTargets := rfl
  nAway := by show 1 ≤ 1; decide
  stickOut := by show (0:ℚ) ≤ 0; norm_num
  eps := by show (0:ℚ) ≤ 2 / 2 ^ 53; norm_num
  eps_small := by show (2 / 2 ^ 53 : ℚ) ≤ 1 / 24; norm_num
  noMask := rfl
  noParentMask := rfl
  tests := rfl

end Ex

/-- The hypotheses hold for eight evenly spaced particles.  The tree has 15 boxes on 4 levels, and the
lists have 46 entries.  Box 9 has three boxes in list 1, box 10 three in list 2 and, with itself, three
near neighbours: the bounds for rows are attained. -/
example : Ex.evenly.Documented 8 0 "float64" ∧ Ex.evenly.SomeWeight ∧
    Ex.evenly.args.kind = "adaptive-level-restricted" ∧
    Ex.evenly.args.sourceRadii = none ∧ Ex.evenly.args.targetRadii = none ∧
    Ex.evenly.skipPrune = false ∧
    ∃ t trav, Ex.evenly.run = .ok t ∧ Ex.evenly.TravOf (rootTo 53) t (Ex.travOf 53 t) ∧
      (Ex.travOf 53 t).targetsHaveExtent = false ∧
      Rounds Ex.evenly.arith.fl (1 / 2 ^ 53) ∧ t.LargeBoxes (1 / 2 ^ 53) (5 * 7) 1 ∧
      buildTraversal (Ex.travOf 53 t) = .ok trav ∧ t.tree.nboxes = 15 ∧ t.tree.nlevels = 4 ∧
      listEntries trav = 46 ∧ 9 ∈ trav.targetBoxes ∧ 10 ∈ trav.ttpBoxes ∧
      (trav.list1.rowFor trav.targetBoxes 9).length = 4 ^ 1 - 2 ^ 1 + 1 ∧
      (trav.list2.rowFor trav.ttpBoxes 10).length = 6 ^ 1 - 3 ^ 1 ∧
      (trav.slnws.row 10).length + 1 = 3 ^ 1 := by
  have key : Ex.look Ex.evenly.run (fun t => [match buildTraversal (Ex.travOf 53 t) with
      | .ok trav => decide (t.tree.nboxes = 15 ∧ t.tree.nlevels = 4 ∧
          listEntries trav = 46 ∧ 9 ∈ trav.targetBoxes ∧ 10 ∈ trav.ttpBoxes ∧
          (trav.list1.rowFor trav.targetBoxes 9).length = 4 ^ 1 - 2 ^ 1 + 1 ∧
          (trav.list2.rowFor trav.ttpBoxes 10).length = 6 ^ 1 - 3 ^ 1 ∧
          (trav.slnws.row 10).length + 1 = 3 ^ 1)
      | .error _ => false]) = [true] := by decide +kernel
  unfold Ex.look at key
  split at key
  · rename_i t ht
    simp only [List.cons.injEq, and_true] at key
    split at key
    · rename_i trav htr
      have hall := of_decide_eq_true key
      have hfl : Rounds Ex.evenly.arith.fl (1 / 2 ^ 53) := roundEven_rounds (by decide)
      refine ⟨Ex.evenly_documented, Or.inl (by decide), rfl, rfl, rfl, rfl, t, trav, ht,
        Ex.evenly_travOf t, rfl, hfl, ?_, htr, hall⟩
      exact C71_large_boxes Ex.evenly_documented (Or.inl (by decide)) ht hfl rfl (W := 7)
        (by decide +kernel) ⟨0, by decide, 7, by decide, 0, by decide, by decide +kernel⟩
        (by norm_num) (by norm_num) 1 (by rw [hall.2.1]; norm_num)
    · cases key
  · cases key

end Boxtree.Build
