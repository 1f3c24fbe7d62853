import Verif.Props.Lists
import Verif.Lemmas.GridPos
import Verif.Lemmas.AreaQuery

/-!
# C72: sizes of the interaction lists
-/

namespace Boxtree
open BoxTree

variable (inp : TravInput) (trav : Traversal)

theorem BoxTree.apart_of_level {t : BoxTree} {a b : Nat} (h : t.level a = t.level b) :
    t.Apart a b := by
  rintro ⟨_, h2⟩
  rw [h, ancAt_self] at h2
  exact h2.symm

theorem BoxTree.WF.apart_of_leaf {t : BoxTree} (hw : t.WF) {a b : Nat} (hb : b < t.nboxes)
    (ha : t.IsLeaf a) : t.Apart a b := by
  rintro ⟨h1, h2⟩
  rcases Nat.lt_or_ge (t.level a) (t.level b) with h | h
  · have := hw.not_leaf_anc hb h
    rw [h2] at this
    exact absurd ha this
  · rw [ancAt_ge t h] at h2
    exact h2.symm

theorem targetBoxes_nodup (h : buildTraversal inp = .ok trav) : trav.targetBoxes.Nodup :=
  ((C12_role_lists inp trav h).2.2.1.1).imp fun h => h.ne

theorem ttpBoxes_nodup (h : buildTraversal inp = .ok trav) : trav.ttpBoxes.Nodup :=
  ((C12_role_lists inp trav h).2.2.2.1).imp fun h => h.ne

theorem length_le_nboxes {N : Nat} {l : List Nat} (hl : l.Nodup) (h : ∀ b ∈ l, b < N) :
    l.length ≤ N := by
  rw [← List.toFinset_card_of_nodup hl, ← Finset.card_range N]
  exact Finset.card_le_card fun b hb => Finset.mem_range.2 (h b (List.mem_toFinset.1 hb))

/-- **C72.** A box has at most `(2 n + 1)^d - 1` near neighbours on its level. -/
theorem C72_near_neighbours (ok : inp.OK) (h : buildTraversal inp = .ok trav) (b : Nat)
    (hb : b < inp.tree.nboxes) :
    (trav.slnws.row b).length + 1 ≤ (2 * inp.nAway + 1) ^ inp.tree.dims := by
  obtain ⟨h1, h2, _⟩ := C04_near_neighbours_exact inp trav ok h b hb
  have hw := ok.wf
  have hn := ok.nAway_pos
  have hS : ∀ s ∈ b :: trav.slnws.row b, s < inp.tree.nboxes ∧
      inp.tree.level s = inp.tree.level b ∧ ∀ i, i < inp.tree.dims →
        inp.tree.gridPos s i ≤ inp.tree.gridPos b i + inp.nAway ∧
        inp.tree.gridPos b i - inp.nAway ≤ inp.tree.gridPos s i := by
    intro s hs
    rcases List.mem_cons.1 hs with rfl | hs
    · exact ⟨hb, rfl, fun i _ => by constructor <;> omega⟩
    · obtain ⟨g1, _, g3, g4⟩ := (h2 s).1 hs
      refine ⟨g1, g3, fun i hi => ?_⟩
      have := (hw.touchEnlarged_pos hb g1 g3.symm _).1 g4 i hi
      constructor <;> omega
  have := hw.length_le_cells (l := inp.tree.level b) (S := b :: trav.slnws.row b)
    (List.nodup_cons.2 ⟨fun hc => ((h2 b).1 hc).2.1 rfl, h1⟩) (fun s hs => (hS s hs).1)
    (fun s hs => (hS s hs).2.1.le)
    (fun s hs s' hs' => apart_of_level ((hS s hs).2.1.trans (hS s' hs').2.1.symm))
    (cells _ (fun i => inp.tree.gridPos b i - inp.nAway) fun i => inp.tree.gridPos b i + inp.nAway)
    (fun s i => inp.tree.gridPos s i)
    (fun s hs i _ => by rw [(hS s hs).2.1, Nat.sub_self, pow_zero, Int.ediv_one])
    (fun s hs => mem_cells.2 fun i hi => ((hS s hs).2.2 i hi).symm)
  rwa [card_cells _ _ _ (2 * inp.nAway + 1) (fun i _ => by push_cast; ring)] at this

/-- **C72.** List 2 of a box has at most `(4 n + 2)^d - (2 n + 1)^d` entries (27 in two and 189 in three
dimensions for `n = 1`). -/
theorem C72_list2 (ok : inp.OK) (h : buildTraversal inp = .ok trav) (b : Nat)
    (hb : b ∈ trav.ttpBoxes) :
    (trav.list2.rowFor trav.ttpBoxes b).length ≤
      (4 * inp.nAway + 2) ^ inp.tree.dims - (2 * inp.nAway + 1) ^ inp.tree.dims := by
  obtain ⟨h1, h2⟩ := C05_list2_exact inp trav ok h b hb
  have hw := ok.wf
  have hn := ok.nAway_pos
  have hlt := (travFields h).ttp_lt hb
  have h0 : ∀ s ∈ trav.list2.rowFor trav.ttpBoxes b, b ≠ 0 := by
    rintro s hs rfl
    obtain ⟨g1, g2, g3, g4⟩ := (h2 s).1 hs
    have : s = 0 := hw.eq_zero_of_level g1 (by rw [g2, hw.level_root])
    subst this
    rw [hw.parent_root] at g4
    exact g3 g4
  set K : Nat → ℤ := fun i => inp.tree.gridPos b i / 2 with hK
  have hS : ∀ s ∈ trav.list2.rowFor trav.ttpBoxes b, s < inp.tree.nboxes ∧
      inp.tree.level s = inp.tree.level b ∧
      (∀ i, i < inp.tree.dims → 2 * K i - 2 * inp.nAway ≤ inp.tree.gridPos s i ∧
        inp.tree.gridPos s i ≤ 2 * K i + 2 * inp.nAway + 1) ∧
      ¬ ∀ i, i < inp.tree.dims → inp.tree.gridPos b i - inp.nAway ≤ inp.tree.gridPos s i ∧
        inp.tree.gridPos s i ≤ inp.tree.gridPos b i + inp.nAway := by
    intro s hs
    have hb0 := h0 s hs
    obtain ⟨g1, g2, g3, g4⟩ := (h2 s).1 hs
    have hs0 : s ≠ 0 := by
      rintro rfl
      rw [hw.level_root] at g2
      exact hb0 (hw.eq_zero_of_level hlt g2.symm)
    refine ⟨g1, g2, fun i hi => ?_, fun hc => g3 ?_⟩
    · have hlp : inp.tree.level (inp.tree.parent b) = inp.tree.level (inp.tree.parent s) := by
        have e1 := hw.level_parent b hlt hb0
        have e2 := hw.level_parent s g1 hs0
        omega
      have := (hw.touchEnlarged_pos (hw.parent_lt b hlt) (hw.parent_lt s g1) hlp _).1 g4 i hi
      rw [hw.pos_parent hlt hb0 hi, hw.pos_parent g1 hs0 hi] at this
      simp only [hK]
      constructor <;> omega
    · refine (hw.touchEnlarged_pos hlt g1 g2.symm _).2 fun i hi => ?_
      have := hc i hi
      constructor <;> omega
  have := hw.length_le_cells (l := inp.tree.level b) h1 (fun s hs => (hS s hs).1)
    (fun s hs => (hS s hs).2.1.le)
    (fun s hs s' hs' => apart_of_level ((hS s hs).2.1.trans (hS s' hs').2.1.symm))
    (cells _ (fun i => 2 * K i - 2 * inp.nAway) (fun i => 2 * K i + 2 * inp.nAway + 1) \
      cells _ (fun i => inp.tree.gridPos b i - inp.nAway) fun i => inp.tree.gridPos b i + inp.nAway)
    (fun s i => inp.tree.gridPos s i)
    (fun s hs i _ => by rw [(hS s hs).2.1, Nat.sub_self, pow_zero, Int.ediv_one])
    (fun s hs => Finset.mem_sdiff.2 ⟨mem_cells.2 (hS s hs).2.2.1,
      fun hc => (hS s hs).2.2.2 (mem_cells.1 hc)⟩)
  rwa [Finset.card_sdiff_of_subset (cells_subset fun i _ => by
      simp only [hK]; constructor <;> omega),
    card_cells _ _ _ (4 * inp.nAway + 2) (fun i _ => by push_cast; ring),
    card_cells _ _ _ (2 * inp.nAway + 1) (fun i _ => by push_cast; ring)] at this

/-- Leaves at least as large as a box that touch it. -/
theorem BoxTree.WF.touching_coarser {t : BoxTree} (hw : t.WF) {b : Nat} (hb : b < t.nboxes)
    {S : List Nat} (hS : S.Nodup) (hs : ∀ s ∈ S, s < t.nboxes ∧ t.IsLeaf s ∧
      t.level s ≤ t.level b ∧ t.Touch b s) : S.length ≤ 3 ^ t.dims := by
  have := hw.length_le_region (l := t.level b) hS (fun s h => (hs s h).1)
    (fun s h => (hs s h).2.2.1) (fun s h s' h' => hw.apart_of_leaf (hs s' h').1 (hs s h).2.1)
    (fun i => t.gridPos b i - 1) (fun i => t.gridPos b i + 1)
    (fun s h i hi => by
      have := (hw.touch_pos hb (hs s h).1 le_rfl (hs s h).2.2.1).1 (hs s h).2.2.2 i hi
      rw [Nat.sub_self, pow_zero, one_mul, one_mul] at this
      exact ⟨by omega, this.1, by omega⟩)
    (cells _ (fun i => t.gridPos b i - 1) fun i => t.gridPos b i + 1)
    (fun s _ c hc => mem_cells.2 fun i hi => ⟨(hc i hi).1, (hc i hi).2.1⟩)
  rwa [card_cells _ _ _ 3 (fun i _ => by push_cast; ring)] at this

/-- **C72.** If sources and targets are in leaves only, all rows of list 1 together have at most
`2 · 3^d` entries per box of the tree. -/
theorem C72_list1_total (ok : inp.OK) (h : buildTraversal inp = .ok trav)
    (hsrc : ∀ b < inp.tree.nboxes, inp.tree.isSource b = true → inp.tree.IsLeaf b)
    (htgt : ∀ b ∈ trav.targetBoxes, inp.tree.IsLeaf b) :
    (trav.targetBoxes.map fun b => (trav.list1.rowFor trav.targetBoxes b).length).sum ≤
      2 * 3 ^ inp.tree.dims * inp.tree.nboxes := by
  have hw := ok.wf
  have hex := C03_list1_exact inp trav ok h
  have F := travFields h
  have hnd := targetBoxes_nodup inp trav h
  have hlen := length_le_nboxes hnd fun b hb => F.target_lt hb
  have hsplit : ∀ b, (trav.list1.rowFor trav.targetBoxes b).length =
      ((trav.list1.rowFor trav.targetBoxes b).filter
        fun s => decide (inp.tree.level s ≤ inp.tree.level b)).length +
      ((trav.list1.rowFor trav.targetBoxes b).filter
        fun s => !decide (inp.tree.level s ≤ inp.tree.level b)).length := fun b =>
    List.length_eq_length_filter_add _
  simp only [hsplit]
  rw [List.sum_map_add]
  have h1 : (trav.targetBoxes.map fun b => ((trav.list1.rowFor trav.targetBoxes b).filter
        fun s => decide (inp.tree.level s ≤ inp.tree.level b)).length).sum ≤
      inp.tree.nboxes * 3 ^ inp.tree.dims := by
    refine le_trans (List.sum_le_card_nsmul _ (3 ^ inp.tree.dims) ?_) ?_
    · intro x hx
      obtain ⟨b, hb, rfl⟩ := List.mem_map.1 hx
      obtain ⟨e1, e2⟩ := hex b hb
      refine hw.touching_coarser (F.target_lt hb) (e1.filter _) fun s hs => ?_
      obtain ⟨hs, hl⟩ := List.mem_filter.1 hs
      obtain ⟨g1, g2, g3⟩ := (e2 s).1 hs
      exact ⟨g1, hsrc s g1 g2, of_decide_eq_true hl, g3⟩
    · rw [List.length_map, smul_eq_mul]
      exact Nat.mul_le_mul_right _ hlen
  have h2 : (trav.targetBoxes.map fun b => ((trav.list1.rowFor trav.targetBoxes b).filter
        fun s => !decide (inp.tree.level s ≤ inp.tree.level b)).length).sum ≤
      inp.tree.nboxes * 3 ^ inp.tree.dims := by
    rw [sum_rows _ _ inp.tree.nboxes (fun b hb => (hex b hb).1.filter _)
      fun b hb s hs => ((hex b hb).2 s).1 (List.mem_filter.1 hs).1 |>.1]
    refine le_trans (Finset.sum_le_card_nsmul _ _ (3 ^ inp.tree.dims) fun s hs => ?_)
      (by rw [Finset.card_range, smul_eq_mul])
    have hs := Finset.mem_range.1 hs
    refine hw.touching_coarser hs (hnd.filter _) fun b hb => ?_
    obtain ⟨hb, hm⟩ := List.mem_filter.1 hb
    obtain ⟨hm, hl⟩ := List.mem_filter.1 (of_decide_eq_true hm)
    obtain ⟨g1, g2, g3⟩ := ((hex b hb).2 s).1 hm
    refine ⟨F.target_lt hb, htgt b hb, ?_, fun i hi => (g3 i hi).symm⟩
    simp at hl
    exact hl.le
  calc _ ≤ inp.tree.nboxes * 3 ^ inp.tree.dims + inp.tree.nboxes * 3 ^ inp.tree.dims :=
        Nat.add_le_add h1 h2
    _ = _ := by ring

/-- **C72.** In a balanced tree with sources and targets in leaves only, list 1 of a box has at most
`4^d - 2^d + 1` entries (13 in two and 57 in three dimensions). -/
theorem C72_list1_balanced (ok : inp.OK) (h : buildTraversal inp = .ok trav)
    (hsrc : ∀ b < inp.tree.nboxes, inp.tree.isSource b = true → inp.tree.IsLeaf b)
    (tgt : Nat) (htgt : tgt ∈ trav.targetBoxes) (hleaf : inp.tree.IsLeaf tgt)
    (hbal : ∀ s < inp.tree.nboxes, inp.tree.IsLeaf s → inp.tree.Touch tgt s →
      inp.tree.level s ≤ inp.tree.level tgt + 1) :
    (trav.list1.rowFor trav.targetBoxes tgt).length ≤ 4 ^ inp.tree.dims - 2 ^ inp.tree.dims + 1 := by
  have hw := ok.wf
  obtain ⟨e1, e2⟩ := C03_list1_exact inp trav ok h tgt htgt
  have hlt := (travFields h).target_lt htgt
  have hle : (trav.list1.rowFor trav.targetBoxes tgt).length ≤
      ((trav.list1.rowFor trav.targetBoxes tgt).erase tgt).length + 1 := by
    rw [List.length_erase]
    split <;> omega
  refine hle.trans (Nat.add_le_add_right ?_ 1)
  have hS : ∀ s ∈ (trav.list1.rowFor trav.targetBoxes tgt).erase tgt, s < inp.tree.nboxes ∧
      inp.tree.IsLeaf s ∧ inp.tree.level s ≤ inp.tree.level tgt + 1 ∧ s ≠ tgt ∧
      inp.tree.Touch tgt s := by
    intro s hs
    obtain ⟨hne, hs⟩ := (e1.mem_erase_iff).1 hs
    obtain ⟨g1, g2, g3⟩ := (e2 s).1 hs
    exact ⟨g1, hsrc s g1 g2, hbal s g1 (hsrc s g1 g2) g3, hne, g3⟩
  have := hw.length_le_region (l := inp.tree.level tgt + 1) (e1.erase tgt) (fun s h => (hS s h).1)
    (fun s h => (hS s h).2.2.1) (fun s h s' h' => hw.apart_of_leaf (hS s' h').1 (hS s h).2.1)
    (fun i => 2 * inp.tree.gridPos tgt i - 1) (fun i => 2 * inp.tree.gridPos tgt i + 2)
    (fun s h i hi => by
      have := (hw.touch_pos hlt (hS s h).1 (l := inp.tree.level tgt + 1) (by omega)
        (hS s h).2.2.1).1 (hS s h).2.2.2.2 i hi
      rw [Nat.add_sub_cancel_left, pow_one] at this
      exact ⟨by omega, by omega, by omega⟩)
    (cells _ (fun i => 2 * inp.tree.gridPos tgt i - 1) (fun i => 2 * inp.tree.gridPos tgt i + 2) \
      cells _ (fun i => 2 * inp.tree.gridPos tgt i) fun i => 2 * inp.tree.gridPos tgt i + 1)
    (fun s h c hc => Finset.mem_sdiff.2 ⟨mem_cells.2 fun i hi => ⟨(hc i hi).1, (hc i hi).2.1⟩,
      fun hin => (hS s h).2.2.2.1 (hw.eq_of_cell (hS s h).1 hlt (hS s h).2.2.1 (Nat.le_succ _)
        (hw.apart_of_leaf hlt (hS s h).2.1) (hw.apart_of_leaf (hS s h).1 hleaf) c
        (fun i hi => ediv_pow_iff.2 (hc i hi).2.2)
        (fun i hi => by
          have := mem_cells.1 hin i hi
          rw [Nat.add_sub_cancel_left, pow_one]
          omega))⟩)
  rwa [Finset.card_sdiff_of_subset (cells_subset fun i _ => by constructor <;> omega),
    card_cells _ _ _ 4 (fun i _ => by push_cast; ring),
    card_cells _ _ _ 2 (fun i _ => by push_cast; ring)] at this

/-- **C72.** Without target extents and with sources in leaves only, list 4 of a box has at most
`(2 n + 2)^d - 3^d` entries (7 in two and 37 in three dimensions for `n = 1`). -/
theorem C72_list4 (ok : inp.OK) (h : buildTraversal inp = .ok trav)
    (he : inp.targetsHaveExtent = false)
    (hsrc : ∀ b < inp.tree.nboxes, inp.tree.isSource b = true → inp.tree.IsLeaf b)
    (b : Nat) (hb : b ∈ trav.ttpBoxes) :
    (trav.list4.rowFor trav.ttpBoxes b).length ≤
      (2 * inp.nAway + 2) ^ inp.tree.dims - 3 ^ inp.tree.dims := by
  have hw := ok.wf
  have hn := ok.nAway_pos
  obtain ⟨e1, e2⟩ := C07_list4_exact inp trav ok h b hb
  have hlt := (travFields h).ttp_lt hb
  have hsep : ∀ c s, SepBigger inp c s := fun c s hc => by rw [he] at hc; cases hc
  set K : Nat → ℤ := fun i => inp.tree.gridPos b i / 2 with hK
  have hS : ∀ s ∈ trav.list4.rowFor trav.ttpBoxes b, s < inp.tree.nboxes ∧ inp.tree.IsLeaf s ∧
      inp.tree.level s ≤ inp.tree.level b ∧ ¬ inp.tree.Touch b s ∧
      ∀ i, i < inp.tree.dims → 2 ^ (inp.tree.level b - inp.tree.level s) * inp.tree.gridPos s i ≤
          2 * K i + 1 + inp.nAway ∧
        2 * K i - inp.nAway <
          2 ^ (inp.tree.level b - inp.tree.level s) * (inp.tree.gridPos s i + 1) := by
    intro s hs
    obtain ⟨g1, g2, g3, g4, g5, g6, g7⟩ := (e2 s).1 hs
    refine ⟨g1, hsrc s g1 g2, g3, g6.1, fun i hi => ?_⟩
    rcases Nat.lt_or_ge (inp.tree.level s) (inp.tree.level b) with hl | hl
    · have hb0 : b ≠ 0 := by rintro rfl; rw [hw.level_root] at hl; omega
      have ht : inp.tree.Touch (inp.tree.parent b) s := by
        by_contra hc
        exact g7 ⟨hl, hc, hsep _ _⟩
      have hp := hw.level_parent b hlt hb0
      have := (hw.touch_pos (hw.parent_lt b hlt) g1 (l := inp.tree.level b) (by omega) g3).1 ht i hi
      rw [hw.pos_parent hlt hb0 hi, show inp.tree.level b - inp.tree.level (inp.tree.parent b) = 1 by
        omega, pow_one] at this
      simp only [hK]
      constructor <;> omega
    · have hl : inp.tree.level s = inp.tree.level b := le_antisymm g3 hl
      rw [hl, ancAt_self] at g5
      have := (hw.touchEnlarged_pos hlt g1 hl.symm _).1 g5 i hi
      rw [hl, Nat.sub_self, pow_zero]
      simp only [hK]
      constructor <;> omega
  have := hw.length_le_region (l := inp.tree.level b) e1 (fun s h => (hS s h).1)
    (fun s h => (hS s h).2.2.1) (fun s h s' h' => hw.apart_of_leaf (hS s' h').1 (hS s h).2.1)
    (fun i => 2 * K i - inp.nAway) (fun i => 2 * K i + 1 + inp.nAway)
    (fun s h i hi => ⟨by omega, (hS s h).2.2.2.2 i hi⟩)
    (cells _ (fun i => 2 * K i - inp.nAway) (fun i => 2 * K i + 1 + inp.nAway) \
      cells _ (fun i => inp.tree.gridPos b i - 1) fun i => inp.tree.gridPos b i + 1)
    (fun s h c hc => Finset.mem_sdiff.2 ⟨mem_cells.2 fun i hi => ⟨(hc i hi).1, (hc i hi).2.1⟩,
      fun hin => (hS s h).2.2.2.1 ((hw.touch_pos hlt (hS s h).1 le_rfl (hS s h).2.2.1).2
        fun i hi => by
          have h1 := mem_cells.1 hin i hi
          have h2 := hc i hi
          rw [Nat.sub_self, pow_zero, one_mul, one_mul]
          constructor <;> omega)⟩)
  rwa [Finset.card_sdiff_of_subset (cells_subset fun i _ => by
      simp only [hK]; constructor <;> omega),
    card_cells _ _ _ (2 * inp.nAway + 2) (fun i _ => by push_cast; ring),
    card_cells _ _ _ 3 (fun i _ => by push_cast; ring)] at this

/-- **C72.** Without target extents and with targets in leaves only, lists 3 of all levels together
have at most `(2 n + 1)^d` entries per box of the tree. -/
theorem C72_list3_total (ok : inp.OK) (h : buildTraversal inp = .ok trav)
    (he : inp.targetsHaveExtent = false) (htgt : ∀ b ∈ trav.targetBoxes, inp.tree.IsLeaf b) :
    (∑ L ∈ Finset.range inp.tree.nlevels, (trav.targetBoxes.map fun b =>
      ((trav.list3.getD L ⟨[], []⟩).rowFor (trav.list3Targets.getD L []) b).length).sum) ≤
      (2 * inp.nAway + 1) ^ inp.tree.dims * inp.tree.nboxes := by
  have hw := ok.wf
  have hn := ok.nAway_pos
  have F := travFields h
  have hnd := targetBoxes_nodup inp trav h
  have hsep : ∀ c s, SepSmaller inp c s := fun c s hc => by rw [he] at hc; cases hc
  have hrow : ∀ L ∈ Finset.range inp.tree.nlevels, (trav.targetBoxes.map fun b =>
      ((trav.list3.getD L ⟨[], []⟩).rowFor (trav.list3Targets.getD L []) b).length).sum ≤
      ∑ s ∈ Finset.range inp.tree.nboxes,
        if inp.tree.level s = L then (2 * inp.nAway + 1) ^ inp.tree.dims else 0 := by
    intro L hL
    have hL := Finset.mem_range.1 hL
    have hex := fun b hb => C06_list3_exact inp trav ok h b L hb hL
    rw [sum_rows _ _ inp.tree.nboxes (fun b hb => (hex b hb).1)
      fun b hb s hs => (((hex b hb).2 s).1 hs).1]
    refine Finset.sum_le_sum fun s hs => ?_
    have hs := Finset.mem_range.1 hs
    by_cases hsl : inp.tree.level s = L
    swap
    · rw [if_neg hsl, Nat.le_zero, List.length_eq_zero_iff, List.filter_eq_nil_iff]
      intro b hb hm
      exact hsl (((hex b hb).2 s).1 (of_decide_eq_true hm)).2.1
    rw [if_pos hsl]
    set p := inp.tree.parent s with hp
    have hpl : p < inp.tree.nboxes := hw.parent_lt s hs
    have hS : ∀ b ∈ trav.targetBoxes.filter fun b => decide (s ∈
          (trav.list3.getD L ⟨[], []⟩).rowFor (trav.list3Targets.getD L []) b),
        b < inp.tree.nboxes ∧ inp.tree.IsLeaf b ∧ inp.tree.level b ≤ inp.tree.level p ∧
        ∀ i, i < inp.tree.dims → 2 ^ (inp.tree.level p - inp.tree.level b) * inp.tree.gridPos b i ≤
            inp.tree.gridPos p i + inp.nAway ∧
          inp.tree.gridPos p i - inp.nAway <
            2 ^ (inp.tree.level p - inp.tree.level b) * (inp.tree.gridPos b i + 1) := by
      intro b hb
      obtain ⟨hb, hm⟩ := List.mem_filter.1 hb
      obtain ⟨g1, g2, g3, _, g5, g6, g7, _, g9⟩ := ((hex b hb).2 s).1 (of_decide_eq_true hm)
      have hblt := F.target_lt hb
      have hs0 : s ≠ 0 := by rintro rfl; rw [hw.level_root] at hsl; omega
      have hlp : inp.tree.level s = inp.tree.level p + 1 := hw.level_parent s hs hs0
      have hbp : inp.tree.level b ≤ inp.tree.level p := by omega
      have hanc : inp.tree.ancAt s (inp.tree.level p) = p := by
        rw [← ancAt_parent inp.tree (by omega), ← hlp, ancAt_self]
      refine ⟨hblt, htgt b hb, hbp, fun i hi => ?_⟩
      rcases Nat.lt_or_ge (inp.tree.level b) (inp.tree.level p) with hl | hl
      · have ht : inp.tree.Touch b p := by
          rcases g9 (inp.tree.level p) hl (by omega) with hc | hc
          · rwa [hanc] at hc
          · exact absurd (hsep _ _) hc
        have := (hw.touch_pos hblt hpl hbp le_rfl).1 ht i hi
        rw [Nat.sub_self, pow_zero, one_mul, one_mul] at this
        constructor <;> omega
      · have hl : inp.tree.level b = inp.tree.level p := le_antisymm hbp hl
        rw [hl, hanc] at g6
        have := (hw.touchEnlarged_pos hblt hpl hl _).1 g6 i hi
        rw [hl, Nat.sub_self, pow_zero]
        constructor <;> omega
    have := hw.length_le_region (l := inp.tree.level p) (hnd.filter _) (fun b h => (hS b h).1)
      (fun b h => (hS b h).2.2.1) (fun b h b' h' => hw.apart_of_leaf (hS b' h').1 (hS b h).2.1)
      (fun i => inp.tree.gridPos p i - inp.nAway) (fun i => inp.tree.gridPos p i + inp.nAway)
      (fun b h i hi => ⟨by omega, (hS b h).2.2.2 i hi⟩)
      (cells _ (fun i => inp.tree.gridPos p i - inp.nAway) fun i => inp.tree.gridPos p i + inp.nAway)
      (fun b _ c hc => mem_cells.2 fun i hi => ⟨(hc i hi).1, (hc i hi).2.1⟩)
    rwa [card_cells _ _ _ (2 * inp.nAway + 1) (fun i _ => by push_cast; ring)] at this
  refine (Finset.sum_le_sum hrow).trans ?_
  rw [Finset.sum_comm]
  refine le_trans (Finset.sum_le_card_nsmul _ _ ((2 * inp.nAway + 1) ^ inp.tree.dims) fun s hs => ?_)
    (by rw [Finset.card_range, smul_eq_mul, Nat.mul_comm])
  rw [Finset.sum_ite_eq]
  split <;> simp

/-- The hypotheses hold for the example; the bound for list 4 is attained. -/
example : ∃ trav, buildTraversal Ex.exInput = .ok trav ∧ Ex.exInput.targetsHaveExtent = false ∧
    8 ∈ trav.ttpBoxes ∧ (trav.list4.rowFor trav.ttpBoxes 8).length = 4 ^ 1 - 3 ^ 1 ∧
    (∀ b < Ex.exInput.tree.nboxes, Ex.exInput.tree.isSource b = true →
      ∀ m < Ex.exInput.tree.nch, Ex.exInput.tree.child m b = 0) ∧
    ∀ b ∈ trav.targetBoxes, ∀ m < Ex.exInput.tree.nch, Ex.exInput.tree.child m b = 0 :=
  ⟨_, rfl, rfl, by decide +kernel, by decide +kernel, by decide +kernel, by decide +kernel⟩

end Boxtree
