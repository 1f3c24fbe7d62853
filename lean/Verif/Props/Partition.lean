import Verif.Lemmas.Partition
import Verif.Examples

/-!
# C37: the work partition
-/

namespace Boxtree
open BoxTree Dist

/-- **C37**: the order in which boxes are dealt out is a depth-first order of the whole tree. -/
theorem C37_dfs_order (t : BoxTree) (hw : t.WF) :
    ∃ order, dfsOrder t = some order ∧ IsDepthFirst t order :=
  ⟨_, dfsOrder_eq hw, isDepthFirst hw⟩

/-- **C37**, for every cost vector whatsoever: the first `k` ranks get non-empty lists of boxes
that, one after the other, are the depth-first order, so each box belongs to exactly one of
them, each of them holding a contiguous run.  The remaining ranks read memory that was never
assigned. -/
theorem C37_segments (t : BoxTree) (hw : t.WF) (cost : Nat → ℚ) (size : Nat) (h0 : 0 < size)
    (hs : size ≤ t.nboxes) :
    ∃ (order : List Nat) (parts : List (List Nat)) (rest : Nat), IsDepthFirst t order ∧
      partitionWork t cost size = .ok (parts.map some ++ List.replicate rest none) ∧
      parts.length + rest = size ∧ parts ≠ [] ∧ (∀ l ∈ parts, l ≠ []) ∧
      parts.flatten = order := by
  have hn := hw.nboxes_pos
  obtain ⟨ends, h1, h2, h3, -⟩ := partLoop_spec cost (subtree t 0)
    ((List.range t.nboxes).map cost).sum size t.nboxes t.nboxes 0 0 0 0
    (List.replicate size none) hn (by omega) le_rfl h0 (by simp)
  have hlen : (subtree t 0).length = t.nboxes := by
    have := (subtree_root_perm hw).length_eq; simpa using this
  refine ⟨subtree t 0, (segsOf 0 ends).map fun se => ((subtree t 0).drop se.1).take (se.2 - se.1),
    size - ends.length, isDepthFirst hw, ?_, ?_, ?_, ?_, ?_⟩
  · unfold partitionWork
    rw [if_neg (by omega), dfsOrder_eq hw]
    simp only
    unfold segments
    rw [← List.range_eq_range'] at h3
    rw [h3]
    simp [List.map_append, Function.comp_def]
  · simp only [List.length_map, length_segsOf]; omega
  · intro hc
    have : ends.length = 0 := by
      have := congrArg List.length hc
      simpa [length_segsOf] using this
    rw [List.length_eq_zero_iff] at this
    subst this
    exact h1.elim
  · intro l hl
    obtain ⟨se, hse, rfl⟩ := List.mem_map.1 hl
    have := h1.nonempty se hse
    intro hc
    have := congrArg List.length hc
    simp [hlen] at this
    omega
  · rw [h1.flatten _ hlen]; simp

/-- **C37**: with more ranks than boxes the call is rejected. -/
theorem C37_too_many_ranks (t : BoxTree) (cost : Nat → ℚ) (size : Nat) (hs : t.nboxes < size) :
    partitionWork t cost size = .error .tooManyRanks := by
  unfold partitionWork; rw [if_pos hs]

/-- **C37**: if no box costs more than the average workload of a rank, and the last box in
depth-first order costs less than that, then every rank gets a non-empty contiguous run of the
depth-first order and every box belongs to exactly one rank.

Partial: the conclusion without the hypothesis on the costs is false for the code, see
`C37_last_ranks_uninitialised`. -/
theorem C37_partition_partial (t : BoxTree) (hw : t.WF) (cost : Nat → ℚ) (size : Nat)
    (h0 : 0 < size) (hs : size ≤ t.nboxes) (hnn : ∀ b, b < t.nboxes → 0 ≤ cost b)
    (havg : ∀ b, b < t.nboxes → cost b ≤ ((List.range t.nboxes).map cost).sum / size)
    (hlast : ∀ order, dfsOrder t = some order →
      cost (order.getD (t.nboxes - 1) 0) < ((List.range t.nboxes).map cost).sum / size) :
    ∃ (order : List Nat) (parts : List (List Nat)), IsDepthFirst t order ∧
      partitionWork t cost size = .ok (parts.map some) ∧
      parts.length = size ∧ (∀ l ∈ parts, l ≠ []) ∧ parts.flatten = order ∧
      ∀ b, b < t.nboxes → ∃! r, r < size ∧ b ∈ parts.getD r [] := by
  have hn := hw.nboxes_pos
  obtain ⟨ends, h1, h2, h3, h4⟩ := partLoop_spec cost (subtree t 0)
    ((List.range t.nboxes).map cost).sum size t.nboxes t.nboxes 0 0 0 0
    (List.replicate size none) hn (by omega) le_rfl h0 (by simp)
  have hlen : (subtree t 0).length = t.nboxes := by
    have := (subtree_root_perm hw).length_eq; simpa using this
  have hlt : ∀ k, k < t.nboxes → (subtree t 0).getD k 0 < t.nboxes := by
    intro k hk
    rw [List.getD_eq_getElem _ _ (by omega)]
    exact subtree_lt hw 0 hn _ (List.getElem_mem _)
  have hsum : ((List.range t.nboxes).map fun k => cost ((subtree t 0).getD k 0)).sum =
      ((List.range t.nboxes).map cost).sum := by
    have e : ((List.range t.nboxes).map fun k => cost ((subtree t 0).getD k 0)) =
        (subtree t 0).map cost := by
      apply List.ext_getElem
      · simp [hlen]
      · intro i h1 h2
        simp only [List.getElem_map, List.getElem_range]
        rw [List.getD_eq_getElem]
    rw [e]
    exact ((subtree_root_perm hw).map cost).sum_eq
  have hfull : 0 + ends.length = size := by
    refine h4 (fun k hk => hnn _ (hlt k hk)) (fun k hk => havg _ (hlt k hk))
      (hlast _ (dfsOrder_eq hw)) hsum (by simp) ?_
    have : 0 ≤ ((List.range t.nboxes).map cost).sum / size :=
      le_trans (hnn 0 hn) (havg 0 hn)
    simpa using this
  set parts := (segsOf 0 ends).map fun se => ((subtree t 0).drop se.1).take (se.2 - se.1)
    with hparts
  have hpl : parts.length = size := by simp only [hparts, List.length_map, length_segsOf]; omega
  have hfl : parts.flatten = subtree t 0 := by rw [hparts, h1.flatten _ hlen]; simp
  refine ⟨subtree t 0, parts, isDepthFirst hw, ?_, hpl, ?_, hfl, ?_⟩
  · unfold partitionWork
    rw [if_neg (by omega), dfsOrder_eq hw]
    simp only
    unfold segments
    rw [← List.range_eq_range'] at h3
    rw [h3]
    have : size - ends.length = 0 := by omega
    simp [Function.comp_def, hparts, this]
  · intro l hl
    obtain ⟨se, hse, rfl⟩ := List.mem_map.1 hl
    have := h1.nonempty se hse
    intro hc
    have := congrArg List.length hc
    simp [hlen] at this
    omega
  · intro b hb
    have hmem : b ∈ parts.flatten := by
      rw [hfl]; exact (mem_subtree hw b hb 0 hn).2 (isAnc_root hw hb)
    have hnd : parts.flatten.Nodup := by rw [hfl]; exact nodup_subtree hw 0 hn
    obtain ⟨l, hl, hbl⟩ := List.mem_flatten.1 hmem
    obtain ⟨r, hr, rfl⟩ := List.mem_iff_getElem.1 hl
    refine ⟨r, ⟨by omega, by rw [List.getD_eq_getElem _ _ hr]; exact hbl⟩, ?_⟩
    rintro r' ⟨hr', hb'⟩
    by_contra hne
    rw [List.getD_eq_getElem _ _ (by omega)] at hb'
    have hdis := (List.nodup_flatten.1 hnd).2
    rw [List.pairwise_iff_getElem] at hdis
    rcases Nat.lt_or_gt_of_ne hne with h | h
    · exact hdis r' r (by omega) hr h hb' hbl
    · exact hdis r r' hr (by omega) h hbl hb'

/-- **C37 is violated** by costs concentrated in the last boxes: if all the work is in the box
that comes last, rank 0 is given every box and rank 1 of 2 reads an uninitialised segment. -/
theorem C37_last_ranks_uninitialised :
    ∃ (t : BoxTree) (cost : Nat → ℚ), t.WF ∧ (∀ b, 0 ≤ cost b) ∧ 2 ≤ t.nboxes ∧
      partitionWork t cost 2 = .ok [some [0, 2, 6, 8, 7, 5, 1, 4, 3], none] :=
  ⟨Ex.exTree, fun b => if b = 3 then 1 else 0, Ex.exTree_wf,
    fun b => by simp only []; split <;> norm_num, by decide, by decide +kernel⟩

/-- Three ranks on the example tree, all boxes costing the same: the hypotheses of
`C37_partition_partial` hold and each rank gets a run of boxes. -/
example : (∀ b, b < Ex.exTree.nboxes → (1 : ℚ) ≤ ((List.range Ex.exTree.nboxes).map
      fun _ => (1 : ℚ)).sum / (3 : Nat)) ∧
    partitionWork Ex.exTree (fun _ => 1) 3 =
      .ok [some [0, 2, 6, 8], some [7, 5, 1], some [4, 3]] :=
  ⟨by decide +kernel, by decide +kernel⟩

end Boxtree
