import Verif.Lemmas.Filter
import Verif.Spec.LocalTree
import Verif.Props.Fmm

/-!
# C28, C29, C30, C49: target filters, point source linking, particle lookup

The hypotheses on `sorted_target_ids` and `user_source_ids` (permutations) and on the box ranges
are what C19 and C20 establish for built trees.  `order` ranges over all orders of the work items
of the storing kernels, `junk` over all results of reads past the end of an array.
-/

namespace Boxtree.Filter

variable (q : Particles)

/-- `sorted_target_ids` is a permutation of the target numbers. -/
structure SortedOK : Prop where
  lt : ∀ u, u < q.ntargets → q.sortedTargetIds u < q.ntargets
  inj : ∀ u, u < q.ntargets → ∀ v, v < q.ntargets →
    q.sortedTargetIds u = q.sortedTargetIds v → u = v

variable {q}

/-- C28: the row of box `b` consists of exactly the flagged user target numbers whose tree-order
position lies in the box, each once and in tree order. -/
theorem C28_filter_user_order (hs : SortedOK q) {order : List Nat}
    (ho : order.Perm (List.range q.ntargets)) (nboxes : Nat) (flags : Nat → Nat) (b : Nat)
    (hb : b < nboxes) (hr : q.tgtStart b + q.tgtCount b ≤ q.ntargets) :
    (∀ u, u ∈ (filterUserOrder order q nboxes flags).row b ↔
      u < q.ntargets ∧ flags u ≠ 0 ∧ InRange q.tgtStart q.tgtCount b (q.sortedTargetIds u)) ∧
    (((filterUserOrder order q nboxes flags).row b).map q.sortedTargetIds).Pairwise (· < ·) := by
  have hput := putIn_perm ho q.sortedTargetIds id 0 hs.lt hs.inj
  set ids := putIn order q.sortedTargetIds id (List.replicate q.ntargets 0) with hids
  have hrow : (filterUserOrder order q nboxes flags).row b =
      userFilterRow flags ids (q.tgtStart b) (q.tgtCount b) := by
    unfold filterUserOrder
    rw [row_build _ _ (by simpa using hb), List.getD_eq_getElem _ _ (by simpa using hb)]
    simp [hids]
  have hinv : ∀ j, j < q.ntargets →
      ids.getD j 0 < q.ntargets ∧ q.sortedTargetIds (ids.getD j 0) = j := by
    intro j hj
    obtain ⟨u, hu, rfl⟩ := surj_of_inj _ hs.lt hs.inj j hj
    have := hput.2 u hu
    rw [this]
    exact ⟨hu, rfl⟩
  rw [hrow]
  refine ⟨fun u => ?_, ?_⟩
  · unfold userFilterRow InRange
    simp only [List.mem_filter, List.mem_map, List.mem_range'_1, bne_iff_ne, ne_eq]
    constructor
    · rintro ⟨⟨j, hj, rfl⟩, hf⟩
      have h := hinv j (by omega)
      exact ⟨h.1, hf, by rw [h.2]; exact hj⟩
    · rintro ⟨hu, hf, hj⟩
      exact ⟨⟨q.sortedTargetIds u, hj, hput.2 u hu⟩, hf⟩
  · unfold userFilterRow
    have hp : ((List.range' (q.tgtStart b) (q.tgtCount b)).map fun j => ids.getD j 0).Pairwise
        (fun x y => q.sortedTargetIds x < q.sortedTargetIds y) := by
      rw [List.pairwise_map]
      refine (List.pairwise_lt_range' (s := q.tgtStart b) (n := q.tgtCount b)).imp_of_mem ?_
      intro x y hx hy hxy
      rw [List.mem_range'_1] at hx hy
      rw [(hinv x (by omega)).2, (hinv y (by omega)).2]
      exact hxy
    rw [List.pairwise_map]
    exact hp.filter _

/-- The tree-order flags after the permuting store. -/
theorem treeFlags_spec (hs : SortedOK q) {order : List Nat}
    (ho : order.Perm (List.range q.ntargets)) (flags : Nat → Nat) :
    (putIn order q.sortedTargetIds flags (List.replicate q.ntargets 0)).length = q.ntargets ∧
    ∀ u, u < q.ntargets →
      (putIn order q.sortedTargetIds flags (List.replicate q.ntargets 0)).getD
        (q.sortedTargetIds u) 0 = flags u :=
  putIn_perm ho q.sortedTargetIds flags 0 hs.lt hs.inj

/-- C29, targets: the filtered targets are the flagged ones, in tree order, each once. -/
theorem C29_filter_tree_order_targets (hs : SortedOK q) {order : List Nat}
    (ho : order.Perm (List.range q.ntargets)) (junk : Nat → Nat) (flags : Nat → Nat) :
    let r := filterTreeOrder junk order q flags
    r.unfiltered.length = r.nfiltered ∧ r.unfiltered.Pairwise (· < ·) ∧
    ∀ j, j ∈ r.unfiltered ↔ ∃ u, u < q.ntargets ∧ q.sortedTargetIds u = j ∧ flags u ≠ 0 := by
  obtain ⟨hlen, hval⟩ := treeFlags_spec hs ho flags
  set tf := putIn order q.sortedTargetIds flags (List.replicate q.ntargets 0) with htf
  have hscan : (prefixSums 0 (tf.map fun f => if f ≠ 0 then 1 else 0)).getD q.ntargets 0 =
      rankOf (fun j => tf.getD j 0 != 0) tf.length := by
    rw [scan_flags tf q.ntargets hlen.ge, hlen]
  have hunf : (filterTreeOrder junk order q flags).unfiltered =
      (List.range tf.length).filter fun j => tf.getD j 0 != 0 := by
    rw [← unfiltered_take (order := order) tf (by rw [hlen]; exact ho), ← hscan]
    rfl
  have hn : (filterTreeOrder junk order q flags).nfiltered =
      rankOf (fun j => tf.getD j 0 != 0) tf.length := hscan
  refine ⟨?_, ?_, fun j => ?_⟩
  · rw [hunf, hn]; rfl
  · rw [hunf]
    exact (List.pairwise_lt_range (n := tf.length)).filter _
  · rw [hunf, List.mem_filter, List.mem_range, hlen]
    constructor
    · rintro ⟨hj, hf⟩
      obtain ⟨u, hu, rfl⟩ := surj_of_inj _ hs.lt hs.inj j hj
      exact ⟨u, hu, rfl, by rw [hval u hu] at hf; simpa using hf⟩
    · rintro ⟨u, hu, rfl, hf⟩
      exact ⟨hs.lt u hu, by rw [hval u hu]; simpa using hf⟩

/-- C29, boxes: the new range of a box selects from the filtered targets exactly those that lie
in the old range of the box, in the same order, whatever the kernel reads past the end of its
index array. -/
theorem C29_filter_tree_order_boxes (hs : SortedOK q) {order : List Nat}
    (ho : order.Perm (List.range q.ntargets)) (junk : Nat → Nat) (flags : Nat → Nat) (b : Nat)
    (hr : q.tgtStart b + q.tgtCount b ≤ q.ntargets) :
    let r := filterTreeOrder junk order q flags
    (r.unfiltered.drop (r.starts b)).take (r.counts b) =
      r.unfiltered.filter fun j => decide (InRange q.tgtStart q.tgtCount b j) := by
  obtain ⟨hlen, -⟩ := treeFlags_spec hs ho flags
  set tf := putIn order q.sortedTargetIds flags (List.replicate q.ntargets 0) with htf
  set p : Nat → Bool := fun j => tf.getD j 0 != 0 with hp
  have hscan : (prefixSums 0 (tf.map fun f => if f ≠ 0 then 1 else 0)).getD q.ntargets 0 =
      rankOf p tf.length := by
    rw [scan_flags tf q.ntargets hlen.ge, hlen]
  have hunf : (filterTreeOrder junk order q flags).unfiltered =
      (List.range q.ntargets).filter p := by
    rw [← hlen, ← unfiltered_take (order := order) tf (by rw [hlen]; exact ho), ← hscan]
    rfl
  have hread : ∀ j, j < q.ntargets → readOr junk (filteredFromUnfiltered tf) j = rankOf p j := by
    intro j hj
    unfold readOr
    rw [length_filteredFromUnfiltered, if_pos (by omega),
      filteredFromUnfiltered_getD _ _ (by omega)]
  have hrest : ((List.range q.ntargets).filter p).filter
      (fun j => decide (InRange q.tgtStart q.tgtCount b j)) =
      (List.range' (q.tgtStart b) (q.tgtCount b)).filter p := by
    rw [range_split (a := q.tgtStart b) (b := q.tgtStart b + q.tgtCount b) (by omega) hr]
    simp only [List.filter_append, List.filter_filter, Nat.add_sub_cancel_left]
    have e1 : (List.range (q.tgtStart b)).filter (fun a =>
        decide (InRange q.tgtStart q.tgtCount b a) && p a) = [] := by
      rw [List.filter_eq_nil_iff]
      intro j hj
      rw [List.mem_range] at hj
      simp only [Bool.and_eq_true, decide_eq_true_eq, not_and]
      intro h
      unfold InRange at h
      omega
    have e2 : (List.range' (q.tgtStart b + q.tgtCount b)
        (q.ntargets - (q.tgtStart b + q.tgtCount b))).filter (fun a =>
        decide (InRange q.tgtStart q.tgtCount b a) && p a) = [] := by
      rw [List.filter_eq_nil_iff]
      intro j hj
      rw [List.mem_range'_1] at hj
      simp only [Bool.and_eq_true, decide_eq_true_eq, not_and]
      intro h
      unfold InRange at h
      omega
    rw [e1, e2, List.nil_append, List.append_nil]
    · apply List.filter_congr
      intro j hj
      rw [List.mem_range'_1] at hj
      have : decide (InRange q.tgtStart q.tgtCount b j) = true := decide_eq_true hj
      rw [this, Bool.true_and]
  have hst : (filterTreeOrder junk order q flags).starts b =
      readOr junk (filteredFromUnfiltered tf) (q.tgtStart b) := rfl
  have hct : (filterTreeOrder junk order q flags).counts b =
      if 0 < q.tgtCount b then
        (if q.tgtStart b + q.tgtCount b < q.ntargets then
          readOr junk (filteredFromUnfiltered tf) (q.tgtStart b + q.tgtCount b)
        else (prefixSums 0 (tf.map fun f => if f ≠ 0 then 1 else 0)).getD q.ntargets 0) -
        readOr junk (filteredFromUnfiltered tf) (q.tgtStart b)
      else 0 := rfl
  change ((filterTreeOrder junk order q flags).unfiltered.drop _).take _ =
    (filterTreeOrder junk order q flags).unfiltered.filter _
  rw [hunf, hrest, hst, hct]
  by_cases hc : 0 < q.tgtCount b
  · rw [if_pos hc, hread (q.tgtStart b) (by omega)]
    have hpost : (if q.tgtStart b + q.tgtCount b < q.ntargets then
          readOr junk (filteredFromUnfiltered tf) (q.tgtStart b + q.tgtCount b)
        else (prefixSums 0 (tf.map fun f => if f ≠ 0 then 1 else 0)).getD q.ntargets 0) =
        rankOf p (q.tgtStart b + q.tgtCount b) := by
      by_cases h : q.tgtStart b + q.tgtCount b < q.ntargets
      · rw [if_pos h, hread _ h]
      · rw [if_neg h, hscan, hlen]
        congr 1
        omega
    rw [hpost]
    have := filter_slice p (a := q.tgtStart b) (b := q.tgtStart b + q.tgtCount b)
      (n := q.ntargets) (by omega) hr
    rw [Nat.add_sub_cancel_left] at this
    exact this
  · rw [if_neg hc, List.take_zero]
    have : q.tgtCount b = 0 := by omega
    rw [this]
    rfl

section link

variable (q) in
/-- Number of point sources of tree-order source `i`. -/
def npts (pss : Nat → Nat) (i : Nat) : Nat :=
  pss (q.userSourceIds i + 1) - pss (q.userSourceIds i)

variable {pss : Nat → Nat} {junk : Nat → Nat} {order : List Nat} {cumul : Nat → Nat}

theorem link_scan (i : Nat) (hi : i ≤ q.nsources) :
    (prefixSums 0 ((List.range q.nsources).map (npts q pss))).getD i 0 =
      ((List.range i).map (npts q pss)).sum := by
  rw [prefixSums_getD _ _ _ (by simpa using hi), ← List.map_take, List.take_range,
    Nat.min_eq_left hi, Nat.zero_add]

theorem link_starts (i : Nat) (hi : i < q.nsources) :
    (linkPointSources junk order q cumul pss).starts.getD i 0 =
      ((List.range i).map (npts q pss)).sum := by
  rw [← link_scan i hi.le]
  change (List.take q.nsources (prefixSums 0 _)).getD i 0 = _
  rw [List.getD_eq_getElem?_getD, List.getElem?_take_of_lt hi, ← List.getD_eq_getElem?_getD]
  rfl

theorem link_counts (i : Nat) (hi : i < q.nsources) :
    (linkPointSources junk order q cumul pss).counts.getD i 0 = npts q pss i := by
  change ((List.range q.nsources).map fun i =>
    (prefixSums 0 ((List.range q.nsources).map (npts q pss))).getD (i + 1) 0 -
    (prefixSums 0 ((List.range q.nsources).map (npts q pss))).getD i 0).getD i 0 = _
  rw [List.getD_eq_getElem _ _ (by simpa using hi), List.getElem_map, List.getElem_range,
    link_scan _ hi, link_scan _ hi.le, List.range_succ]
  simp

/-- The point source ranges of the sources follow each other without gaps and end at the number
of point sources. -/
theorem C30_ranges_contiguous :
    let r := linkPointSources junk order q cumul pss
    (0 < q.nsources → r.starts.getD 0 0 = 0) ∧
    (∀ i, i < q.nsources → r.counts.getD i 0 =
      pss (q.userSourceIds i + 1) - pss (q.userSourceIds i)) ∧
    (∀ i, i + 1 < q.nsources → r.starts.getD (i + 1) 0 = r.starts.getD i 0 + r.counts.getD i 0) ∧
    (∀ i, i + 1 = q.nsources → r.npoint = r.starts.getD i 0 + r.counts.getD i 0) ∧
    r.userIds.length = r.npoint := by
  refine ⟨fun h => link_starts 0 h, fun i hi => link_counts i hi, fun i hi => ?_, fun i hi => ?_, ?_⟩
  · rw [link_starts _ hi, link_starts i (by omega), link_counts i (by omega), List.range_succ]
    simp
  · rw [link_starts i (by omega), link_counts i (by omega)]
    change (prefixSums 0 _).getD q.nsources 0 = _
    rw [show (prefixSums 0 ((List.range q.nsources).map fun i =>
        pss (q.userSourceIds i + 1) - pss (q.userSourceIds i))).getD q.nsources 0 = _ from
      link_scan (q := q) (pss := pss) q.nsources (Nat.le_refl _), ← hi, List.range_succ]
    simp
  · change (segScan _ _ _).length = _
    rw [segScan_length, putIn_length, List.length_replicate]
    rfl

theorem sum_range_mono (f : Nat → Nat) {i j : Nat} (h : i ≤ j) :
    ((List.range i).map f).sum ≤ ((List.range j).map f).sum := by
  induction j with
  | zero => rw [Nat.le_zero.1 h]
  | succ j ih =>
    rcases Nat.lt_or_ge i (j + 1) with h' | h'
    · rw [List.range_succ, List.map_append, List.sum_append]
      exact (ih (by omega)).trans (by omega)
    · rw [Nat.le_antisymm h h']

theorem sum_range_step (f : Nat → Nat) {i j : Nat} (h : i < j) :
    ((List.range i).map f).sum + f i ≤ ((List.range j).map f).sum := by
  have := sum_range_mono f (show i + 1 ≤ j from h)
  rw [List.range_succ, List.map_append, List.sum_append] at this
  simpa using this

theorem link_npoint : (linkPointSources junk order q cumul pss).npoint =
    ((List.range q.nsources).map (npts q pss)).sum := link_scan q.nsources (Nat.le_refl _)

/-- The ids of the point sources of a source, if the store of its first id survives. -/
theorem link_ids (ho : order.Perm (List.range q.nsources)) (i : Nat) (hi : i < q.nsources)
    (hput : 0 < npts q pss i → (putIn order
      (fun i => (linkPointSources junk order q cumul pss).starts.getD i 0)
      (fun i => pss (q.userSourceIds i))
      (List.replicate (linkPointSources junk order q cumul pss).npoint 1)).getD
        ((linkPointSources junk order q cumul pss).starts.getD i 0) 0 = pss (q.userSourceIds i))
    (k : Nat) (hk : k < npts q pss i) :
    (linkPointSources junk order q cumul pss).userIds.getD
      ((linkPointSources junk order q cumul pss).starts.getD i 0 + k) 0 =
      pss (q.userSourceIds i) + k := by
  set r := linkPointSources junk order q cumul pss with hr
  have hle := sum_range_step (npts q pss) hi
  have hnot : ∀ k, 0 < k → k < npts q pss i → ∀ j ∈ order,
      r.starts.getD j 0 ≠ r.starts.getD i 0 + k := by
    intro k h0 hk j hj
    have hj' : j < q.nsources := List.mem_range.1 (ho.mem_iff.1 hj)
    rw [link_starts j hj', link_starts i hi]
    rcases Nat.lt_trichotomy j i with h | h | h
    · have := sum_range_step (npts q pss) h
      omega
    · subst h; omega
    · have := sum_range_step (npts q pss) h
      omega
  have hs : r.starts.getD i 0 + npts q pss i ≤ r.npoint := by
    rw [link_starts i hi, link_npoint]; exact hle
  change (segScan 0 (putIn order (fun i => r.starts.getD i 0) (fun _ => 1)
    (List.replicate r.npoint 0)) (putIn order (fun i => r.starts.getD i 0)
    (fun i => pss (q.userSourceIds i)) (List.replicate r.npoint 1))).getD _ 0 = _
  apply segScan_run _ _ _ (npts q pss i) _ _ _ hput _ _ k hk
  · rw [putIn_length, List.length_replicate]; exact hs
  · intro h0
    rw [putIn_const order (fun i => r.starts.getD i 0) 1 _ i
      (ho.mem_iff.2 (List.mem_range.2 hi)) (by rw [List.length_replicate]; omega)]
    simp
  · intro k h0 hk
    rw [putIn_notMem _ _ _ _ _ (hnot k h0 hk), List.getD_eq_getElem _ _ (by
      rw [List.length_replicate]; omega), List.getElem_replicate]
  · intro k h0 hk
    rw [putIn_notMem _ _ _ _ _ (hnot k h0 hk), List.getD_eq_getElem _ _ (by
      rw [List.length_replicate]; omega), List.getElem_replicate]

/-- C30 (part), any order of the stores: if every source has at least one point source, the point
sources of tree-order source `i` stand in its range in user order.  Missing from the full property:
sources without point sources; see `C30_empty_source_breaks`. -/
theorem C30_linked_ids_partial (ho : order.Perm (List.range q.nsources))
    (hpos : ∀ i, i < q.nsources → pss (q.userSourceIds i) < pss (q.userSourceIds i + 1))
    (i : Nat) (hi : i < q.nsources) (k : Nat)
    (hk : k < pss (q.userSourceIds i + 1) - pss (q.userSourceIds i)) :
    let r := linkPointSources junk order q cumul pss
    r.userIds.getD (r.starts.getD i 0 + k) 0 = pss (q.userSourceIds i) + k := by
  apply link_ids ho i hi _ k hk
  intro h0
  apply getD_of_getElem?
  apply Tools.scatter_mem order
    (fun i => (linkPointSources junk order q cumul pss).starts.getD i 0)
    (fun i => pss (q.userSourceIds i))
  · exact ho.mem_iff.2 (List.mem_range.2 hi)
  · intro j hj he
    have hj' : j < q.nsources := List.mem_range.1 (ho.mem_iff.1 hj)
    simp only [link_starts j hj', link_starts i hi] at he
    have hp : ∀ i, i < q.nsources → 0 < npts q pss i := fun i hi => by
      have := hpos i hi
      unfold npts
      omega
    rcases Nat.lt_trichotomy j i with h | h | h
    · have := sum_range_step (npts q pss) h
      have := hp j hj'
      omega
    · exact h
    · have := sum_range_step (npts q pss) h
      have := hp i hi
      omega
  · rw [List.length_replicate, link_starts i hi, link_npoint]
    have := sum_range_step (npts q pss) hi
    omega

/-- C30 (part), any numbers of point sources: the same if the stores happen in ascending order of
the sources (the order of a sequential device) and stores past the end are dropped. -/
theorem C30_linked_ids_ascending_partial (i : Nat) (hi : i < q.nsources) (k : Nat)
    (hk : k < pss (q.userSourceIds i + 1) - pss (q.userSourceIds i)) :
    let r := linkPointSources junk (List.range q.nsources) q cumul pss
    r.userIds.getD (r.starts.getD i 0 + k) 0 = pss (q.userSourceIds i) + k := by
  apply link_ids (List.Perm.refl _) i hi _ k hk
  intro h0
  apply putIn_ascending q.nsources
    (fun i => (linkPointSources junk (List.range q.nsources) q cumul pss).starts.getD i 0) _ _ i hi
  · intro j hij hj
    simp only [link_starts j hj, link_starts i hi]
    have := sum_range_step (npts q pss) hij
    omega
  · rw [List.length_replicate, link_starts i hi, link_npoint]
    have := sum_range_step (npts q pss) hi
    omega

theorem read_starts (i : Nat) (hi : i < q.nsources) :
    readOr junk (linkPointSources junk order q cumul pss).starts i =
      ((List.range i).map (npts q pss)).sum := by
  unfold readOr
  rw [if_pos, link_starts i hi]
  change i < (List.take q.nsources (prefixSums 0 _)).length
  rw [List.length_take, length_prefixSums, List.length_map, List.length_range]
  omega

theorem read_counts (i : Nat) (hi : i < q.nsources) :
    readOr junk (linkPointSources junk order q cumul pss).counts i = npts q pss i := by
  unfold readOr
  rw [if_pos, link_counts i hi]
  change i < (List.map _ (List.range q.nsources)).length
  simpa using hi

/-- A box range of point sources covers those of the sources of the box. -/
theorem link_box (sStart sCount : Nat) (hr : sStart + sCount ≤ q.nsources) (p : Nat) :
    let r := linkPointSources junk order q cumul pss
    (readOr junk r.starts sStart ≤ p ∧
      p < readOr junk r.starts sStart + boxPointCount junk r.starts r.counts sStart sCount ↔
    ∃ i, sStart ≤ i ∧ i < sStart + sCount ∧ r.starts.getD i 0 ≤ p ∧
      p < r.starts.getD i 0 + r.counts.getD i 0) := by
  intro r
  unfold boxPointCount
  by_cases h0 : sCount = 0
  · rw [if_pos h0]
    constructor
    · intro h; omega
    · rintro ⟨i, h1, h2, -⟩; omega
  · rw [if_neg h0]
    simp only
    rw [read_starts _ (by omega), read_starts _ (by omega), read_counts _ (by omega)]
    set f := npts q pss
    have hlast : ((List.range (sStart + sCount - 1)).map f).sum + f (sStart + sCount - 1) =
        ((List.range (sStart + sCount)).map f).sum := by
      rw [show sStart + sCount = (sStart + sCount - 1) + 1 by omega, List.range_succ]
      simp
    have hmono := sum_range_mono f (show sStart ≤ sStart + sCount by omega)
    rw [hlast, Nat.add_sub_cancel' hmono]
    constructor
    · rintro ⟨h1, h2⟩
      have gen : ∀ n, p < ((List.range (sStart + n)).map f).sum →
          ∃ i, sStart ≤ i ∧ i < sStart + n ∧ ((List.range i).map f).sum ≤ p ∧
            p < ((List.range i).map f).sum + f i := by
        intro n
        induction n with
        | zero => intro h; rw [Nat.add_zero] at h; omega
        | succ n ih =>
          intro h
          by_cases hc : p < ((List.range (sStart + n)).map f).sum
          · obtain ⟨i, a, b, c⟩ := ih hc
            exact ⟨i, a, by omega, c⟩
          · refine ⟨sStart + n, by omega, by omega, by omega, ?_⟩
            rw [← Nat.add_assoc, List.range_succ] at h
            simpa using h
      obtain ⟨i, a, b, c, d⟩ := gen sCount h2
      exact ⟨i, a, b, by rw [link_starts i (by omega)]; exact c, by
        rw [link_starts i (by omega), link_counts i (by omega)]; exact d⟩
    · rintro ⟨i, a, b, c, d⟩
      rw [link_starts i (by omega)] at c d
      rw [link_counts i (by omega)] at d
      exact ⟨(sum_range_mono f a).trans c, d.trans_le (sum_range_step f b)⟩

/-- C30, boxes: the point source range of a box (own and cumulative) consists of exactly the
ranges of the sources of the box, also for boxes without sources at the end of the particle array,
for which the kernel reads past the end. -/
theorem C30_box_ranges (b : Nat) (h1 : q.srcStart b + q.srcCount b ≤ q.nsources)
    (h2 : q.srcStart b + cumul b ≤ q.nsources) (p : Nat) :
    let r := linkPointSources junk order q cumul pss
    (InRange r.boxStarts r.boxCounts b p ↔
      ∃ i, InRange q.srcStart q.srcCount b i ∧ r.starts.getD i 0 ≤ p ∧
        p < r.starts.getD i 0 + r.counts.getD i 0) ∧
    (InRange r.boxStarts r.boxCumul b p ↔
      ∃ i, InRange q.srcStart cumul b i ∧ r.starts.getD i 0 ≤ p ∧
        p < r.starts.getD i 0 + r.counts.getD i 0) := by
  unfold InRange
  simp only [and_assoc]
  exact ⟨link_box (cumul := cumul) (q.srcStart b) (q.srcCount b) h1 p,
    link_box (cumul := cumul) (q.srcStart b) (cumul b) h2 p⟩

/-- C30: trees whose sources have no extent are rejected, others accepted. -/
theorem C30_requires_extent (ext : Bool) :
    (∃ e, linkPointSourcesChecked ext junk order q cumul pss = .error e) ↔ ext = false := by
  cases ext <;> simp [linkPointSourcesChecked]

end link

/-- Three particles, as sources and targets, in two of three boxes. -/
def exLink : Particles where
  nsources := 3
  ntargets := 3
  srcStart b := [0, 0, 2].getD b 3
  srcCount b := [0, 2, 1].getD b 0
  tgtStart b := [0, 0, 2].getD b 3
  tgtCount b := [0, 2, 1].getD b 0
  userSourceIds j := [2, 0, 1].getD j 0
  sortedTargetIds j := [1, 2, 0].getD j 0

/-- C30 fails for sources without point sources: with three sources, of which user source 0 has
none, one order of the two colliding stores gives user source 2 the point sources 0 and 1 of user
source 1 instead of 2 and 3. -/
theorem C30_empty_source_breaks :
    let q : Particles := { exLink with userSourceIds := fun j => [1, 0, 2].getD j 0 }
    let pss : Nat → Nat := fun u => [0, 0, 2, 4].getD u 4
    ([0, 2, 1] : List Nat).Perm (List.range 3) ∧
    (linkPointSources (fun _ => 0) [0, 2, 1] q q.srcCount pss).userIds = [0, 1, 0, 1] ∧
    (linkPointSources (fun _ => 0) [0, 1, 2] q q.srcCount pss).userIds = [0, 1, 2, 3] := by
  decide +kernel

example : SortedOK exLink ∧ ([2, 0, 1] : List Nat).Perm (List.range exLink.ntargets) ∧
    (filterUserOrder [2, 0, 1] exLink 3 fun u => u).row 1 = [2] ∧
    (filterUserOrder [2, 0, 1] exLink 3 fun u => u).row 2 = [1] :=
  ⟨⟨by decide +kernel, by decide +kernel⟩, by decide +kernel, by decide +kernel, by decide +kernel⟩

example : (filterTreeOrder (fun _ => 77) [2, 0, 1] exLink fun u => u).unfiltered = [0, 2] ∧
    (filterTreeOrder (fun _ => 77) [2, 0, 1] exLink fun u => u).counts 1 = 1 ∧
    (filterTreeOrder (fun _ => 77) [2, 0, 1] exLink fun u => u).starts 2 = 1 ∧
    -- a box without targets at the end reads past the end and still selects nothing
    (filterTreeOrder (fun _ => 77) [2, 0, 1] exLink fun u => u).starts 3 = 77 ∧
    (filterTreeOrder (fun _ => 77) [2, 0, 1] exLink fun u => u).counts 3 = 0 := by
  decide +kernel

example :
    let r := linkPointSources (fun _ => 77) [2, 0, 1] exLink exLink.srcCount
      (fun u => [0, 2, 3, 6].getD u 6)
    r.userIds = [3, 4, 5, 0, 1, 2] ∧ r.starts = [0, 3, 5] ∧
    r.boxStarts 1 = 0 ∧ r.boxCounts 1 = 5 ∧ r.boxStarts 3 = 77 ∧ r.boxCounts 3 = 0 := by
  decide +kernel

/-- C49: for every particle there is exactly one box owning it, and the lookup returns it.
The hypotheses say that the boxes' own ranges cover the particles and are disjoint. -/
theorem C49_find_box (nboxes n : Nat) (starts counts : Nat → Nat)
    (hcover : ∀ i, i < n → ∃ b, b < nboxes ∧ InRange starts counts b i)
    (hdisj : ∀ i, ∀ b, b < nboxes → ∀ b', b' < nboxes → InRange starts counts b i →
      InRange starts counts b' i → b = b') (i : Nat) (hi : i < n) :
    ∃ b, findBoxNr nboxes starts counts i = .ok b ∧ b < nboxes ∧ InRange starts counts b i := by
  obtain ⟨b, hb, hin⟩ := hcover i hi
  refine ⟨b, ?_, hb, hin⟩
  have hfil : ((List.range nboxes).filter fun b => decide (starts b ≤ i) &&
      decide (i < starts b + counts b)) = [b] := by
    have hnd : ((List.range nboxes).filter fun b => decide (starts b ≤ i) &&
      decide (i < starts b + counts b)).Nodup := List.nodup_range.filter _
    have hmem : ∀ x, x ∈ ((List.range nboxes).filter fun b => decide (starts b ≤ i) &&
        decide (i < starts b + counts b)) ↔ x = b := by
      intro x
      simp only [List.mem_filter, List.mem_range, Bool.and_eq_true, decide_eq_true_eq]
      constructor
      · rintro ⟨hx, hxi⟩
        exact hdisj i x hx b hb hxi hin
      · rintro rfl
        exact ⟨hb, hin⟩
    exact List.perm_singleton.1
      ((List.perm_ext_iff_of_nodup hnd (List.nodup_singleton b)).2 (by simpa using hmem))
  unfold findBoxNr
  rw [hfil]

/-- C49: a number that is no particle of any box is rejected, and so is a tree whose ranges
overlap; nothing else is. -/
theorem C49_find_box_error (nboxes : Nat) (starts counts : Nat → Nat) (i b : Nat)
    (h : findBoxNr nboxes starts counts i = .ok b) :
    b < nboxes ∧ InRange starts counts b i ∧
    ∀ b', b' < nboxes → InRange starts counts b' i → b' = b := by
  unfold findBoxNr at h
  have hmem : ∀ x, x ∈ ((List.range nboxes).filter fun b => decide (starts b ≤ i) &&
      decide (i < starts b + counts b)) ↔ x < nboxes ∧ InRange starts counts x i := by
    intro x
    simp [List.mem_filter, InRange]
  split at h
  · rename_i b0 heq
    have hb0 : b0 = b := by simpa using h
    subst hb0
    rw [heq] at hmem
    have := (hmem b0).1 (by simp)
    exact ⟨this.1, this.2, fun b' hb' hin => by simpa using (hmem b').2 ⟨hb', hin⟩⟩
  · exact absurd h (by simp)

example : (∀ i, i < 3 → ∃ b, b < 3 ∧ InRange exLink.srcStart exLink.srcCount b i) ∧
    findBoxNr 3 exLink.srcStart exLink.srcCount 1 = .ok 1 ∧
    findBoxNr 3 exLink.srcStart exLink.srcCount 2 = .ok 2 ∧
    findBoxNr 3 exLink.srcStart exLink.srcCount 3 = .error "TypeError" := by
  decide +kernel

end Boxtree.Filter
