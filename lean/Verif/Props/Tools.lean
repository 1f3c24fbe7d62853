import Verif.Lemmas.Tools
import Mathlib.Algebra.Order.Field.Basic
import Mathlib.Data.Rat.Defs
import Mathlib.Algebra.Order.Ring.Rat

/-!
# C45–C48: device helpers
-/

namespace Boxtree
open Tools

/-- **C47**: on every non-empty sorted array the search returns after at most `len` iterations
(so the unbounded loop of the code terminates), and the result is the largest index whose entry
is at most `val`, or -1 if `val` is below all entries. -/
theorem C47_bsearch {α : Type} [LinearOrder α] (arr : List α) (d : α) (hne : arr ≠ [])
    (hsorted : arr.Pairwise (· ≤ ·)) (val : α) (fuel : Nat) (hfuel : arr.length ≤ fuel) :
    ∃ res : Int, bsearch (fun i => arr.getD i d) arr.length val fuel = some res ∧
      ((res = -1 ∧ ∀ x ∈ arr, val < x) ∨
       ∃ i : Nat, res = i ∧ i < arr.length ∧ arr.getD i d ≤ val ∧
         ∀ j, i < j → j < arr.length → val < arr.getD j d) := by
  have hlen : 0 < arr.length := List.length_pos_iff.2 hne
  have hmono : ∀ i j, i ≤ j → j < arr.length → arr.getD i d ≤ arr.getD j d := by
    intro i j hij hj
    rw [List.getD_eq_getElem _ _ hj, List.getD_eq_getElem _ _ (lt_of_le_of_lt hij hj)]
    rcases Nat.eq_or_lt_of_le hij with rfl | hlt
    · exact le_refl _
    · exact List.pairwise_iff_getElem.1 hsorted i j _ hj hlt
  unfold bsearch
  split
  · rename_i h
    refine ⟨-1, rfl, Or.inl ⟨rfl, fun x hx => ?_⟩⟩
    obtain ⟨i, hi, rfl⟩ := List.getElem_of_mem hx
    have := hmono 0 i (Nat.zero_le _) hi
    rw [List.getD_eq_getElem _ _ hi] at this
    exact lt_of_lt_of_le h this
  · rename_i h
    obtain ⟨i, h1, h2, h3, h4⟩ := bsearchLoop_spec (fun i => arr.getD i d) arr.length val hmono
      fuel 0 arr.length hlen le_rfl (by simpa using hfuel) (not_lt.1 h) (Or.inl rfl)
    exact ⟨i, by rw [h1]; rfl, Or.inr ⟨i, rfl, h2, h3, h4⟩⟩

/-- The hypotheses of `C47_bsearch` hold for an array with ties, and the search is not trivial
there. -/
example : ([1, 3, 3, 3, 7] : List Nat).Pairwise (· ≤ ·) ∧
    bsearch (fun i => ([1, 3, 3, 3, 7] : List Nat).getD i 0) 5 3 5 = some 3 ∧
    bsearch (fun i => ([1, 3, 3, 3, 7] : List Nat).getD i 0) 5 0 5 = some (-1) ∧
    bsearch (fun i => ([1, 3, 3, 3, 7] : List Nat).getD i 0) 5 9 5 = some 4 := by decide

/-- **C48**, `reverse_index_array`: for distinct in-range indices and every order of the
parallel writes, `result[indices] == arange(len(indices))`, and every other entry keeps the fill
value. -/
theorem C48_reverse_index_array (indices : List Nat) (targetSize fill : Nat) (order : List Nat)
    (horder : order.Perm (List.range indices.length)) (hnd : indices.Nodup)
    (hlt : ∀ x ∈ indices, x < targetSize) :
    let result := reverseIndexArrayIn order indices targetSize fill
    result.length = targetSize ∧
    (∀ k (hk : k < indices.length), result[indices[k]]? = some k) ∧
    ∀ j < targetSize, j ∉ indices → result[j]? = some fill := by
  have hg : ∀ k (hk : k < indices.length), indices.getD k 0 = indices[k] :=
    fun k hk => List.getD_eq_getElem _ _ hk
  obtain ⟨h1, h2, h3⟩ := scatter_replicate order indices.length targetSize horder
    (fun k => indices.getD k 0) id fill
    (fun i hi k hk h => by
      simp only [hg i hi, hg k hk] at h
      exact (List.Nodup.getElem_inj_iff hnd).1 h)
    (fun i hi => by simp only [hg i hi]; exact hlt _ (List.getElem_mem hi))
  refine ⟨h1, fun k hk => ?_, fun j hj hne => h3 j hj fun i hi he => hne ?_⟩
  · have := h2 k hk
    simp only [hg k hk] at this
    exact this
  · simp only [hg i hi] at he
    exact he ▸ List.getElem_mem hi

example : let order := [2, 0, 1]
    order.Perm (List.range [4, 0, 2].length) ∧ ([4, 0, 2] : List Nat).Nodup ∧
    (∀ x ∈ ([4, 0, 2] : List Nat), x < 6) ∧
    reverseIndexArrayIn order [4, 0, 2] 6 77 = [1, 77, 2, 77, 0, 77] := by
  refine ⟨by decide, by decide, by decide, by decide⟩

/-- **C48**, `GappyCopyAndMapKernel` with source indices only: entry `i` of the result is the
(mapped) entry `src[i]` of the input, for every order of the work items; the rest is zero. -/
theorem C48_gappy_gather {α : Type} [Inhabited α] (mkOrder : Nat → List Nat)
    (horder : ∀ n, (mkOrder n).Perm (List.range n)) (newLen : Nat) (ary : List α)
    (src : List Nat) (f : Option (α → α)) (hlen : src.length ≤ newLen)
    (hsrc : ∀ x ∈ src, x < ary.length) :
    ∃ out, gappyCopyAndMap mkOrder newLen ary (some src) none f none = .ok out ∧
      out.length = newLen ∧
      (∀ i (hi : i < src.length),
        out[i]? = some ((f.getD id) (ary[src[i]]'(hsrc _ (List.getElem_mem hi))))) ∧
      ∀ j < newLen, src.length ≤ j → out[j]? = some default := by
  refine ⟨_, rfl, ?_⟩
  have hfun : gappyItem ary (some src) none f =
      fun out i => out.set i ((f.getD id) (ary.getD (src.getD i 0) default)) := by
    funext out i
    cases f <;> rfl
  simp only [Option.getD_none, hfun]
  obtain ⟨h1, h2, h3⟩ := scatter_replicate (mkOrder src.length) src.length newLen (horder _)
    (fun i => i) (fun i => (f.getD id) (ary.getD (src.getD i 0) default)) default
    (fun i _ k _ h => h) (fun i hi => lt_of_lt_of_le hi hlen)
  refine ⟨h1, fun i hi => ?_, fun j hj hle => h3 j hj fun i hi he => by omega⟩
  rw [h2 i hi]
  simp only [List.getD_eq_getElem _ _ hi,
    List.getD_eq_getElem ary _ (hsrc _ (List.getElem_mem hi))]

/-- **C48**, `GappyCopyAndMapKernel` with destination indices, and optionally source indices with
an explicit range `n`: for distinct destinations, entry `dst[i]` of the result is the (mapped)
source entry for every order of the work items; all other entries are zero. -/
theorem C48_gappy_scatter {α : Type} [Inhabited α] (mkOrder : Nat → List Nat)
    (horder : ∀ n, (mkOrder n).Perm (List.range n)) (newLen : Nat) (ary : List α)
    (src : Option (List Nat)) (dst : List Nat) (f : Option (α → α)) (range : Option Nat)
    (hrange : src ≠ none → range ≠ none) (hle : range.getD dst.length ≤ dst.length)
    (hnd : dst.Nodup) (hdst : ∀ x ∈ dst, x < newLen) :
    ∃ out, gappyCopyAndMap mkOrder newLen ary src (some dst) f range = .ok out ∧
      out.length = newLen ∧
      (∀ i (hi : i < range.getD dst.length), out[dst[i]'(lt_of_lt_of_le hi hle)]? =
        some ((f.getD id) (ary.getD ((src.map fun s => s.getD i 0).getD i) default))) ∧
      ∀ j < newLen, j ∉ dst.take (range.getD dst.length) → out[j]? = some default := by
  have hok : gappyCopyAndMap mkOrder newLen ary src (some dst) f range =
      .ok ((mkOrder (range.getD dst.length)).foldl (gappyItem ary src (some dst) f)
        (List.replicate newLen default)) := by
    cases src with
    | none => rfl
    | some s =>
      cases range with
      | none => exact absurd rfl (hrange (by simp))
      | some k => rfl
  refine ⟨_, hok, ?_⟩
  have hfun : gappyItem ary src (some dst) f = fun out i => out.set (dst.getD i 0)
      ((f.getD id) (ary.getD ((src.map fun s => s.getD i 0).getD i) default)) := by
    funext out i
    cases f <;> cases src <;> rfl
  rw [hfun]
  generalize hn : range.getD dst.length = n at hle ⊢
  have hg : ∀ i (hi : i < n), dst.getD i 0 = dst[i]'(lt_of_lt_of_le hi hle) :=
    fun i hi => List.getD_eq_getElem _ _ _
  obtain ⟨h1, h2, h3⟩ := scatter_replicate (mkOrder n) n newLen (horder _)
    (fun i => dst.getD i 0)
    (fun i => (f.getD id) (ary.getD ((src.map fun s => s.getD i 0).getD i) default)) default
    (fun i hi k hk h => by
      simp only [hg i hi, hg k hk] at h
      exact (List.Nodup.getElem_inj_iff hnd).1 h)
    (fun i hi => by simp only [hg i hi]; exact hdst _ (List.getElem_mem _))
  refine ⟨h1, fun i hi => ?_, fun j hj hne => h3 j hj fun i hi he => hne ?_⟩
  · have := h2 i hi
    simp only [hg i hi] at this
    exact this
  · simp only [hg i hi] at he
    rw [← he]
    exact List.mem_take_iff_getElem.2 ⟨i, by omega, rfl⟩

/-- **C48**, argument checks of `GappyCopyAndMapKernel`: it raises exactly when neither index
array is given, or both are given without a range. -/
theorem C48_gappy_errors {α : Type} [Inhabited α] (mkOrder : Nat → List Nat) (newLen : Nat)
    (ary : List α) (src dst : Option (List Nat)) (f : Option (α → α)) (range : Option Nat) :
    (∃ e, gappyCopyAndMap mkOrder newLen ary src dst f range = .error e) ↔
      (src = none ∧ dst = none) ∨ (src ≠ none ∧ dst ≠ none ∧ range = none) := by
  cases src <;> cases dst <;> cases range <;>
    simp [gappyCopyAndMap, Except.map]

example : (match gappyCopyAndMap (fun n => (List.range n).reverse) 4 [10, 20, 30]
      (some [2, 0]) none (some (· + 1)) none with
    | .ok l => l = [31, 11, 0, 0] | _ => False) ∧
    (match gappyCopyAndMap (fun n => (List.range n).reverse) 4 [10, 20, 30]
      none (some [3, 0, 1]) none none with
    | .ok l => l = [20, 30, 0, 10] | _ => False) ∧
    (match gappyCopyAndMap (fun n => (List.range n).reverse) 4 [10, 20, 30]
      (some [2, 1]) (some [3, 0]) none (some 2) with
    | .ok l => l = [20, 0, 0, 30] | _ => False) ∧
    ∀ n, ((List.range n).reverse).Perm (List.range n) :=
  ⟨rfl, rfl, rfl, fun _ => List.reverse_perm _⟩

/-- **C48**, `MapValuesKernel` (with and without a separate destination): every entry is replaced
by its image, in every order of the work items. -/
theorem C48_map_values (order : List Nat) (table : Nat → Nat) (src dst : List Nat)
    (horder : order.Perm (List.range src.length)) (hlen : dst.length = src.length) :
    mapValuesInPlace order table src = src.map table ∧
    mapValues order table src dst = src.map table := by
  have hm : ∀ i, i ∈ order ↔ i < src.length := fun i => by rw [horder.mem_iff, List.mem_range]
  have hnd : order.Nodup := (horder.nodup_iff).2 List.nodup_range
  constructor
  · apply List.ext_getElem?
    intro j
    by_cases hj : j < src.length
    · rw [mapInPlace_mem order hnd table src j ((hm j).2 hj) hj, List.getElem?_map,
        List.getElem?_eq_getElem hj, List.getD_eq_getElem _ _ hj]
      rfl
    · rw [mapInPlace_notMem order table src j (fun h => hj ((hm j).1 h)), List.getElem?_map,
        List.getElem?_eq_none (by omega)]
      rfl
  · apply List.ext_getElem?
    intro j
    unfold mapValues
    by_cases hj : j < src.length
    · have := scatter_mem order (fun i => i) (fun i => table (src.getD i 0)) dst j ((hm j).2 hj)
        (fun k _ h => h) (by omega)
      rw [this, List.getElem?_map, List.getElem?_eq_getElem hj, List.getD_eq_getElem _ _ hj]
      rfl
    · rw [scatter_notMem order (fun i => i) (fun i => table (src.getD i 0)) dst j
        (fun i hi h => hj (h ▸ (hm i).1 hi)), List.getElem?_map,
        List.getElem?_eq_none (by omega), List.getElem?_eq_none (by omega)]
      rfl

example : mapValuesInPlace [1, 2, 0] (fun x => 10 * x) [3, 1, 2] = [30, 10, 20] ∧
    ([1, 2, 0] : List Nat).Perm (List.range 3) := ⟨by decide, by decide⟩

/-- **C48**, `realloc_array`: growing keeps the old entries as a prefix and zero-fills the rest;
shrinking is refused. -/
theorem C48_realloc_array {α : Type} [Inhabited α] (order : List Nat) (newLen : Nat)
    (ary : List α) (horder : order.Perm (List.range ary.length)) :
    (ary.length ≤ newLen → reallocArray order newLen ary =
      .ok (ary ++ List.replicate (newLen - ary.length) default)) ∧
    (newLen < ary.length → ∃ e, reallocArray order newLen ary = .error e) := by
  constructor
  · intro hle
    unfold reallocArray
    rw [if_neg (by omega)]
    congr 1
    obtain ⟨h1, h2, h3⟩ := scatter_replicate order ary.length newLen horder (fun i => i)
      (fun i => ary.getD i default) default (fun _ _ _ _ h => h) (fun i hi => by omega)
    apply List.ext_getElem?
    intro j
    by_cases hj : j < ary.length
    · rw [List.getElem?_append_left hj, List.getElem?_eq_getElem hj]
      have := h2 j hj
      rw [this, List.getD_eq_getElem _ _ hj]
    · rw [List.getElem?_append_right (by omega)]
      by_cases hj' : j < newLen
      · rw [h3 j hj' (fun i hi he => by omega), List.getElem?_replicate, if_pos (by omega)]
      · rw [List.getElem?_eq_none (by rw [h1]; omega), List.getElem?_replicate,
          if_neg (by omega)]
  · intro h
    exact ⟨_, by unfold reallocArray; rw [if_pos h]⟩

example : (match reallocArray [1, 0] 4 [7, 8] with
    | .ok l => l = [7, 8, 0, 0] | _ => False) ∧ ([1, 0] : List Nat).Perm (List.range 2) :=
  ⟨rfl, by decide⟩

/-- **C46**, contiguous one-dimensional mask: the result is strictly increasing and contains
exactly the set indices. -/
theorem C46_mask_list (buf : Int → Bool) (n : Nat) (strides : List Int) :
    ∃ l, maskCompress buf [n] strides = .ok (.list l) ∧ l.Pairwise (· < ·) ∧
      ∀ i : Nat, i ∈ l ↔ i < n ∧ buf i = true := by
  refine ⟨_, rfl, ?_⟩
  have : compressMask ((List.range n).map fun (i : Nat) => buf i) =
      (List.range n).filter fun (i : Nat) => buf i := by
    unfold compressMask buildLists
    simp only [List.length_map, List.length_range]
    have hflat : ∀ (l : List Nat) (p : Nat → Bool),
        (l.map fun i => if p i then [i] else []).flatten = l.filter p := by
      intro l p
      induction l with
      | nil => rfl
      | cons a l ih =>
        simp only [List.map_cons, List.flatten_cons, ih, List.filter_cons]
        split <;> simp
    rw [← hflat]
    congr 1
    apply List.map_congr_left
    intro i hi
    have hi' : i < n := List.mem_range.1 hi
    rw [List.getD_eq_getElem _ _ (by simpa using hi')]
    simp
  rw [this]
  refine ⟨List.Pairwise.filter _ List.pairwise_lt_range, fun i => ?_⟩
  simp

/-- **C46**, two-dimensional mask with arbitrary strides: the result is a CSR list with one row
per matrix row, and row `i` holds, in increasing order, exactly the columns set in row `i`. -/
theorem C46_mask_matrix (buf : Int → Bool) (n m : Nat) (s0 s1 : Int) :
    ∃ bl, maskCompress buf [n, m] [s0, s1] = .ok (.csr bl) ∧
      bl.starts.length = n + 1 ∧ bl.starts.getD 0 0 = 0 ∧
      bl.starts.getD n 0 = bl.lists.length ∧
      ∀ i < n, bl.starts.getD i 0 ≤ bl.starts.getD (i + 1) 0 ∧
        (bl.row i).Pairwise (· < ·) ∧
        (bl.row i).length = bl.starts.getD (i + 1) 0 - bl.starts.getD i 0 ∧
        ∀ j : Nat, j ∈ bl.row i ↔ j < m ∧ buf (s0 * i + s1 * j) = true := by
  refine ⟨_, rfl, ?_, ?_, ?_, fun i hi => ?_⟩
  · simp [compressMatrix, buildLists, length_prefixSums]
  · simp only [compressMatrix, buildLists]
    rw [prefixSums_getD _ _ _ (Nat.zero_le _)]
    simp
  · simp only [compressMatrix, buildLists]
    rw [prefixSums_getD _ _ _ (by simp)]
    rw [List.take_of_length_le (by simp), List.length_flatten, Nat.zero_add]
  · have hrow : (compressMatrix buf n m s0 s1).row i =
        (List.range m).filter fun (j : Nat) => buf (s0 * i + j * s1) := by
      unfold compressMatrix
      rw [row_build _ _ (by simpa using hi), List.getD_eq_getElem _ _ (by simpa using hi)]
      simp only [List.getElem_map, List.getElem_range, matrixRow_eq]
      rw [List.range_eq_range']
    have hst : ∀ k ≤ n, (compressMatrix buf n m s0 s1).starts.getD k 0 = _ := fun k hk => by
      simp only [compressMatrix, buildLists]
      exact prefixSums_getD _ _ _ (by simpa using hk)
    refine ⟨?_, ?_, ?_, fun j => ?_⟩
    · rw [hst i hi.le, hst (i + 1) hi]
      have := take_sum_mono (((List.range n).map fun i => matrixRow buf s0 s1 i m 0).map
        List.length) (Nat.le_add_right i 1)
      omega
    · rw [hrow]; exact List.Pairwise.filter _ List.pairwise_lt_range
    · exact (row_length_build ((List.range n).map fun i => matrixRow buf s0 s1 i m 0) i
        (by simpa using hi)).symm
    · rw [hrow, List.mem_filter, List.mem_range, mul_comm s1]

/-- **C46**: masks of any other dimensionality are rejected with a `ValueError`. -/
theorem C46_other_dimensions (buf : Int → Bool) (shape : List Nat) (strides : List Int)
    (h1 : shape.length ≠ 1) (h2 : shape.length ≠ 2) :
    ∃ e, maskCompress buf shape strides = .error e := by
  match shape, strides with
  | [], _ => exact ⟨_, rfl⟩
  | [_], _ => simp at h1
  | [_, _], _ => simp at h2
  | _ :: _ :: _ :: _, _ => exact ⟨_, rfl⟩

/-- The list compressor ignores the stride of a one-dimensional mask: for a view with stride 2
(such as `mask[::2]`) of the memory `1 0 1 0`, in which both entries are set, it returns only
index 0. -/
theorem C46_one_dim_stride_ignored :
    ∃ buf : Int → Bool, buf (2 * 0) = true ∧ buf (2 * 1) = true ∧
      maskCompress buf [2] [2] = .ok (.list [0]) :=
  ⟨fun k => k % 2 == 0, rfl, rfl, rfl⟩

example : maskCompress (fun k => decide (k % 3 = 0)) [7] [1] = .ok (.list [0, 3, 6]) ∧
    maskCompress (fun k => decide (k % 3 = 0)) [2, 4] [1, 2] =
      .ok (.csr ⟨[0, 2, 3], [0, 3, 1]⟩) := ⟨rfl, rfl⟩

/-- **C45**: whatever the shape of the reduction (how the items are grouped, reordered or
duplicated, and where neutral elements are inserted), if it covers exactly the particles
`0 .. n-1` (`n > 0`) and the coordinates stay within the range of the floating point type, then
the result is the componentwise minimum of `x - radius` and maximum of `x + radius`. -/
theorem C45_bounding_box {K : Type} [Field K] [LinearOrder K] [IsStrictOrderedRing K] {dim : Nat}
    (big : K) (x : Nat → Fin dim → K) (radius : Nat → K) (n : Nat) (hn : 0 < n) (s : RedTree)
    (hcover : ∀ i, i ∈ s.items ↔ i < n)
    (hbig : ∀ i < n, ∀ a, x i a - radius i ≤ big ∧ -big ≤ x i a + radius i) (a : Fin dim) :
    (∀ i < n, (findBBox big x radius s).min a ≤ x i a - radius i) ∧
    (∃ i < n, (findBBox big x radius s).min a = x i a - radius i) ∧
    (∀ i < n, x i a + radius i ≤ (findBBox big x radius s).max a) ∧
    (∃ i < n, (findBBox big x radius s).max a = x i a + radius i) := by
  have key : ∀ s : RedTree, (∀ i ∈ s.items, i < n) →
      (findBBox big x radius s).min a ≤ big ∧ -big ≤ (findBBox big x radius s).max a ∧
      (∀ i ∈ s.items, (findBBox big x radius s).min a ≤ x i a - radius i ∧
        x i a + radius i ≤ (findBBox big x radius s).max a) ∧
      ((∃ i ∈ s.items, (findBBox big x radius s).min a = x i a - radius i) ∨
        (findBBox big x radius s).min a = big) ∧
      ((∃ i ∈ s.items, (findBBox big x radius s).max a = x i a + radius i) ∨
        (findBBox big x radius s).max a = -big) := by
    intro s
    induction s with
    | neutral => intro _; simp [findBBox, bboxNeutral, RedTree.items]
    | item i =>
      intro h
      have := hbig i (h i (by simp [RedTree.items])) a
      simp [findBBox, bboxFromParticle, RedTree.items, this.1]
      have := this.2
      linarith
    | node l r ihl ihr =>
      intro h
      obtain ⟨l1, l2, l3, l4, l5⟩ := ihl (fun i hi => h i (by simp [RedTree.items, hi]))
      obtain ⟨r1, r2, r3, r4, r5⟩ := ihr (fun i hi => h i (by simp [RedTree.items, hi]))
      simp only [findBBox, aggBbox, RedTree.items, List.mem_append]
      refine ⟨le_trans (min_le_left _ _) l1, le_trans l2 (le_max_left _ _), ?_, ?_, ?_⟩
      · rintro i (hi | hi)
        · exact ⟨le_trans (min_le_left _ _) (l3 i hi).1, le_trans (l3 i hi).2 (le_max_left _ _)⟩
        · exact ⟨le_trans (min_le_right _ _) (r3 i hi).1,
            le_trans (r3 i hi).2 (le_max_right _ _)⟩
      · rcases min_choice ((findBBox big x radius l).min a) ((findBBox big x radius r).min a)
          with hc | hc <;> rw [hc]
        · rcases l4 with ⟨i, hi, he⟩ | he
          · exact Or.inl ⟨i, Or.inl hi, he⟩
          · exact Or.inr he
        · rcases r4 with ⟨i, hi, he⟩ | he
          · exact Or.inl ⟨i, Or.inr hi, he⟩
          · exact Or.inr he
      · rcases max_choice ((findBBox big x radius l).max a) ((findBBox big x radius r).max a)
          with hc | hc <;> rw [hc]
        · rcases l5 with ⟨i, hi, he⟩ | he
          · exact Or.inl ⟨i, Or.inl hi, he⟩
          · exact Or.inr he
        · rcases r5 with ⟨i, hi, he⟩ | he
          · exact Or.inl ⟨i, Or.inr hi, he⟩
          · exact Or.inr he
  obtain ⟨k1, k2, k3, k4, k5⟩ := key s (fun i hi => (hcover i).1 hi)
  have h0 := k3 0 ((hcover 0).2 hn)
  refine ⟨fun i hi => (k3 i ((hcover i).2 hi)).1, ?_, fun i hi => (k3 i ((hcover i).2 hi)).2, ?_⟩
  · rcases k4 with ⟨i, hi, he⟩ | he
    · exact ⟨i, (hcover i).1 hi, he⟩
    · exact ⟨0, hn, le_antisymm h0.1 (by rw [he]; exact (hbig 0 hn a).1)⟩
  · rcases k5 with ⟨i, hi, he⟩ | he
    · exact ⟨i, (hcover i).1 hi, he⟩
    · exact ⟨0, hn, le_antisymm (by rw [he]; exact (hbig 0 hn a).2) h0.2⟩

/-- Two particles on a line with radii, reduced in reverse order with a neutral element. -/
example : let s := RedTree.node (.node (.item 1) .neutral) (.item 0)
    (∀ i, i ∈ s.items ↔ i < 2) ∧
    (findBBox (dim := 1) (1000 : ℚ) (fun i _ => i) (fun _ => 1/2) s).min 0 = -1/2 ∧
    (findBBox (dim := 1) (1000 : ℚ) (fun i _ => i) (fun _ => 1/2) s).max 0 = 3/2 := by
  refine ⟨fun i => ?_, by decide +kernel, by decide +kernel⟩
  simp [RedTree.items]; omega

end Boxtree
