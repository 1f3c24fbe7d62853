import Verif.Model.Csr
import Mathlib.Data.List.Nodup
import Mathlib.Data.List.GetD
import Mathlib.Data.List.Range
import Mathlib.Algebra.BigOperators.Group.List.Basic
import Mathlib.Tactic.Ring

set_option linter.unusedSimpArgs false
set_option linter.unusedVariables false

namespace Boxtree

theorem length_prefixSums (a : Nat) (l : List Nat) : (prefixSums a l).length = l.length + 1 := by
  induction l generalizing a with
  | nil => rfl
  | cons c cs ih => simp [prefixSums, ih]

theorem prefixSums_getD (a : Nat) (l : List Nat) (i : Nat) (hi : i ≤ l.length) :
    (prefixSums a l).getD i 0 = a + (l.take i).sum := by
  induction l generalizing a i with
  | nil => simp at hi; subst hi; simp [prefixSums]
  | cons c cs ih =>
    cases i with
    | zero => simp [prefixSums]
    | succ i =>
      simp only [prefixSums, List.getD_cons_succ, List.take_succ_cons, List.sum_cons]
      rw [ih _ _ (by simpa using hi)]; omega

theorem drop_flatten_take (rows : List (List Nat)) (i : Nat) (hi : i < rows.length) :
    (rows.flatten.drop ((rows.map List.length).take i).sum).take (rows.getD i []).length
      = rows.getD i [] := by
  induction rows generalizing i with
  | nil => simp at hi
  | cons r rs ih =>
    cases i with
    | zero => simp
    | succ i =>
      have := ih i (by simpa using hi)
      simp only [List.map_cons, List.take_succ_cons, List.sum_cons, List.flatten_cons,
        List.getD_cons_succ]
      rw [List.drop_append, show List.drop (r.length + ((rs.map List.length).take i).sum) r = [] by
        simp]
      simpa using this

theorem row_build (rows : List (List Nat)) (i : Nat) (hi : i < rows.length) :
    (buildLists rows).row i = rows.getD i [] := by
  unfold BuiltList.row buildLists
  simp only
  rw [prefixSums_getD _ _ _ (by simp; omega), prefixSums_getD _ _ _ (by simp; omega)]
  have hs : ((rows.map List.length).take (i+1)).sum =
      ((rows.map List.length).take i).sum + (rows.getD i []).length := by
    rw [List.take_add_one, List.sum_append]
    simp [List.getElem?_eq_getElem hi, List.getD_eq_getElem _ _ hi]
  rw [hs]
  simp only [Nat.zero_add, Nat.add_sub_cancel_left]
  exact drop_flatten_take rows i hi

/-- Out-of-range rows of a built list are empty. -/
theorem row_build_ge (rows : List (List Nat)) (i : Nat) (hi : rows.length ≤ i) :
    (buildLists rows).row i = [] := by
  unfold BuiltList.row buildLists
  simp only
  rw [List.getD_eq_default (n := i + 1)]
  · simp
  · rw [length_prefixSums]; simp; omega

theorem row_length_build (rows : List (List Nat)) (i : Nat) (hi : i < rows.length) :
    (buildLists rows).starts.getD (i + 1) 0 - (buildLists rows).starts.getD i 0 =
      ((buildLists rows).row i).length := by
  rw [row_build rows i hi]
  unfold buildLists
  simp only
  rw [prefixSums_getD _ _ _ (by simp; omega), prefixSums_getD _ _ _ (by simp; omega)]
  have hs : ((rows.map List.length).take (i+1)).sum =
      ((rows.map List.length).take i).sum + (rows.getD i []).length := by
    rw [List.take_add_one, List.sum_append]
    simp [List.getElem?_eq_getElem hi, List.getD_eq_getElem _ _ hi]
  omega

/-! ### reverse index array -/

theorem set_fold_length (l : List Nat) (f : Nat → Nat) (r : List Nat) :
    (l.foldl (fun r k => r.set (f k) k) r).length = r.length := by
  induction l generalizing r with
  | nil => rfl
  | cons x l ih => simp [ih]

theorem set_fold_getD_notMem (l : List Nat) (f : Nat → Nat) (r : List Nat) (j : Nat)
    (h : ∀ k ∈ l, f k ≠ j) :
    (l.foldl (fun r k => r.set (f k) k) r).getD j 0 = r.getD j 0 := by
  induction l generalizing r with
  | nil => rfl
  | cons x l ih =>
    simp only [List.foldl_cons]
    rw [ih _ (fun k hk => h k (List.mem_cons_of_mem _ hk))]
    have := h x List.mem_cons_self
    simp [List.getD_eq_getElem?_getD, List.getElem?_set_ne this]

theorem set_fold_getD_mem (l : List Nat) (f : Nat → Nat) (r : List Nat) (k : Nat)
    (hk : k ∈ l) (hinj : ∀ k' ∈ l, f k' = f k → k' = k) (hlt : f k < r.length) :
    (l.foldl (fun r k => r.set (f k) k) r).getD (f k) 0 = k := by
  induction l generalizing r with
  | nil => simp at hk
  | cons x l ih =>
    simp only [List.foldl_cons]
    by_cases hkl : k ∈ l
    · exact ih _ hkl (fun k' h' => hinj k' (List.mem_cons_of_mem _ h')) (by simpa using hlt)
    · have hx : k = x := by
        rcases List.mem_cons.1 hk with h | h
        · exact h
        · exact absurd h hkl
      subst hx
      rw [set_fold_getD_notMem]
      · simp [List.getD_eq_getElem?_getD, List.getElem?_set_self hlt]
      · intro k' hk' he
        have := hinj k' (List.mem_cons_of_mem _ hk') he
        subst this; exact hkl hk'

theorem length_reverseIndexArray (ind : List Nat) (n : Nat) :
    (reverseIndexArray ind n).length = n := by
  unfold reverseIndexArray
  rw [set_fold_length _ (fun k => ind.getD k 0)]; simp

theorem getD_inj_of_nodup {l : List Nat} (h : l.Nodup) {i j : Nat} (hi : i < l.length)
    (hj : j < l.length) (he : l.getD i 0 = l.getD j 0) : i = j := by
  rw [List.getD_eq_getElem _ _ hi, List.getD_eq_getElem _ _ hj] at he
  exact (List.Nodup.getElem_inj_iff h).1 he

theorem reverseIndexArray_getD (ind : List Nat) (n : Nat) (hnd : ind.Nodup)
    (hlt : ∀ x ∈ ind, x < n) (k : Nat) (hk : k < ind.length) :
    (reverseIndexArray ind n).getD (ind.getD k 0) 0 = k := by
  unfold reverseIndexArray
  apply set_fold_getD_mem _ (fun k => ind.getD k 0)
  · simpa using hk
  · intro k' hk' he
    exact getD_inj_of_nodup hnd (by simpa using hk') hk he
  · simp only [List.length_replicate]
    apply hlt
    rw [List.getD_eq_getElem _ _ hk]; exact List.getElem_mem hk

theorem reverseIndexArray_getD_notMem (ind : List Nat) (n : Nat) (j : Nat) (hj : j ∉ ind) :
    (reverseIndexArray ind n).getD j 0 = 0 := by
  unfold reverseIndexArray
  rw [set_fold_getD_notMem _ (fun k => ind.getD k 0)]
  · simp [List.getD_eq_getElem?_getD, List.getElem?_replicate]
    split <;> rfl
  · intro k hk he
    have hk' : k < ind.length := by simpa using hk
    apply hj
    rw [← he, List.getD_eq_getElem _ _ hk']; exact List.getElem_mem hk'

/-! ### merging -/

theorem length_writeAt (arr : List Nat) (pos : Nat) (vs : List Nat) :
    (writeAt arr pos vs).length = arr.length := by
  induction vs generalizing arr pos with
  | nil => rfl
  | cons v vs ih => simp [writeAt, ih]

theorem writeAt_getElem? (arr : List Nat) (pos : Nat) (vs : List Nat) (j : Nat)
    (h : pos + vs.length ≤ arr.length) :
    (writeAt arr pos vs)[j]? =
      if pos ≤ j ∧ j < pos + vs.length then vs[j - pos]? else arr[j]? := by
  induction vs generalizing arr pos with
  | nil => simp [writeAt]
  | cons v vs ih =>
    simp only [List.length_cons] at h
    simp only [writeAt]
    rw [ih _ _ (by simp; omega)]
    by_cases h1 : pos + 1 ≤ j ∧ j < pos + 1 + vs.length
    · rw [if_pos h1, if_pos (by simp only [List.length_cons]; omega)]
      have : j - pos = (j - (pos + 1)) + 1 := by omega
      rw [this, List.getElem?_cons_succ]
    · rw [if_neg h1]
      by_cases h2 : j = pos
      · subst h2
        rw [if_pos (by simp only [List.length_cons]; omega)]
        simp [List.getElem?_set_self (show j < arr.length by omega)]
      · rw [if_neg (by simp only [List.length_cons]; omega),
          List.getElem?_set_ne (by omega)]

theorem foldl_writeAt_length (starts : Nat → Nat) (rows : Nat → List Nat)
    (order : List Nat) (arr : List Nat) :
    (order.foldl (fun arr i => writeAt arr (starts i) (rows i)) arr).length = arr.length := by
  induction order generalizing arr with
  | nil => rfl
  | cons x l ih => simp [ih, length_writeAt]

theorem foldl_writeAt_getElem? (starts : Nat → Nat) (rows : Nat → List Nat)
    (order : List Nat) (arr : List Nat) (j i0 : Nat)
    (hfit : ∀ i ∈ order, starts i + (rows i).length ≤ arr.length)
    (hdisj : ∀ i ∈ order, starts i ≤ j → j < starts i + (rows i).length → i = i0) :
    (order.foldl (fun arr i => writeAt arr (starts i) (rows i)) arr)[j]? =
      if i0 ∈ order ∧ starts i0 ≤ j ∧ j < starts i0 + (rows i0).length
      then (rows i0)[j - starts i0]? else arr[j]? := by
  induction order generalizing arr with
  | nil => simp
  | cons x l ih =>
    simp only [List.foldl_cons]
    rw [ih _ (fun i hi => by
        rw [length_writeAt]; exact hfit i (List.mem_cons_of_mem _ hi))
      (fun i hi => hdisj i (List.mem_cons_of_mem _ hi)),
      writeAt_getElem? _ _ _ _ (hfit x List.mem_cons_self)]
    have hx := hdisj x List.mem_cons_self
    by_cases h1 : i0 ∈ l ∧ starts i0 ≤ j ∧ j < starts i0 + (rows i0).length
    · rw [if_pos h1, if_pos ⟨List.mem_cons_of_mem _ h1.1, h1.2⟩]
    · rw [if_neg h1]
      by_cases h2 : starts x ≤ j ∧ j < starts x + (rows x).length
      · have hxi := hx h2.1 h2.2
        subst hxi
        rw [if_pos h2, if_pos ⟨List.mem_cons_self, h2⟩]
      · rw [if_neg h2, if_neg]
        rintro ⟨h3, h4⟩
        rcases List.mem_cons.1 h3 with h5 | h5
        · rw [h5] at h4; exact h2 h4
        · exact h1 ⟨h5, h4⟩

theorem take_sum_mono (l : List Nat) {i j : Nat} (h : i ≤ j) :
    (l.take i).sum ≤ (l.take j).sum := by
  have : l.take j = l.take i ++ (l.drop i).take (j - i) := by
    rw [← List.take_add]; congr 1; omega
  rw [this, List.sum_append]; omega

theorem take_succ_sum (l : List Nat) {i : Nat} (h : i < l.length) :
    (l.take (i+1)).sum = (l.take i).sum + l.getD i 0 := by
  rw [List.take_add_one, List.sum_append]
  simp [List.getElem?_eq_getElem h]

/-- position `j` of a flattened list lies in exactly one row -/
theorem flatten_getElem? (rows : List (List Nat)) (i j : Nat) (hi : i < rows.length)
    (h1 : ((rows.map List.length).take i).sum ≤ j)
    (h2 : j < ((rows.map List.length).take i).sum + (rows.getD i []).length) :
    rows.flatten[j]? = (rows.getD i [])[j - ((rows.map List.length).take i).sum]? := by
  have := drop_flatten_take rows i hi
  rw [← this, List.getElem?_take, if_pos (by omega), List.getElem?_drop]
  congr 1; omega

theorem exists_row_of_lt (rows : List (List Nat)) (j : Nat)
    (hj : j < rows.flatten.length) :
    ∃ i, i < rows.length ∧ ((rows.map List.length).take i).sum ≤ j ∧
      j < ((rows.map List.length).take i).sum + (rows.getD i []).length := by
  induction rows generalizing j with
  | nil => simp at hj
  | cons r rs ih =>
    by_cases h : j < r.length
    · exact ⟨0, by simp, by simp, by simpa using h⟩
    · simp only [List.flatten_cons, List.length_append] at hj
      obtain ⟨i, hi, h1, h2⟩ := ih (j - r.length) (by omega)
      refine ⟨i + 1, by simpa using hi, ?_, ?_⟩
      · simp only [List.map_cons, List.take_succ_cons, List.sum_cons]; omega
      · simp only [List.map_cons, List.take_succ_cons, List.sum_cons, List.getD_cons_succ]; omega

/-- The merger produces the CSR form of the merged rows, whatever the order in which the
work items run. -/
theorem mergeListsWith_eq (inputs : List BuiltList) (o2i order : List Nat)
    (hcount : ∀ b ∈ o2i, mergedCount inputs b = (mergedRow inputs b).length)
    (hperm : ∀ i, i ∈ order ↔ i < o2i.length) :
    mergeListsWith inputs o2i order = buildLists (o2i.map (mergedRow inputs)) := by
  have hc : o2i.map (mergedCount inputs) = (o2i.map (mergedRow inputs)).map List.length := by
    rw [List.map_map]; exact List.map_congr_left hcount
  unfold mergeListsWith buildLists
  simp only [hc]
  congr 1
  set rows := o2i.map (mergedRow inputs) with hrows
  have hlen : rows.length = o2i.length := by simp [hrows]
  set st := fun i => (prefixSums 0 (rows.map List.length)).getD i 0 with hst
  have hsti : ∀ i, i ≤ rows.length → st i = ((rows.map List.length).take i).sum := by
    intro i hi
    simp only [hst]; rw [prefixSums_getD _ _ _ (by simpa using hi)]; omega
  have hrow : ∀ i, i < o2i.length → mergedRow inputs (o2i.getD i 0) = rows.getD i [] := by
    intro i hi
    rw [List.getD_eq_getElem _ _ hi, List.getD_eq_getElem _ _ (by omega)]
    simp [hrows]
  have htot : st o2i.length = rows.flatten.length := by
    rw [hsti _ (by omega), ← hlen, List.length_flatten, List.take_of_length_le (by simp)]
  have hfun : (fun (arr : List Nat) (i : Nat) =>
      writeAt arr ((prefixSums 0 (rows.map List.length)).getD i 0)
        (mergedRow inputs (o2i.getD i 0))) =
      fun arr i => writeAt arr (st i) (mergedRow inputs (o2i.getD i 0)) := rfl
  rw [hfun]
  have hinit : (prefixSums 0 (rows.map List.length)).getD o2i.length 0 =
    rows.flatten.length := htot
  rw [hinit]
  have hmono : ∀ i k, i ≤ k → k ≤ rows.length → st i ≤ st k := by
    intro i k h1 h2
    rw [hsti i (by omega), hsti k h2]; exact take_sum_mono _ h1
  have hsucc : ∀ i, i < rows.length → st (i+1) = st i + (rows.getD i []).length := by
    intro i hi
    rw [hsti i (by omega), hsti (i+1) hi, take_succ_sum _ (by simpa using hi)]
    simp [List.getD_eq_getElem?_getD, List.getElem?_map, List.getElem?_eq_getElem hi]
  have htot' : st rows.length = rows.flatten.length := by rw [hlen]; exact htot
  have hfit : ∀ i ∈ order, st i + (mergedRow inputs (o2i.getD i 0)).length ≤
      (List.replicate rows.flatten.length 999999999).length := by
    intro i hi
    have hi' := (hperm i).1 hi
    rw [hrow i hi', ← hsucc i (by omega), List.length_replicate, ← htot']
    exact hmono _ _ (by omega) le_rfl
  apply List.ext_getElem?
  intro j
  by_cases hj : j < rows.flatten.length
  · obtain ⟨i0, hi0, h1, h2⟩ := exists_row_of_lt rows j hj
    rw [← hsti i0 (by omega)] at h1 h2
    rw [foldl_writeAt_getElem? st (fun i => mergedRow inputs (o2i.getD i 0)) order _ j i0 hfit]
    · rw [if_pos, flatten_getElem? rows i0 j hi0 (by rw [← hsti i0 (by omega)]; exact h1)
        (by rw [← hsti i0 (by omega)]; exact h2), hrow i0 (by omega), ← hsti i0 (by omega)]
      exact ⟨(hperm i0).2 (by omega), h1, by rw [hrow i0 (by omega)]; exact h2⟩
    · intro i hi h3 h4
      have hi' := (hperm i).1 hi
      rw [hrow i hi', ← hsucc i (by omega)] at h4
      rw [← hsucc i0 hi0] at h2
      by_contra hne
      rcases Nat.lt_or_gt_of_ne hne with h5 | h5
      · have := hmono (i+1) i0 h5 (by omega); omega
      · have := hmono (i0+1) i h5 (by omega); omega
  · have hj2 : rows.flatten.length ≤ j := Nat.le_of_not_lt hj
    rw [List.getElem?_eq_none hj2]
    apply List.getElem?_eq_none
    rw [foldl_writeAt_length st (fun i => mergedRow inputs (o2i.getD i 0))]
    rw [List.length_replicate]; exact hj2

end Boxtree
