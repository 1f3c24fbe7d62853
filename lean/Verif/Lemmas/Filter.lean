import Verif.Model.Filter
import Verif.Lemmas.Tools
import Verif.Lemmas.Compact
import Mathlib.Data.Fintype.EquivFin
import Mathlib.Data.List.Sort

/-!
# Lemmas about target filters and point source linking
-/

namespace Boxtree.Filter

/-- An injective map of `0..n` into itself is onto. -/
theorem surj_of_inj {n : Nat} (f : Nat → Nat) (hlt : ∀ i, i < n → f i < n)
    (hinj : ∀ i, i < n → ∀ j, j < n → f i = f j → i = j) (j : Nat) (hj : j < n) :
    ∃ i, i < n ∧ f i = j := by
  let g : Fin n → Fin n := fun i => ⟨f i, hlt i i.2⟩
  have hg : Function.Injective g := fun a b h =>
    Fin.ext (hinj a a.2 b b.2 (congrArg Fin.val h))
  obtain ⟨i, hi⟩ := (Finite.injective_iff_surjective.1 hg) ⟨j, hj⟩
  exact ⟨i, i.2, congrArg Fin.val hi⟩

theorem getD_of_getElem? {l : List Nat} {i v d : Nat} (h : l[i]? = some v) : l.getD i d = v := by
  rw [List.getD_eq_getElem?_getD, h]
  rfl

/-- Storing through a permutation. -/
theorem putIn_perm {n : Nat} {order : List Nat} (ho : order.Perm (List.range n))
    (idx val : Nat → Nat) (d : Nat) (hlt : ∀ i, i < n → idx i < n)
    (hinj : ∀ i, i < n → ∀ j, j < n → idx i = idx j → i = j) :
    (putIn order idx val (List.replicate n d)).length = n ∧
    ∀ i, i < n → (putIn order idx val (List.replicate n d)).getD (idx i) 0 = val i := by
  have h := Tools.scatter_replicate order n n ho idx val d hinj hlt
  exact ⟨h.1, fun i hi => getD_of_getElem? (h.2.1 i hi)⟩

/-- The scan of the flags of the tree-order filter. -/
theorem scan_flags (tf : List Nat) (i : Nat) (hi : i ≤ tf.length) :
    (prefixSums 0 (tf.map fun f => if f ≠ 0 then 1 else 0)).getD i 0 =
      rankOf (fun j => tf.getD j 0 != 0) i := by
  rw [scan_getD _ _ i (by simpa using hi)]
  · unfold rankOf
    congr 1
    apply List.filter_congr
    intro j hj
    have hj' : j < tf.length := by have := List.mem_range.1 hj; omega
    rw [List.getD_eq_getElem _ _ (by simpa using hj'), List.getD_eq_getElem _ _ hj',
      List.getElem_map]
    by_cases h : tf[j] = 0 <;> simp [h]
  · intro j hj
    have hj' : j < tf.length := by simpa using hj
    rw [List.getD_eq_getElem _ _ hj, List.getElem_map]
    by_cases h : tf[j] = 0 <;> simp [h]

theorem filteredFromUnfiltered_getD (tf : List Nat) (i : Nat) (hi : i < tf.length) :
    (filteredFromUnfiltered tf).getD i 0 = rankOf (fun j => tf.getD j 0 != 0) i := by
  rw [← scan_flags tf i (by omega)]
  unfold filteredFromUnfiltered
  rw [List.getD_eq_getElem?_getD, List.getElem?_take_of_lt hi, ← List.getD_eq_getElem?_getD]

theorem length_filteredFromUnfiltered (tf : List Nat) :
    (filteredFromUnfiltered tf).length = tf.length := by
  unfold filteredFromUnfiltered
  rw [List.length_take, length_prefixSums, List.length_map]
  omega

theorem rankOf_le (p : Nat → Bool) (n : Nat) : rankOf p n ≤ n := by
  unfold rankOf
  exact (List.length_filter_le _ _).trans (by simp)

/-- The stores of the filter scan write the flagged indices in order. -/
theorem unfiltered_take {order : List Nat} (tf : List Nat)
    (ho : order.Perm (List.range tf.length)) :
    (unfilteredFromFiltered order tf).take (rankOf (fun j => tf.getD j 0 != 0) tf.length) =
      (List.range tf.length).filter fun j => tf.getD j 0 != 0 := by
  set p : Nat → Bool := fun j => tf.getD j 0 != 0 with hp
  have hfold : unfilteredFromFiltered order tf =
      (order.filter p).foldl (fun a i => a.set (rankOf p i) i)
        (List.replicate tf.length 0) := by
    unfold unfilteredFromFiltered
    rw [List.foldl_filter]
    apply List.foldl_ext
    intro a i hi
    have hi' : i < tf.length := List.mem_range.1 (ho.mem_iff.1 hi)
    simp only [scan_flags tf (i + 1) hi', scan_flags tf i hi'.le]
    change (if rankOf p (i + 1) ≠ rankOf p i then _ else _) = _
    rw [rankOf_succ]
    by_cases h : p i <;> simp [h]
    · rfl
  rw [hfold]
  apply List.ext_getElem?
  intro k
  by_cases hk : k < rankOf p tf.length
  · have hk2 : k < ((List.range tf.length).filter p).length := hk
    set i := ((List.range tf.length).filter p)[k] with hi
    have him : i ∈ (List.range tf.length).filter p := List.getElem_mem hk2
    have hir : i < tf.length := List.mem_range.1 (List.mem_filter.1 him).1
    have hip : p i = true := (List.mem_filter.1 him).2
    have hrk : rankOf p i = k := by
      have h1 := filter_getElem? (p := p) hip hir
      have h2 : rankOf p i < ((List.range tf.length).filter p).length := by
        by_contra hc
        rw [List.getElem?_eq_none (by omega)] at h1
        exact absurd h1 (by simp)
      rw [List.getElem?_eq_getElem h2] at h1
      have hnd : ((List.range tf.length).filter p).Nodup := List.nodup_range.filter _
      exact (List.Nodup.getElem_inj_iff hnd).1 ((Option.some.inj h1).trans hi)
    rw [List.getElem?_take_of_lt hk, List.getElem?_eq_getElem hk2, ← hi, ← hrk]
    apply Tools.scatter_mem (order.filter p) (rankOf p) (fun i => i)
    · exact List.mem_filter.2 ⟨ho.mem_iff.2 (List.mem_range.2 hir), hip⟩
    · intro j hj hje
      have hjp : p j = true := (List.mem_filter.1 hj).2
      rcases Nat.lt_trichotomy j i with h | h | h
      · exact absurd hje (Nat.ne_of_lt (rankOf_lt_of_lt hjp h))
      · exact h
      · exact absurd hje.symm (Nat.ne_of_lt (rankOf_lt_of_lt hip h))
    · rw [List.length_replicate, hrk]
      exact lt_of_lt_of_le hk (rankOf_le _ _)
  · rw [List.getElem?_eq_none (by
        rw [List.length_take]
        omega), List.getElem?_eq_none (by
        change rankOf p tf.length ≤ k
        omega)]

/-- Restarted sums: between two boundaries the values are summed. -/
theorem segScan_length (prev : Nat) (bnd v : List Nat) : (segScan prev bnd v).length = v.length := by
  induction v generalizing prev bnd with
  | nil => rfl
  | cons a v ih => simp [segScan, ih]

theorem segScan_getD_zero (prev : Nat) (bnd v : List Nat) (h : 0 < v.length) :
    (segScan prev bnd v).getD 0 0 = if bnd.getD 0 0 ≠ 0 then v.getD 0 0 else prev + v.getD 0 0 := by
  cases v with
  | nil => simp at h
  | cons a v => cases bnd <;> simp [segScan]

theorem segScan_getD_succ (prev : Nat) (bnd v : List Nat) (i : Nat) (h : i + 1 < v.length) :
    (segScan prev bnd v).getD (i + 1) 0 =
      if bnd.getD (i + 1) 0 ≠ 0 then v.getD (i + 1) 0
      else (segScan prev bnd v).getD i 0 + v.getD (i + 1) 0 := by
  induction v generalizing prev bnd i with
  | nil => simp at h
  | cons a v ih =>
    cases i with
    | zero =>
      have h' : 0 < v.length := by simpa using h
      simp only [segScan, List.getD_cons_succ, List.getD_cons_zero]
      rw [segScan_getD_zero _ _ _ h']
      cases bnd <;> simp
    | succ i =>
      have h' : i + 1 < v.length := by simpa using h
      simp only [segScan, List.getD_cons_succ]
      rw [ih _ _ _ h']
      cases bnd <;> simp

/-- Sums starting at a boundary and running over ones. -/
theorem segScan_run (bnd v : List Nat) (s c x : Nat) (hs : s + c ≤ v.length)
    (hb : 0 < c → bnd.getD s 0 ≠ 0) (hx : 0 < c → v.getD s 0 = x)
    (hb' : ∀ k, 0 < k → k < c → bnd.getD (s + k) 0 = 0)
    (h1 : ∀ k, 0 < k → k < c → v.getD (s + k) 0 = 1) (k : Nat) (hk : k < c) :
    (segScan 0 bnd v).getD (s + k) 0 = x + k := by
  induction k with
  | zero =>
    rw [Nat.add_zero]
    cases s with
    | zero => rw [segScan_getD_zero _ _ _ (by omega), if_pos (hb hk), hx hk, Nat.add_zero]
    | succ s => rw [segScan_getD_succ _ _ _ _ (by omega), if_pos (hb hk), hx hk, Nat.add_zero]
  | succ k ih =>
    rw [← Nat.add_assoc, segScan_getD_succ _ _ _ _ (by omega), ih (by omega)]
    have e1 := hb' (k + 1) (by omega) hk
    have e2 := h1 (k + 1) (by omega) hk
    rw [← Nat.add_assoc] at e1 e2
    rw [e1, e2]
    simp [Nat.add_assoc]

theorem putIn_length (order : List Nat) (idx val : Nat → Nat) (out : List Nat) :
    (putIn order idx val out).length = out.length := Tools.scatter_length order idx val out

theorem putIn_notMem (order : List Nat) (idx val : Nat → Nat) (out : List Nat) (j : Nat)
    (hj : ∀ i ∈ order, idx i ≠ j) : (putIn order idx val out).getD j 0 = out.getD j 0 := by
  rw [List.getD_eq_getElem?_getD, List.getD_eq_getElem?_getD]
  rw [show (putIn order idx val out)[j]? = out[j]? from Tools.scatter_notMem order idx val out j hj]

/-- All work items that store to a place store the same value. -/
theorem putIn_const (order : List Nat) (idx : Nat → Nat) (c : Nat) (out : List Nat) (i : Nat)
    (hi : i ∈ order) (hlt : idx i < out.length) :
    (putIn order idx (fun _ => c) out).getD (idx i) 0 = c := by
  unfold putIn
  induction order generalizing out with
  | nil => simp at hi
  | cons a l ih =>
    rw [List.foldl_cons]
    by_cases h : i ∈ l
    · exact ih _ h (by simpa using hlt)
    · have ha : a = i := by
        rcases List.mem_cons.1 hi with h' | h'
        · exact h'.symm
        · exact absurd h' h
      subst ha
      by_cases h2 : ∃ j ∈ l, idx j = idx a
      · obtain ⟨j, hj, hje⟩ := h2
        have gen : ∀ (l : List Nat) (out : List Nat), out.getD (idx a) 0 = c →
            (l.foldl (fun a k => a.set (idx k) c) out).getD (idx a) 0 = c := by
          intro l
          induction l with
          | nil => intro out h; exact h
          | cons b l ih' =>
            intro out h
            rw [List.foldl_cons]
            apply ih'
            by_cases hb : idx b = idx a
            · rw [hb]
              rcases Nat.lt_or_ge (idx a) out.length with hh | hh
              · rw [List.getD_eq_getElem _ _ (by simpa using hh)]; simp
              · rw [List.set_eq_of_length_le hh]; exact h
            · rw [List.getD_eq_getElem?_getD, List.getElem?_set_ne hb, ← List.getD_eq_getElem?_getD]
              exact h
        apply gen
        rw [List.getD_eq_getElem _ _ (by simpa using hlt)]; simp
      · push Not at h2
        have := putIn_notMem l idx (fun _ => c) (out.set (idx a) c) (idx a) h2
        unfold putIn at this
        rw [this, List.getD_eq_getElem _ _ (by simpa using hlt)]; simp

/-- Work items in ascending order: the last one that stores to a place wins. -/
theorem putIn_ascending (n : Nat) (idx val : Nat → Nat) (out : List Nat) (i : Nat) (hi : i < n)
    (hlast : ∀ j, i < j → j < n → idx j ≠ idx i) (hlt : idx i < out.length) :
    (putIn (List.range n) idx val out).getD (idx i) 0 = val i := by
  induction n with
  | zero => omega
  | succ n ih =>
    have e : putIn (List.range (n + 1)) idx val out =
        (putIn (List.range n) idx val out).set (idx n) (val n) := by
      unfold putIn
      rw [List.range_succ, List.foldl_append]
      rfl
    rw [e]
    by_cases h : i = n
    · subst h
      rw [List.getD_eq_getElem _ _ (by rw [List.length_set, putIn_length]; exact hlt)]
      simp
    · rw [List.getD_eq_getElem?_getD,
        List.getElem?_set_ne (hlast n (by omega) (by omega)), ← List.getD_eq_getElem?_getD]
      exact ih (by omega) fun j h1 h2 => hlast j h1 (by omega)

end Boxtree.Filter
