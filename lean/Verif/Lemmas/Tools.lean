import Verif.Model.Tools
import Verif.Lemmas.Csr
import Mathlib.Data.List.GetD
import Mathlib.Data.List.Perm.Basic
import Mathlib.Algebra.Order.Group.Basic
import Mathlib.Tactic.Linarith

/-!
# Lemmas about the device helpers
-/

namespace Boxtree.Tools

theorem scatter_length {α : Type} (order : List Nat) (pos : Nat → Nat) (val : Nat → α)
    (r : List α) : (order.foldl (fun r i => r.set (pos i) (val i)) r).length = r.length := by
  induction order generalizing r with
  | nil => rfl
  | cons a l ih => rw [List.foldl_cons, ih, List.length_set]

theorem scatter_notMem {α : Type} (order : List Nat) (pos : Nat → Nat) (val : Nat → α)
    (r : List α) (j : Nat) (hj : ∀ i ∈ order, pos i ≠ j) :
    (order.foldl (fun r i => r.set (pos i) (val i)) r)[j]? = r[j]? := by
  induction order generalizing r with
  | nil => rfl
  | cons a l ih =>
    rw [List.foldl_cons, ih _ (fun i hi => hj i (List.mem_cons_of_mem _ hi)),
      List.getElem?_set_ne (hj a List.mem_cons_self)]

theorem scatter_mem {α : Type} (order : List Nat) (pos : Nat → Nat) (val : Nat → α)
    (r : List α) (i : Nat) (hi : i ∈ order)
    (hinj : ∀ k ∈ order, pos k = pos i → k = i) (hlt : pos i < r.length) :
    (order.foldl (fun r i => r.set (pos i) (val i)) r)[pos i]? = some (val i) := by
  induction order generalizing r with
  | nil => simp at hi
  | cons a l ih =>
    rw [List.foldl_cons]
    by_cases hil : i ∈ l
    · exact ih _ hil (fun k hk => hinj k (List.mem_cons_of_mem _ hk)) (by simpa using hlt)
    · have ha : a = i := by
        rcases List.mem_cons.1 hi with h | h
        · exact h.symm
        · exact absurd h hil
      subst ha
      rw [scatter_notMem _ _ _ _ _ (fun k hk hp => hil
        ((hinj k (List.mem_cons_of_mem _ hk) hp) ▸ hk))]
      simp [hlt]

/-- `getD` version of the two previous lemmas for a zero-filled array. -/
theorem scatter_replicate {α : Type} (order : List Nat) (n N : Nat)
    (hperm : order.Perm (List.range n)) (pos : Nat → Nat) (val : Nat → α) (d : α)
    (hinj : ∀ i < n, ∀ k < n, pos i = pos k → i = k) (hlt : ∀ i < n, pos i < N) :
    let r := order.foldl (fun r i => r.set (pos i) (val i)) (List.replicate N d)
    r.length = N ∧ (∀ i < n, r[pos i]? = some (val i)) ∧
      ∀ j < N, (∀ i < n, pos i ≠ j) → r[j]? = some d := by
  intro r
  have hm : ∀ i, i ∈ order ↔ i < n := fun i => by rw [hperm.mem_iff, List.mem_range]
  refine ⟨by simp [r, scatter_length], fun i hi => ?_, fun j hj hne => ?_⟩
  · exact scatter_mem order pos val _ i ((hm i).2 hi)
      (fun k hk he => hinj k ((hm k).1 hk) i hi he) (by simpa using hlt i hi)
  · simp only [r]
    rw [scatter_notMem order pos val _ j (fun i hi => hne i ((hm i).1 hi))]
    simp [hj]

theorem mapInPlace_notMem (order : List Nat) (f : Nat → Nat) (a : List Nat) (j : Nat)
    (hj : j ∉ order) :
    (mapValuesInPlace order f a)[j]? = a[j]? := by
  unfold mapValuesInPlace
  induction order generalizing a with
  | nil => rfl
  | cons x l ih =>
    simp only [List.mem_cons, not_or] at hj
    rw [List.foldl_cons, ih _ hj.2, List.getElem?_set_ne (fun h => hj.1 h.symm)]

theorem mapInPlace_mem (order : List Nat) (hnd : order.Nodup) (f : Nat → Nat) (a : List Nat)
    (j : Nat) (hj : j ∈ order) (hlt : j < a.length) :
    (mapValuesInPlace order f a)[j]? = some (f (a.getD j 0)) := by
  induction order generalizing a with
  | nil => simp at hj
  | cons x l ih =>
    have hnd' := List.nodup_cons.1 hnd
    by_cases hjl : j ∈ l
    · have hx : x ≠ j := fun h => hnd'.1 (h ▸ hjl)
      have := ih hnd'.2 (a.set x (f (a.getD x 0))) hjl (by simpa using hlt)
      simp only [mapValuesInPlace, List.foldl_cons] at this ⊢
      rw [this]
      congr 2
      simp only [List.getD_eq_getElem?_getD]
      rw [List.getElem?_set_ne hx]
    · have hx : j = x := by
        rcases List.mem_cons.1 hj with h | h
        · exact h
        · exact absurd h hjl
      subst hx
      have := mapInPlace_notMem l f (a.set j (f (a.getD j 0))) j hjl
      simp only [mapValuesInPlace, List.foldl_cons] at this ⊢
      rw [this]
      simp [hlt]

theorem bsearchLoop_spec {α : Type} [LinearOrder α] (arr : Nat → α) (len : Nat) (val : α)
    (hmono : ∀ i j, i ≤ j → j < len → arr i ≤ arr j) :
    ∀ fuel l r, l < r → r ≤ len → r - l ≤ fuel → arr l ≤ val → (r = len ∨ val < arr r) →
      ∃ i, bsearchLoop arr len val fuel l r = some i ∧ i < len ∧ arr i ≤ val ∧
        ∀ j, i < j → j < len → val < arr j := by
  intro fuel
  induction fuel with
  | zero => intro l r h1 _ h2; omega
  | succ fuel ih =>
    intro l r hlr hr hf hl hrr
    have hi1 : l ≤ l + (r - l) / 2 := Nat.le_add_right _ _
    have hi2 : l + (r - l) / 2 < r := by omega
    unfold bsearchLoop
    simp only
    split
    · rename_i h
      refine ⟨_, rfl, by omega, h.1, fun j hj hjl => ?_⟩
      rcases h.2 with h2 | h2
      · omega
      · exact lt_of_lt_of_le h2 (hmono _ _ (by omega) hjl)
    · rename_i h
      split
      · rename_i h'
        by_cases hone : r - l = 1
        · exfalso
          apply h
          refine ⟨h', ?_⟩
          have : l + (r - l) / 2 = l := by omega
          rw [this]
          have hr1 : r = l + 1 := by omega
          rcases hrr with hrr | hrr
          · left; omega
          · right; rw [← hr1]; exact hrr
        · exact ih _ r hi2 hr (by omega) h' hrr
      · rename_i h'
        have hlt : l < l + (r - l) / 2 := by
          rcases Nat.eq_or_lt_of_le hi1 with he | he
          · rw [← he] at h'; exact absurd hl h'
          · exact he
        exact ih l _ hlt (by omega) (by omega) hl (Or.inr (not_le.1 h'))

theorem matrixRow_eq (buf : Int → Bool) (so si : Int) (i n j : Nat) :
    matrixRow buf so si i n j =
      (List.range' j n).filter fun (k : Nat) => buf (so * i + k * si) := by
  induction n generalizing j with
  | zero => rfl
  | succ n ih =>
    rw [List.range'_succ]
    simp only [matrixRow, List.filter_cons, ih]

end Boxtree.Tools
