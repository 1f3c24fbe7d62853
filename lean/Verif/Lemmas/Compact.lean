import Verif.Model.Csr
import Verif.Lemmas.Csr
import Mathlib.Data.List.GetD
import Mathlib.Data.List.Range

/-!
# Stream compaction: flags, scan, indices
-/

namespace Boxtree

/-- Number of set flags below `i`. -/
def rankOf (p : Nat → Bool) (i : Nat) : Nat := ((List.range i).filter p).length

theorem rankOf_zero (p : Nat → Bool) : rankOf p 0 = 0 := rfl

theorem rankOf_succ (p : Nat → Bool) (i : Nat) :
    rankOf p (i + 1) = rankOf p i + if p i then 1 else 0 := by
  unfold rankOf
  rw [List.range_succ, List.filter_append, List.length_append]
  congr 1
  by_cases h : p i <;> simp [h]

theorem rankOf_le_of_le (p : Nat → Bool) {i j : Nat} (h : i ≤ j) : rankOf p i ≤ rankOf p j := by
  induction j with
  | zero => rw [Nat.le_zero.1 h]
  | succ j ih =>
    rcases Nat.lt_or_ge i (j + 1) with h' | h'
    · exact (ih (by omega)).trans (by rw [rankOf_succ]; omega)
    · rw [Nat.le_antisymm h h']

theorem rankOf_lt_of_lt {p : Nat → Bool} {i j : Nat} (hp : p i = true) (h : i < j) :
    rankOf p i < rankOf p j := by
  have := rankOf_le_of_le p (show i + 1 ≤ j from h)
  rw [rankOf_succ, hp] at this
  simp only [if_true] at this
  omega

theorem rankOf_lt_iff {p : Nat → Bool} {i j : Nat} (hp : p i = true) :
    rankOf p i < rankOf p j ↔ i < j := by
  refine ⟨fun h => ?_, rankOf_lt_of_lt hp⟩
  by_contra hc
  exact absurd (rankOf_le_of_le p (Nat.le_of_not_lt hc)) (Nat.not_le.2 h)

theorem rankOf_add_of_all {p : Nat → Bool} (a c : Nat)
    (h : ∀ i, a ≤ i → i < a + c → p i = true) : rankOf p (a + c) = rankOf p a + c := by
  induction c with
  | zero => rfl
  | succ c ih =>
    rw [← Nat.add_assoc, rankOf_succ, ih fun i h1 h2 => h i h1 (by omega), h _ (by omega) (by omega)]
    simp [Nat.add_assoc]

theorem rankOf_add_of_none {p : Nat → Bool} (a c : Nat)
    (h : ∀ i, a ≤ i → i < a + c → p i = false) : rankOf p (a + c) = rankOf p a := by
  induction c with
  | zero => rfl
  | succ c ih =>
    rw [← Nat.add_assoc, rankOf_succ, ih fun i h1 h2 => h i h1 (by omega), h _ (by omega) (by omega)]
    simp

theorem exists_of_rankOf_lt {p : Nat → Bool} {a b : Nat} (h : rankOf p a < rankOf p b) :
    ∃ i, a ≤ i ∧ i < b ∧ p i = true := by
  by_contra hc
  push Not at hc
  have hab : a < b := by
    by_contra h'
    exact absurd (rankOf_le_of_le p (Nat.le_of_not_lt h')) (Nat.not_le.2 h)
  have := rankOf_add_of_none (p := p) a (b - a) fun i h1 h2 => by
    rw [← Bool.not_eq_true]; exact hc i h1 (by omega)
  rw [Nat.add_sub_cancel' hab.le] at this
  omega

theorem range_split {a b n : Nat} (h1 : a ≤ b) (h2 : b ≤ n) :
    List.range n = List.range a ++ (List.range' a (b - a) ++ List.range' b (n - b)) := by
  have e : List.range' b (n - b) = List.range' (a + (b - a)) (n - b) := by
    rw [Nat.add_sub_cancel' h1]
  rw [List.range_eq_range', List.range_eq_range', e, List.range'_append_1]
  have := List.range'_append_1 (s := 0) (m := a) (n := b - a + (n - b))
  rw [Nat.zero_add] at this
  rw [this]
  congr 1
  omega

/-- The piece of the compacted list between the ranks of `a` and `b` holds exactly the flagged
indices of `a .. b-1`. -/
theorem filter_slice (p : Nat → Bool) {a b n : Nat} (h1 : a ≤ b) (h2 : b ≤ n) :
    (((List.range n).filter p).drop (rankOf p a)).take (rankOf p b - rankOf p a) =
      (List.range' a (b - a)).filter p := by
  have hb : rankOf p b = rankOf p a + ((List.range' a (b - a)).filter p).length := by
    unfold rankOf
    rw [range_split h1 (Nat.le_refl b), List.filter_append, List.length_append]
    simp
  rw [range_split h1 h2, List.filter_append, List.filter_append]
  rw [List.drop_left' (show (List.filter p (List.range a)).length = rankOf p a from rfl), hb, Nat.add_sub_cancel_left, List.take_left]

theorem filter_getElem? {p : Nat → Bool} {i n : Nat} (hp : p i = true) (hi : i < n) :
    ((List.range n).filter p)[rankOf p i]? = some i := by
  have h := filter_slice p (a := i) (b := i + 1) (n := n) (by omega) hi
  rw [rankOf_succ, hp] at h
  simp only [if_true, Nat.add_sub_cancel_left, List.range'_one, List.filter_cons, hp,
    List.filter_nil] at h
  have h2 := congrArg (fun l : List Nat => l[0]?) h
  simpa [List.getElem?_take, List.getElem?_drop] using h2

theorem filter_getD {p : Nat → Bool} {i n : Nat} (hp : p i = true) (hi : i < n) :
    ((List.range n).filter p).getD (rankOf p i) 0 = i := by
  rw [List.getD_eq_getElem?_getD, filter_getElem? hp hi]
  rfl

/-- The scan of a list of flags counts the flags. -/
theorem sum_take_flags (l : List Nat) (hl : ∀ i, i < l.length → l.getD i 0 = 0 ∨ l.getD i 0 = 1)
    (i : Nat) (hi : i ≤ l.length) :
    (l.take i).sum = rankOf (fun j => l.getD j 0 != 0) i := by
  induction i with
  | zero => rfl
  | succ i ih =>
    rw [rankOf_succ, ← ih (by omega), List.take_succ_eq_append_getElem (by omega), List.sum_append]
    have := hl i (by omega)
    rw [List.getD_eq_getElem _ _ (by omega)] at this
    congr 1
    rw [List.getD_eq_getElem _ _ (by omega)]
    rcases this with h | h <;> simp [h]

theorem scan_getD (l : List Nat) (hl : ∀ i, i < l.length → l.getD i 0 = 0 ∨ l.getD i 0 = 1)
    (i : Nat) (hi : i ≤ l.length) :
    (prefixSums 0 l).getD i 0 = rankOf (fun j => l.getD j 0 != 0) i := by
  rw [prefixSums_getD _ _ _ hi, sum_take_flags l hl i hi, Nat.zero_add]

end Boxtree
