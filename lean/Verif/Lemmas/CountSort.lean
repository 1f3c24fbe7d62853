import Mathlib.Data.Nat.Count
import Mathlib.Data.Fintype.EquivFin
import Mathlib.Tactic.Linarith
import Mathlib.Tactic.Push

/-! Counting sort: the position `countLT + rank` permutes an interval and sorts it by the key. -/

namespace Boxtree.CountSort

variable (key : Nat → Nat) (C : Nat)

/-- Number of elements with a key less than `c`. -/
def below (c : Nat) : Nat := Nat.count (fun i => key i < c) C

/-- Position of element `i` after sorting. -/
def pos (i : Nat) : Nat := below key C (key i) + Nat.count (fun j => key j = key i) i

theorem count_lt_succ (c n : Nat) :
    Nat.count (fun i => key i < c + 1) n
      = Nat.count (fun i => key i < c) n + Nat.count (fun i => key i = c) n := by
  induction n with
  | zero => simp
  | succ n ih =>
    simp only [Nat.count_succ, ih]
    rcases lt_trichotomy (key n) c with h | h | h
    · have h1 : key n < c + 1 := by omega
      have h2 : key n ≠ c := by omega
      simp [h, h1, h2]; omega
    · have h1 : key n < c + 1 := by omega
      simp [h]; omega
    · have h1 : ¬ key n < c + 1 := by omega
      have h2 : key n ≠ c := by omega
      have h3 : ¬ key n < c := by omega
      simp [h1, h2, h3]

theorem below_zero : below key C 0 = 0 := by
  unfold below
  induction C with
  | zero => simp
  | succ n _ => simp [Nat.count_succ]

theorem below_succ (c : Nat) :
    below key C (c + 1) = below key C c + Nat.count (fun i => key i = c) C :=
  count_lt_succ key c C

theorem below_mono {a b : Nat} (h : a ≤ b) : below key C a ≤ below key C b := by
  induction b, h using Nat.le_induction with
  | base => exact le_refl _
  | succ b _ ih => rw [below_succ]; omega

theorem below_le (c : Nat) : below key C c ≤ C := Nat.count_le _

theorem below_all {K : Nat} (h : ∀ i < C, key i < K) : below key C K = C := by
  unfold below
  have : ∀ n ≤ C, Nat.count (fun i => key i < K) n = n := by
    intro n
    induction n with
    | zero => simp
    | succ n ih =>
      intro hn
      rw [Nat.count_succ, ih (by omega), if_pos (h n (by omega))]
  exact this C (le_refl _)

variable {key C}

theorem rank_lt {i : Nat} (hi : i < C) :
    Nat.count (fun j => key j = key i) i < Nat.count (fun j => key j = key i) C :=
  Nat.count_strict_mono (p := fun j => key j = key i) rfl hi

theorem pos_ge (i : Nat) : below key C (key i) ≤ pos key C i := Nat.le_add_right _ _

theorem pos_lt {i : Nat} (hi : i < C) : pos key C i < below key C (key i + 1) := by
  rw [below_succ]; exact Nat.add_lt_add_left (rank_lt hi) _

theorem pos_lt_C {i : Nat} (hi : i < C) : pos key C i < C :=
  lt_of_lt_of_le (pos_lt hi) (below_le _ _ _)

theorem key_of_pos {i c : Nat} (hi : i < C) (h1 : below key C c ≤ pos key C i)
    (h2 : pos key C i < below key C (c + 1)) : key i = c := by
  rcases lt_trichotomy (key i) c with h | h | h
  · have := below_mono key C (show key i + 1 ≤ c from h)
    have := pos_lt (key := key) hi
    omega
  · exact h
  · have := below_mono key C (show c + 1 ≤ key i from h)
    have := pos_ge (key := key) (C := C) i
    omega

theorem pos_inj {i j : Nat} (hi : i < C) (hj : j < C) (h : pos key C i = pos key C j) : i = j := by
  have hk : key i = key j := key_of_pos hi (h ▸ pos_ge j) (h ▸ pos_lt hj)
  unfold pos at h
  rw [hk] at h
  have h' : Nat.count (fun l => key l = key j) i = Nat.count (fun l => key l = key j) j := by omega
  exact Nat.count_injective (p := fun l => key l = key j) hk rfl h'

theorem pos_surj {j : Nat} (hj : j < C) : ∃ i, i < C ∧ pos key C i = j := by
  have hinj : Function.Injective (fun i : Fin C => (⟨pos key C i.1, pos_lt_C i.2⟩ : Fin C)) := by
    intro a b h
    exact Fin.ext (pos_inj a.2 b.2 (Fin.mk.inj h))
  obtain ⟨i, hi⟩ := Finite.surjective_of_injective hinj ⟨j, hj⟩
  exact ⟨i.1, i.2, Fin.mk.inj hi⟩

/-- Sums of counts of single keys. -/
theorem below_sum (c m : Nat) :
    below key C c + ((List.range m).map fun i => Nat.count (fun j => key j = c + i) C).sum
      = below key C (c + m) := by
  induction m with
  | zero => simp
  | succ m ih =>
    rw [List.range_succ, List.map_append, List.sum_append, ← Nat.add_assoc, ih, ← Nat.add_assoc,
      below_succ]
    simp

end Boxtree.CountSort
