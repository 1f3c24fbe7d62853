import Verif.Model.FlatIndex
import Mathlib.Tactic.Linarith
import Mathlib.Tactic.Ring

/-!
# C93: the kernels address the arrays of boxes correctly
-/

namespace Boxtree
open FmmLib (wrap32)

theorem alignedNboxes_ge (n : Nat) : n ≤ alignedNboxes n ∧ alignedNboxes n < n + 32 := by
  unfold alignedNboxes; omega

theorem wrap32_of_range {x : ℤ} (h0 : 0 ≤ x) (h1 : x < 2 ^ 31) : wrap32 x = x := by
  unfold wrap32; omega

theorem length_flatBoxArray {α : Type} [Zero α] (nrows n : Nat) (a : Nat → Nat → α) :
    (flatBoxArray nrows n a).length = nrows * alignedNboxes n := by
  unfold flatBoxArray
  simp [List.length_flatMap]

theorem flatBoxArray_get {α : Type} [Zero α] (nrows n : Nat) (a : Nat → Nat → α) (r b : Nat)
    (hr : r < nrows) (hb : b < n) :
    (flatBoxArray nrows n a)[r * alignedNboxes n + b]? = some (a r b) := by
  have hal := (alignedNboxes_ge n).1
  have key : ∀ (rs : List Nat) (k : Nat), k < rs.length →
      (rs.flatMap fun r => (List.range (alignedNboxes n)).map fun b =>
        if b < n then a r b else 0)[k * alignedNboxes n + b]? = some (a (rs.getD k 0) b) := by
    intro rs
    induction rs with
    | nil => intro k hk; simp at hk
    | cons c rs ih =>
      intro k hk
      rw [List.flatMap_cons]
      cases k with
      | zero =>
        rw [List.getElem?_append_left (by simp; omega)]
        rw [Nat.zero_mul, Nat.zero_add, List.getElem?_map, List.getElem?_range (by omega)]
        simp [hb]
      | succ k =>
        rw [List.getElem?_append_right (by simp; nlinarith)]
        have := ih k (by simpa using hk)
        rw [List.length_map, List.length_range,
          show (k + 1) * alignedNboxes n + b - alignedNboxes n = k * alignedNboxes n + b by
            rw [Nat.succ_mul]; omega]
        simpa using this
  have := key (List.range nrows) r (by simpa using hr)
  unfold flatBoxArray
  rw [this]
  simp [hr]

/-- **C93.** Whatever the contents of an array with `nrows` rows over `n` boxes, every kernel that asks for
row `r` of box `b` gets that entry, if the last position `(nrows - 1) * aligned + n - 1` is less than
`2^31`.  (`C93_too_many_boxes` is the converse.) -/
theorem C93_reads_exact {α : Type} [Zero α] (nrows n : Nat)
    (h : (nrows - 1) * alignedNboxes n + n ≤ 2 ^ 31) (a : Nat → Nat → α) (r b : Nat)
    (hr : r < nrows) (hb : b < n) :
    load (flatBoxArray nrows n a) (flatIndex32 n r b) = some (a r b) := by
  have hal := alignedNboxes_ge n
  have hle : r * alignedNboxes n ≤ (nrows - 1) * alignedNboxes n :=
    Nat.mul_le_mul_right _ (by omega)
  have hidx : flatIndex32 n r b = ((r * alignedNboxes n + b : ℕ) : ℤ) := by
    unfold flatIndex32
    have e : (r : ℤ) * (alignedNboxes n : ℤ) = ((r * alignedNboxes n : ℕ) : ℤ) := by push_cast; rfl
    rw [e]
    generalize (nrows - 1) * alignedNboxes n = X at *
    generalize r * alignedNboxes n = Y at *
    rw [wrap32_of_range (x := (Y : ℤ)) (by omega) (by omega), wrap32_of_range (by omega) (by omega)]
    push_cast; rfl
  unfold load
  rw [hidx, if_neg (by omega), Int.toNat_natCast]
  exact flatBoxArray_get nrows n a r b hr hb

/-- **C93**, converse: if the last position is `2^31` or more, there are a row and a box for which the
kernels access memory in front of the array. -/
theorem C93_too_many_boxes (nrows n : Nat) (hr : 0 < nrows) (hn : 0 < n)
    (h : 2 ^ 31 < (nrows - 1) * alignedNboxes n + n) :
    ∃ r b, r < nrows ∧ b < n ∧ flatIndex32 n r b < 0 ∧
      ∀ {α : Type} [Zero α] (a : Nat → Nat → α),
        load (flatBoxArray nrows n a) (flatIndex32 n r b) = none := by
  have hal := alignedNboxes_ge n
  have main : ∃ r b, r < nrows ∧ b < n ∧ 2 ^ 31 ≤ r * alignedNboxes n + b ∧
      r * alignedNboxes n + b < 2 ^ 32 := by
    by_cases hbig : 2 ^ 31 < n
    · exact ⟨0, 2 ^ 31, hr, hbig, by omega, by omega⟩
    · have hA : alignedNboxes n ≤ 2 ^ 31 := by unfold alignedNboxes; omega
      have hex : ∃ r, 2 ^ 31 ≤ r * alignedNboxes n + (n - 1) := ⟨nrows - 1, by
        generalize (nrows - 1) * alignedNboxes n = X at *; omega⟩
      classical
      have hle : Nat.find hex ≤ nrows - 1 := Nat.find_min' hex (by
        generalize (nrows - 1) * alignedNboxes n = X at *; omega)
      refine ⟨Nat.find hex, n - 1, by omega, by omega, Nat.find_spec hex, ?_⟩
      by_cases h0 : Nat.find hex = 0
      · rw [h0]; omega
      · have hmin := Nat.find_min hex (m := Nat.find hex - 1) (by omega)
        have e : Nat.find hex * alignedNboxes n =
            (Nat.find hex - 1) * alignedNboxes n + alignedNboxes n := by
          rw [← Nat.succ_mul]; congr 1; omega
        rw [e]
        generalize (Nat.find hex - 1) * alignedNboxes n = X at *
        omega
  obtain ⟨r, b, hr', hb, h1, h2⟩ := main
  have hneg : flatIndex32 n r b < 0 := by
    unfold flatIndex32
    have e : (r : ℤ) * (alignedNboxes n : ℤ) = ((r * alignedNboxes n : ℕ) : ℤ) := by push_cast; rfl
    rw [e]
    generalize r * alignedNboxes n = Y at *
    unfold wrap32
    omega
  refine ⟨r, b, hr', hb, hneg, ?_⟩
  intro α _ a
  unfold load
  rw [if_pos hneg]

/-- **C93** for the arrays of child ids: all of them are read correctly with up to `2^29` boxes in two and
`2^28` in three dimensions, and not with one more box. -/
theorem C93_limits :
    (∀ n, 0 < n → ((2 ^ 2 - 1) * alignedNboxes n + n ≤ 2 ^ 31 ↔ n ≤ 2 ^ 29)) ∧
    (∀ n, 0 < n → ((2 ^ 3 - 1) * alignedNboxes n + n ≤ 2 ^ 31 ↔ n ≤ 2 ^ 28)) := by
  constructor <;> intro n hn <;> unfold alignedNboxes <;> omega

/-- A tree with 40 boxes in two dimensions: rows have 64 entries. -/
example : (2 ^ 2 - 1) * alignedNboxes 40 + 40 ≤ 2 ^ 31 ∧ alignedNboxes 40 = 64 ∧
    flatIndex32 40 3 39 = 231 ∧
    load (flatBoxArray 4 40 fun r b => (100 * r + b : ℕ)) 231 = some 339 := by
  decide +kernel

end Boxtree
