import Verif.Model.FmmLib
import Mathlib.Data.List.Sort
import Mathlib.Tactic.Ring
import Mathlib.Tactic.Linarith

/-!
# C59: the memory limit for precomputed rotation matrices
-/

namespace Boxtree.FmmLib
open Boxtree

variable {A D : Type}

/-- Size in bytes of the rotation matrices of an order for a number of angles, as estimated. -/
def rotmatBytes (order nangles : Nat) : Nat := 8 * (order + 1) ^ 2 * (2 * order + 1) * nangles

theorem rotmatBytes_mono {o o' n : Nat} (h : o ≤ o') : rotmatBytes o n ≤ rotmatBytes o' n := by
  unfold rotmatBytes
  gcongr

theorem memEstimate_eq {o n : Nat} (h : rotmatBytes o n < 2 ^ 31) :
    memEstimate o n = rotmatBytes o n := by
  have e : (8 * ((o : ℤ) + 1) ^ 2 * (2 * o + 1) * n) = (rotmatBytes o n : ℤ) := by
    unfold rotmatBytes; push_cast; ring
  unfold memEstimate wrap32
  rw [e]
  omega

theorem find?_sorted (l : List Nat) (hs : l.Pairwise (fun a b => b ≤ a)) (p : Nat → Bool) (o : Nat)
    (h : l.find? p = some o) : o ∈ l ∧ p o = true ∧ ∀ o' ∈ l, o < o' → p o' = false := by
  induction l with
  | nil => cases h
  | cons a l ih =>
    rw [List.pairwise_cons] at hs
    rw [List.find?_cons] at h
    cases hp : p a with
    | true =>
      rw [hp] at h
      cases h
      refine ⟨List.mem_cons_self, hp, fun o' ho' hlt => ?_⟩
      rcases List.mem_cons.1 ho' with rfl | ho'
      · omega
      · have := hs.1 _ ho'; omega
    | false =>
      rw [hp] at h
      obtain ⟨h1, h2, h3⟩ := ih hs.2 h
      refine ⟨List.mem_cons_of_mem _ h1, h2, fun o' ho' hlt => ?_⟩
      rcases List.mem_cons.1 ho' with rfl | ho'
      · exact hp
      · exact h3 o' ho' hlt

/-- **C59.** In three dimensions with rotation data, if the estimates of all levels fit in 32 bits:
the matrices that are precomputed, if any, are those of the order of a level and their estimated
size is below the cutoff; and the matrices are used for exactly the levels for whose order the
estimated size is below the cutoff, so nothing is computed in vain and no level that could use them
goes without.

Missing for the full claim (no restriction on the orders): `C59_cutoff_overflow`. -/
theorem C59_rotmat_order_partial (t : BoxTree) (w : Wrangler A D) (hd : t.dims = 3)
    (lists : List ℤ) (angles : List A) (hrot : w.rotation = some (lists, angles)) (hn : angles ≠ [])
    (hfit : ∀ l, l < t.nlevels → rotmatBytes (w.order l) angles.length < 2 ^ 31) :
    (rotmatOrder t w = -1 ∨ ∃ l, l < t.nlevels ∧ rotmatOrder t w = w.order l ∧
      (rotmatBytes (w.order l) angles.length : ℤ) < w.cutoff) ∧
    ∀ l, l < t.nlevels →
      (((w.order l : ℤ) ≤ rotmatOrder t w ↔
        (rotmatBytes (w.order l) angles.length : ℤ) < w.cutoff) ∧
      (∀ pos, (w.order l : ℤ) ≤ rotmatOrder t w →
        rotAngle t w l pos = angles[(lists.getD pos 0).toNat]?) ∧
      ∀ pos, ¬ (w.order l : ℤ) ≤ rotmatOrder t w → rotAngle t w l pos = none) := by
  set orders := ((List.range t.nlevels).map w.order).mergeSort (fun a b => decide (b ≤ a))
    with hord
  have hmem : ∀ o, o ∈ orders ↔ ∃ l, l < t.nlevels ∧ w.order l = o := by
    intro o
    rw [hord, List.mem_mergeSort, List.mem_map]
    simp only [List.mem_range]
  have hsort : orders.Pairwise (fun a b => b ≤ a) := by
    have := List.pairwise_mergeSort (le := fun a b : Nat => decide (b ≤ a))
      (fun a b c h1 h2 => by simp only [decide_eq_true_eq] at *; omega)
      (fun a b => by simp only [Bool.or_eq_true, decide_eq_true_eq]; omega)
      ((List.range t.nlevels).map w.order)
    exact this.imp fun h => by simpa using h
  have hdef : rotmatOrder t w =
      match orders.find? fun o => decide (memEstimate o angles.length < w.cutoff) with
      | some o => (o : ℤ)
      | none => -1 := by
    unfold rotmatOrder
    rw [if_pos hd, hrot]
    simp only
    rw [if_neg (by simpa using hn), ← hord]
    rfl
  have hest : ∀ l, l < t.nlevels → memEstimate (w.order l) angles.length =
      rotmatBytes (w.order l) angles.length := fun l hl => memEstimate_eq (hfit l hl)
  have huse : ∀ l pos, (w.order l : ℤ) ≤ rotmatOrder t w →
      rotAngle t w l pos = angles[(lists.getD pos 0).toNat]? := by
    intro l pos hle
    unfold rotAngle
    rw [if_pos hle, hrot]
  have hnot : ∀ l pos, ¬ (w.order l : ℤ) ≤ rotmatOrder t w → rotAngle t w l pos = none := by
    intro l pos hle
    unfold rotAngle
    rw [if_neg hle]
  cases hf : orders.find? fun o => decide (memEstimate o angles.length < w.cutoff) with
  | none =>
    rw [hf] at hdef
    simp only at hdef
    refine ⟨Or.inl hdef, fun l hl => ⟨?_, huse l, hnot l⟩⟩
    have := List.find?_eq_none.1 hf (w.order l) ((hmem _).2 ⟨l, hl, rfl⟩)
    rw [decide_eq_true_eq, hest l hl] at this
    rw [hdef]
    constructor
    · intro hle; omega
    · intro hlt; exact absurd hlt this
  | some o =>
    rw [hf] at hdef
    simp only at hdef
    obtain ⟨h1, h2, h3⟩ := find?_sorted orders hsort _ o hf
    obtain ⟨l0, hl0, rfl⟩ := (hmem o).1 h1
    rw [decide_eq_true_eq, hest l0 hl0] at h2
    refine ⟨Or.inr ⟨l0, hl0, hdef, h2⟩, fun l hl => ⟨?_, huse l, hnot l⟩⟩
    rw [hdef]
    constructor
    · intro hle
      have hle : w.order l ≤ w.order l0 := by omega
      have := rotmatBytes_mono (n := angles.length) hle
      omega
    · intro hlt
      by_contra hgt
      have := h3 (w.order l) ((hmem _).2 ⟨l, hl, rfl⟩) (by omega)
      rw [decide_eq_false_iff_not, hest l hl] at this
      exact this hlt

/-- **C59 (counterexample).** The estimate is computed in 32-bit integers.  With 49 rotation angles,
the number of a three-dimensional list 2 with one box separation, a uniform order of 150 and a
cutoff of 10⁸ bytes (the default), the matrices are precomputed although the estimate exceeds the
cutoff more than twenty times. -/
theorem C59_cutoff_overflow (t : BoxTree) (w : Wrangler A D) (hd : t.dims = 3)
    (hl : 0 < t.nlevels) (lists : List ℤ) (angles : List A)
    (hrot : w.rotation = some (lists, angles)) (hn : angles.length = 49)
    (ho : ∀ l, w.order l = 150) (hc : w.cutoff = 10 ^ 8) :
    rotmatOrder t w = 150 ∧ 20 * w.cutoff < rotmatBytes 150 49 := by
  constructor
  · unfold rotmatOrder
    rw [if_pos hd, hrot]
    simp only
    rw [hn, hc, if_neg (by decide)]
    have hp : memEstimate 150 49 < 10 ^ 8 := by decide
    have hall : ∀ o ∈ ((List.range t.nlevels).map w.order).mergeSort (fun a b => decide (b ≤ a)),
        o = 150 := by
      intro o hmem
      rw [List.mem_mergeSort, List.mem_map] at hmem
      obtain ⟨l, -, rfl⟩ := hmem
      exact ho l
    have hin : 150 ∈ ((List.range t.nlevels).map w.order).mergeSort (fun a b => decide (b ≤ a)) := by
      rw [List.mem_mergeSort, List.mem_map]
      exact ⟨0, List.mem_range.2 hl, ho 0⟩
    cases hf : (((List.range t.nlevels).map w.order).mergeSort (fun a b => decide (b ≤ a))).find?
        fun o => decide (memEstimate o 49 < 10 ^ 8) with
    | none => exact absurd (decide_eq_true hp) (List.find?_eq_none.1 hf 150 hin)
    | some o => rw [hall o (List.mem_of_find?_eq_some hf)]; rfl
  · rw [hc]; decide

namespace Ex

/-- A wrangler on three levels with orders 4, 8 and 12 and two rotation angles. -/
def rotWrangler (cutoff : ℤ) : Wrangler ℚ ℚ where
  kernel := .laplace
  rscaleFactor := 1
  order l := 4 * (l + 1)
  sources _ _ := 0
  targets _ _ := 0
  dipoleVec := none
  dipolesAlreadyReordered := false
  rotation := some ([0, 1], [0, 1])
  cutoff := cutoff

/-- With room for order 8 only, levels 0 and 1 use the matrices of order 8. -/
example (t : BoxTree) (hd : t.dims = 3) (hl : t.nlevels = 3) :
    rotmatOrder t (rotWrangler 30000) = 8 ∧
    rotAngle t (rotWrangler 30000) 1 1 = some 1 ∧ rotAngle t (rotWrangler 30000) 2 1 = none := by
  have h := C59_rotmat_order_partial t (rotWrangler 30000) hd [0, 1] [0, 1] rfl (by simp)
    (by rw [hl]; decide)
  have h1 := h.2 1 (by omega)
  have h2 := h.2 2 (by omega)
  have g1 := h1.1.2 (by decide)
  have g2 : ¬ ((rotWrangler 30000).order 2 : ℤ) ≤ rotmatOrder t (rotWrangler 30000) := fun hle =>
    absurd (h2.1.1 hle) (by decide)
  refine ⟨?_, ?_, ?_⟩
  · rcases h.1 with h0 | ⟨l, hlt, he, -⟩
    · rw [h0] at g1; exact absurd g1 (by decide)
    · rw [he] at g1 g2 ⊢
      have : l = 0 ∨ l = 1 ∨ l = 2 := by omega
      rcases this with rfl | rfl | rfl
      · exact absurd g1 (by decide)
      · rfl
      · exact absurd le_rfl g2
  · rw [h1.2.1 1 g1]; rfl
  · exact h2.2.2 1 g2

end Ex

end Boxtree.FmmLib
