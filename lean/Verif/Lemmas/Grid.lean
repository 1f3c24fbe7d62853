import Verif.Spec.Geometry
import Verif.Lemmas.Tree
import Mathlib.Tactic.Ring
import Mathlib.Tactic.LinearCombination
import Mathlib.Algebra.Order.Ring.Abs

set_option linter.unusedSimpArgs false
set_option linter.unusedVariables false

/-!
# The dyadic grid: the adjacency tolerance never changes the answer
-/

namespace Boxtree.BoxTree
variable {t : BoxTree}

theorem rad_mul_pow (t : BoxTree) (l d : Nat) : t.rad l = 2 ^ d * t.rad (l + d) := by
  induction d with
  | zero => simp
  | succ d ih => rw [ih, rad_succ t (l + d), pow_succ]; ring_nf

/-- Centers are odd multiples of the box radius away from the lower corner of the root. -/
theorem WF.grid (hw : t.WF) {b : Nat} (hb : b < t.nboxes) (i : Nat) (hi : i < t.dims) :
    ∃ k : ℤ, t.center b i = t.lo 0 i + (2 * k + 1) * t.rad (t.level b) := by
  generalize hl : t.level b = l
  induction l generalizing b with
  | zero =>
    have := hw.eq_zero_of_level hb hl
    subst this
    exact ⟨0, by simp [lo, hw.level_root]⟩
  | succ l ih =>
    have h0 : b ≠ 0 := by
      rintro rfl; rw [hw.level_root] at hl; omega
    have hlp : t.level (t.parent b) = l := by
      have := hw.level_parent b hb h0; omega
    obtain ⟨k, hk⟩ := ih (hw.parent_lt b hb) hlp
    obtain ⟨m, hm, hc⟩ := hw.parent_child b hb h0
    have hcc := hw.center_child m hm (t.parent b) (hw.parent_lt b hb) (by rw [hc]; exact h0) i hi
    rw [hc, hlp, hk, rad_succ t l] at hcc
    have hs : mortonSign t.dims m i = 1 ∨ mortonSign t.dims m i = -1 := by
      unfold mortonSign; split <;> simp
    rcases hs with hs | hs
    · refine ⟨2 * k + 1, ?_⟩
      rw [hcc, hs]; push_cast; ring
    · refine ⟨2 * k, ?_⟩
      rw [hcc, hs]; push_cast; ring

theorem parity_tol {N B : ℤ} (h : (N - B) % 2 = 0) : |N| ≤ B + 1 ↔ |N| ≤ B := by
  constructor
  · intro h1
    rw [abs_le] at *
    omega
  · intro h1; omega

theorem scaled_tol {x c u : ℚ} (hu : 0 < u) {N B : ℤ} (hx : x = N * u) (hc : c = B * u)
    (h : (N - B) % 2 = 0) : |x| ≤ c + u ↔ |x| ≤ c := by
  rw [hx, hc, abs_mul, abs_of_pos hu]
  have e : (B : ℚ) * u + u = (B + 1) * u := by ring
  rw [e, mul_le_mul_iff_left₀ hu, mul_le_mul_iff_left₀ hu]
  have := parity_tol h
  rw [← Int.cast_abs]
  exact_mod_cast this

theorem WF.tol_axis (hw : t.WF) {n a b : Nat} (hn : 1 ≤ n) (ha : a < t.nboxes)
    (hb : b < t.nboxes) (i : Nat) (hi : i < t.dims) :
    |t.center a i - t.center b i| ≤ (2 * ((n : ℚ) - 1) + 1) * t.rad (t.level a) +
        t.rad (t.level b) + min (t.rad (t.level a)) (t.rad (t.level b)) ↔
    |t.center a i - t.center b i| ≤ (2 * ((n : ℚ) - 1) + 1) * t.rad (t.level a) +
        t.rad (t.level b) := by
  obtain ⟨ka, hka⟩ := hw.grid ha i hi
  obtain ⟨kb, hkb⟩ := hw.grid hb i hi
  rcases Nat.le_total (t.level a) (t.level b) with h | h
  · obtain ⟨d, hd⟩ := Nat.exists_eq_add_of_le h
    have hr : t.rad (t.level a) = 2 ^ d * t.rad (t.level b) := by rw [hd]; exact rad_mul_pow t _ d
    rw [min_eq_right (hw.rad_anti h)]
    apply scaled_tol (hw.rad_pos _)
      (N := (2 * ka + 1) * 2 ^ d - (2 * kb + 1)) (B := (2 * ((n : ℤ) - 1) + 1) * 2 ^ d + 1)
    · rw [hka, hkb, hr]; push_cast; ring
    · rw [hr]; push_cast; ring
    · have : ((2 * ka + 1) * 2 ^ d - (2 * kb + 1)) - ((2 * ((n : ℤ) - 1) + 1) * 2 ^ d + 1) =
          2 * ((ka - (n - 1)) * 2 ^ d - kb - 1) := by ring
      rw [this]; omega
  · obtain ⟨d, hd⟩ := Nat.exists_eq_add_of_le h
    have hr : t.rad (t.level b) = 2 ^ d * t.rad (t.level a) := by rw [hd]; exact rad_mul_pow t _ d
    rw [min_eq_left (hw.rad_anti h)]
    apply scaled_tol (hw.rad_pos _)
      (N := (2 * ka + 1) - (2 * kb + 1) * 2 ^ d) (B := (2 * ((n : ℤ) - 1) + 1) + 2 ^ d)
    · rw [hka, hkb, hr]; push_cast; ring
    · rw [hr]; push_cast; ring
    · have : ((2 * ka + 1) - (2 * kb + 1) * 2 ^ d) - ((2 * ((n : ℤ) - 1) + 1) + 2 ^ d) =
          2 * (ka - (n - 1) - (kb + 1) * 2 ^ d) := by ring
      rw [this]; omega

/-- The code's adjacency test with its tolerance decides exactly whether the closed boxes
(the first enlarged by `n-1` widths) meet. -/
theorem WF.nws_iff_touch (hw : t.WF) {n a b : Nat} (hn : 1 ≤ n) (ha : a < t.nboxes)
    (hb : b < t.nboxes) : t.nws n a b ↔ t.TouchEnlarged (n - 1) a b := by
  unfold nws TouchEnlarged lo hi width
  rw [linf_le_iff]
  have hn' : ((n - 1 : Nat) : ℚ) = (n : ℚ) - 1 := by push_cast [hn]; ring
  have h1 : (1 : ℚ) ≤ n := by exact_mod_cast hn
  have hra := hw.rad_pos (t.level a)
  have hrb := hw.rad_pos (t.level b)
  have hnn : 0 ≤ (2 * ((n : ℚ) - 1) + 1) * t.rad (t.level a) + t.rad (t.level b) +
      min (t.rad (t.level a)) (t.rad (t.level b)) := by
    have := le_min hra.le hrb.le
    have h2 : 0 ≤ (2 * ((n : ℚ) - 1) + 1) * t.rad (t.level a) :=
      mul_nonneg (by linarith) hra.le
    linarith
  constructor
  · rintro ⟨_, h⟩ i hi
    have := (hw.tol_axis hn ha hb i hi).1 (h i hi)
    rw [abs_le] at this
    rw [hn']
    constructor <;> linarith
  · intro h
    refine ⟨hnn, fun i hi => ?_⟩
    rw [hw.tol_axis hn ha hb i hi, abs_le]
    have := h i hi
    rw [hn'] at this
    constructor <;> linarith

theorem touchEnlarged_zero (a b : Nat) : t.TouchEnlarged 0 a b ↔ t.Touch a b := by
  unfold TouchEnlarged Touch; simp

theorem WF.nws_one_iff (hw : t.WF) {a b : Nat} (ha : a < t.nboxes) (hb : b < t.nboxes) :
    t.nws 1 a b ↔ t.Touch a b := by
  rw [hw.nws_iff_touch le_rfl ha hb, ← touchEnlarged_zero]

end Boxtree.BoxTree
