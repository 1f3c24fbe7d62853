import Verif.Lemmas.Geometric
import Mathlib.Analysis.SpecialFunctions.Complex.LogBounds

/-!
# Truncated double series of the logarithm

`log (1 - u - v) = -Σ_{k,l} binom(k+l, l) / (k+l) u^k v^l`, and the error of the partial sums over squares.
The term `k = l = 0` is a division by zero and hence zero.
-/

namespace Boxtree.Series

theorem sum_choose_div_le {a b : ℝ} (ha : 0 ≤ a) (hb : 0 ≤ b) {n : Nat} (F : Finset (Nat × Nat))
    (hF : ∀ e ∈ F, n + 1 ≤ e.1 + e.2) :
    ∑ e ∈ F, ((e.1 + e.2).choose e.2 : ℝ) / ((e.1 + e.2 : ℕ) : ℝ) * a ^ e.1 * b ^ e.2 ≤
      (∑ e ∈ F, ((e.1 + e.2).choose e.2 : ℝ) * a ^ e.1 * b ^ e.2) / (n + 1) := by
  rw [Finset.sum_div]
  refine Finset.sum_le_sum fun e he => ?_
  have h1 : ((n : ℝ) + 1) ≤ ((e.1 + e.2 : ℕ) : ℝ) := by exact_mod_cast hF e he
  have h2 : (0 : ℝ) < n + 1 := by positivity
  rw [mul_assoc, mul_assoc, div_mul_eq_mul_div]
  exact div_le_div_of_nonneg_left (by positivity) h2 h1

/-- Error of the partial sum over a square. -/
theorem log_square_error {u v : ℂ} {s : ℝ} (hs : ‖u‖ + ‖v‖ ≤ s) (h1 : s < 1) (p : Nat) :
    ‖∑ k ∈ Finset.range (p + 1), ∑ l ∈ Finset.range (p + 1),
        ((k + l).choose l : ℂ) / ((k + l : ℕ) : ℂ) * u ^ k * v ^ l
      + Complex.log (1 - u - v)‖ ≤ tail s (p + 1) / (p + 1) := by
  have h0 : 0 ≤ s := le_trans (by positivity) hs
  set w := u + v with hw
  have hwn : ‖w‖ ≤ s := (norm_add_le u v).trans hs
  set N := 2 * p + 1 with hN
  set T := (Finset.range N).biUnion Finset.antidiagonal with hT
  have hTm : ∀ e : Nat × Nat, e ∈ T ↔ e.1 + e.2 < N := by
    intro e
    simp [hT]
  set Q := Finset.range (p + 1) ×ˢ Finset.range (p + 1) with hQ
  have hQT : Q ⊆ T := by
    intro e he
    rw [hQ, Finset.mem_product, Finset.mem_range, Finset.mem_range] at he
    rw [hTm]
    omega
  have hpow : ∑ e ∈ T, ((e.1 + e.2).choose e.2 : ℂ) / ((e.1 + e.2 : ℕ) : ℂ) * u ^ e.1 * v ^ e.2 =
      ∑ m ∈ Finset.range N, w ^ m / m := by
    rw [hT, Finset.sum_biUnion]
    · refine Finset.sum_congr rfl fun m _ => ?_
      rw [hw, (Commute.all u v).add_pow', Finset.sum_div]
      refine Finset.sum_congr rfl fun e he => ?_
      rw [Finset.mem_antidiagonal] at he
      rw [nsmul_eq_mul, ← he, Nat.choose_symm_add]
      ring
    · intro i _ j _ hij
      refine Finset.disjoint_left.2 fun e h1 h2 => hij ?_
      rw [← Finset.mem_antidiagonal.1 h1, ← Finset.mem_antidiagonal.1 h2]
  have hlog : ‖∑ m ∈ Finset.range N, w ^ m / m + Complex.log (1 - w)‖ ≤ tail s N / (p + 1) := by
    have hz : ‖-w‖ < 1 := by rw [norm_neg]; linarith
    have h2 := Complex.norm_log_sub_logTaylor_le (2 * p) hz
    have e : Complex.logTaylor N (-w) = -∑ m ∈ Finset.range N, w ^ m / m := by
      rw [Complex.logTaylor, ← Finset.sum_neg_distrib]
      refine Finset.sum_congr rfl fun m _ => ?_
      rw [neg_pow w, pow_succ]
      have : ((-1 : ℂ) ^ m) * (-1) ^ m = 1 := by rw [← mul_pow]; simp
      linear_combination -(w ^ m / m) * this
    rw [show 2 * p + 1 = N from rfl, e, sub_neg_eq_add, ← sub_eq_add_neg, add_comm, norm_neg] at h2
    refine h2.trans ?_
    rw [tail, div_eq_mul_inv (s ^ N)]
    have g1 : (1 - ‖w‖)⁻¹ ≤ (1 - s)⁻¹ := inv_anti₀ (by linarith) (by linarith)
    have g2 : ‖w‖ ^ N ≤ s ^ N := pow_le_pow_left₀ (norm_nonneg _) hwn N
    have g3 : (0 : ℝ) < 1 - s := by linarith
    have g4 : ((p : ℝ) + 1) ≤ ((2 * p : ℕ) : ℝ) + 1 := by push_cast; linarith [(Nat.cast_nonneg p : (0 : ℝ) ≤ p)]
    have g5 : (0 : ℝ) < p + 1 := by positivity
    have g6 : 0 ≤ (1 - ‖w‖)⁻¹ := inv_nonneg.2 (by linarith)
    gcongr
  have hsq : ∑ k ∈ Finset.range (p + 1), ∑ l ∈ Finset.range (p + 1),
      ((k + l).choose l : ℂ) / ((k + l : ℕ) : ℂ) * u ^ k * v ^ l =
      ∑ e ∈ Q, ((e.1 + e.2).choose e.2 : ℂ) / ((e.1 + e.2 : ℕ) : ℂ) * u ^ e.1 * v ^ e.2 := by
    rw [hQ, Finset.sum_product]
  have hdiff := Finset.sum_sdiff hQT (f := fun e : Nat × Nat =>
    ((e.1 + e.2).choose e.2 : ℂ) / ((e.1 + e.2 : ℕ) : ℂ) * u ^ e.1 * v ^ e.2)
  have e1 : (1 : ℂ) - u - v = 1 - w := by rw [hw]; ring
  have key : ∑ k ∈ Finset.range (p + 1), ∑ l ∈ Finset.range (p + 1),
      ((k + l).choose l : ℂ) / ((k + l : ℕ) : ℂ) * u ^ k * v ^ l + Complex.log (1 - u - v) =
      -(∑ e ∈ T \ Q, ((e.1 + e.2).choose e.2 : ℂ) / ((e.1 + e.2 : ℕ) : ℂ) * u ^ e.1 * v ^ e.2) +
        (∑ m ∈ Finset.range N, w ^ m / m + Complex.log (1 - w)) := by
    rw [hsq, e1]
    linear_combination hdiff + hpow
  rw [key]
  have hb : ∀ e ∈ T \ Q, p + 1 ≤ e.1 + e.2 ∧ e.1 + e.2 < N := by
    intro e he
    rw [Finset.mem_sdiff, hTm, hQ, Finset.mem_product, Finset.mem_range, Finset.mem_range] at he
    omega
  have b1 : ‖∑ e ∈ T \ Q, ((e.1 + e.2).choose e.2 : ℂ) / ((e.1 + e.2 : ℕ) : ℂ) * u ^ e.1 * v ^ e.2‖ ≤
      (∑ m ∈ Finset.Ico (p + 1) N, s ^ m) / (p + 1) := by
    refine (norm_sum_le _ _).trans ?_
    refine le_trans (le_of_eq ?_) ((sum_choose_div_le (norm_nonneg u) (norm_nonneg v) (T \ Q)
      fun e he => (hb e he).1).trans (div_le_div_of_nonneg_right
        (sum_choose_le (norm_nonneg u) (norm_nonneg v) hs (T \ Q) hb) (by positivity)))
    refine Finset.sum_congr rfl fun e _ => ?_
    rw [norm_mul, norm_mul, norm_pow, norm_pow, norm_div, Complex.norm_natCast, Complex.norm_natCast]
  rw [← tail_split h1 (show p + 1 ≤ N by omega), add_div]
  refine (norm_add_le _ _).trans ?_
  rw [norm_neg]
  exact add_le_add b1 hlog

end Boxtree.Series
