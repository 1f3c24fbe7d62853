import Mathlib.Analysis.Complex.Norm
import Mathlib.Analysis.Normed.Field.Basic
import Mathlib.Analysis.Complex.Basic
import Mathlib.Algebra.BigOperators.NatAntidiagonal
import Mathlib.Algebra.Field.GeomSum
import Mathlib.Data.Nat.Choose.Sum
import Mathlib.Tactic.FieldSimp
import Mathlib.Tactic.Linarith
import Mathlib.Tactic.LinearCombination
import Mathlib.Tactic.Positivity

/-!
# Truncated double geometric series

`1 / (1 - u - v) = Σ_{k,l} binom(k+l, l) u^k v^l`, and the error of the partial sums over squares.
-/

namespace Boxtree.Series

/-- `s^n / (1 - s)`, the tail of the geometric series. -/
noncomputable def tail (s : ℝ) (n : Nat) : ℝ := s ^ n / (1 - s)

theorem tail_nonneg {s : ℝ} (h0 : 0 ≤ s) (h1 : s < 1) (n : Nat) : 0 ≤ tail s n :=
  div_nonneg (pow_nonneg h0 n) (by linarith)

theorem tail_split {s : ℝ} (h1 : s < 1) {n N : Nat} (h : n ≤ N) :
    ∑ m ∈ Finset.Ico n N, s ^ m + tail s N = tail s n := by
  have : (1 - s) ≠ 0 := by linarith
  rw [geom_sum_Ico (by linarith) h, tail, tail]
  have h2 : s - 1 ≠ 0 := by linarith
  field_simp
  ring

/-- Terms of the double series with `k + l` between `n` and `N` add up to at most a part of the
geometric series. -/
theorem sum_choose_le {a b s : ℝ} (ha : 0 ≤ a) (hb : 0 ≤ b) (hs : a + b ≤ s) {n N : Nat}
    (F : Finset (Nat × Nat)) (hF : ∀ e ∈ F, n ≤ e.1 + e.2 ∧ e.1 + e.2 < N) :
    ∑ e ∈ F, ((e.1 + e.2).choose e.2 : ℝ) * a ^ e.1 * b ^ e.2 ≤ ∑ m ∈ Finset.Ico n N, s ^ m := by
  rw [← Finset.sum_fiberwise_of_maps_to (g := fun e : Nat × Nat => e.1 + e.2) (t := Finset.Ico n N)
    (fun e he => Finset.mem_Ico.2 (hF e he))]
  refine Finset.sum_le_sum fun m _ => ?_
  have h1 : ∑ e ∈ Finset.antidiagonal m, ((e.1 + e.2).choose e.2 : ℝ) * a ^ e.1 * b ^ e.2 =
      (a + b) ^ m := by
    rw [(Commute.all a b).add_pow']
    refine Finset.sum_congr rfl fun e he => ?_
    rw [Finset.mem_antidiagonal] at he
    rw [nsmul_eq_mul, ← he, Nat.choose_symm_add]
    ring
  calc _ ≤ ∑ e ∈ Finset.antidiagonal m, ((e.1 + e.2).choose e.2 : ℝ) * a ^ e.1 * b ^ e.2 := by
        refine Finset.sum_le_sum_of_subset_of_nonneg ?_ fun e _ _ => by positivity
        intro e he
        exact Finset.mem_antidiagonal.2 (Finset.mem_filter.1 he).2
    _ = (a + b) ^ m := h1
    _ ≤ s ^ m := pow_le_pow_left₀ (by linarith) hs m

theorem sum_choose_tail {a b s : ℝ} (ha : 0 ≤ a) (hb : 0 ≤ b) (hs : a + b ≤ s) (h1 : s < 1) {n : Nat}
    (F : Finset (Nat × Nat)) (hF : ∀ e ∈ F, n ≤ e.1 + e.2) :
    ∑ e ∈ F, ((e.1 + e.2).choose e.2 : ℝ) * a ^ e.1 * b ^ e.2 ≤ tail s n := by
  have h0 : 0 ≤ s := by linarith
  set N := max n (F.sup (fun e => e.1 + e.2) + 1) with hN
  have := sum_choose_le ha hb hs (n := n) (N := N) F fun e he => ⟨hF e he, by
    have := Finset.le_sup (f := fun e : Nat × Nat => e.1 + e.2) he
    omega⟩
  refine this.trans ?_
  rw [← tail_split h1 (le_max_left n _ : n ≤ N)]
  linarith [tail_nonneg h0 h1 N]

/-- Error of the partial sum over a square. -/
theorem square_error {u v : ℂ} {s : ℝ} (hs : ‖u‖ + ‖v‖ ≤ s) (h1 : s < 1) (p : Nat) :
    ‖∑ k ∈ Finset.range (p + 1), ∑ l ∈ Finset.range (p + 1), ((k + l).choose l : ℂ) * u ^ k * v ^ l
      - (1 - u - v)⁻¹‖ ≤ tail s (p + 1) := by
  have h0 : 0 ≤ s := le_trans (by positivity) hs
  set w := u + v with hw
  have hwn : ‖w‖ ≤ s := (norm_add_le u v).trans hs
  have hw1 : (1 : ℂ) - w ≠ 0 := by
    intro h
    have : w = 1 := by linear_combination -h
    rw [this, norm_one] at hwn
    linarith
  set N := 2 * p + 1 with hN
  set T := (Finset.range N).biUnion Finset.antidiagonal with hT
  have hTm : ∀ e : Nat × Nat, e ∈ T ↔ e.1 + e.2 < N := by
    intro e
    simp [hT]
  set Q := Finset.range (p + 1) ×ˢ Finset.range (p + 1) with hQ
  have hQT : Q ⊆ T := by
    intro e he
    rw [hQ, Finset.mem_product, Finset.mem_range, Finset.mem_range] at he
    rw [hTm]
    omega
  have hpow : ∑ e ∈ T, ((e.1 + e.2).choose e.2 : ℂ) * u ^ e.1 * v ^ e.2 = ∑ m ∈ Finset.range N, w ^ m := by
    rw [hT, Finset.sum_biUnion]
    · refine Finset.sum_congr rfl fun m _ => ?_
      rw [hw, (Commute.all u v).add_pow']
      refine Finset.sum_congr rfl fun e he => ?_
      rw [Finset.mem_antidiagonal] at he
      rw [nsmul_eq_mul, ← he, Nat.choose_symm_add]
      ring
    · intro i _ j _ hij
      refine Finset.disjoint_left.2 fun e h1 h2 => hij ?_
      rw [← Finset.mem_antidiagonal.1 h1, ← Finset.mem_antidiagonal.1 h2]
  have hgeo : (1 - w)⁻¹ = ∑ m ∈ Finset.range N, w ^ m + w ^ N * (1 - w)⁻¹ := by
    have := mul_neg_geom_sum w N
    field_simp
    linear_combination -this
  have hsq : ∑ k ∈ Finset.range (p + 1), ∑ l ∈ Finset.range (p + 1),
      ((k + l).choose l : ℂ) * u ^ k * v ^ l =
      ∑ e ∈ Q, ((e.1 + e.2).choose e.2 : ℂ) * u ^ e.1 * v ^ e.2 := by
    rw [hQ, Finset.sum_product]
  have hdiff := Finset.sum_sdiff hQT (f := fun e : Nat × Nat =>
    ((e.1 + e.2).choose e.2 : ℂ) * u ^ e.1 * v ^ e.2)
  have e1 : (1 : ℂ) - u - v = 1 - w := by rw [hw]; ring
  have key : ∑ k ∈ Finset.range (p + 1), ∑ l ∈ Finset.range (p + 1),
      ((k + l).choose l : ℂ) * u ^ k * v ^ l - (1 - u - v)⁻¹ =
      -(∑ e ∈ T \ Q, ((e.1 + e.2).choose e.2 : ℂ) * u ^ e.1 * v ^ e.2) - w ^ N * (1 - w)⁻¹ := by
    rw [hsq, e1]
    linear_combination -hgeo + hdiff + hpow
  rw [key]
  have b1 : ‖∑ e ∈ T \ Q, ((e.1 + e.2).choose e.2 : ℂ) * u ^ e.1 * v ^ e.2‖ ≤
      ∑ m ∈ Finset.Ico (p + 1) N, s ^ m := by
    refine (norm_sum_le _ _).trans ?_
    refine le_trans (le_of_eq ?_) (sum_choose_le (norm_nonneg u) (norm_nonneg v) hs (T \ Q) ?_)
    · refine Finset.sum_congr rfl fun e _ => ?_
      rw [norm_mul, norm_mul, norm_pow, norm_pow, Complex.norm_natCast]
    · intro e he
      rw [Finset.mem_sdiff, hTm, hQ, Finset.mem_product, Finset.mem_range, Finset.mem_range] at he
      omega
  have b2 : ‖w ^ N * (1 - w)⁻¹‖ ≤ tail s N := by
    rw [norm_mul, norm_pow, norm_inv, tail, div_eq_mul_inv]
    have : 1 - s ≤ ‖1 - w‖ := by
      have := norm_sub_norm_le (1 : ℂ) w
      rw [norm_one] at this
      linarith
    exact mul_le_mul (pow_le_pow_left₀ (norm_nonneg _) hwn N) (inv_anti₀ (by linarith) this)
      (by positivity) (by positivity)
  rw [← tail_split h1 (show p + 1 ≤ N by omega)]
  refine (norm_sub_le _ _).trans ?_
  rw [norm_neg]
  exact add_le_add b1 b2

end Boxtree.Series
