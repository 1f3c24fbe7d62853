import Verif.Spec.LogLib
import Verif.Lemmas.CauchyError
import Verif.Lemmas.LogSeries

/-!
# Errors of truncated expansions of the logarithm

Multiplied with `k`, coefficient `k` of a multipole expansion of the logarithm is that of a multipole
expansion of the Cauchy kernel, so that `IsMP` says what is needed of it.  `IsRe`: the local expansion is
close to a polynomial of degree `p` whose real part is close to the field.
-/

namespace Boxtree.FmmLib
open Boxtree Series

/-- Factor between the expansions of the logarithm and of its derivative. -/
noncomputable def dfac (k : Nat) : ℂ := if k = 0 then -1 else k

/-- Coefficients of the derivative. -/
noncomputable def dcoef (v : List ℂ) : List ℂ := (List.range v.length).map fun k => dfac k * v.getD k 0

theorem length_dcoef (v : List ℂ) : (dcoef v).length = v.length := by simp [dcoef]

theorem getD_dcoef (v : List ℂ) (k : Nat) : (dcoef v).getD k 0 = dfac k * v.getD k 0 := by
  unfold dcoef
  by_cases h : k < v.length
  · rw [List.getD_eq_getElem?_getD, List.getElem?_map, List.getElem?_range h]
    rfl
  · rw [List.getD_eq_default _ _ (by simp; omega), List.getD_eq_default _ _ (by omega), mul_zero]

theorem dfac_ne (k : Nat) : dfac k ≠ 0 := by
  unfold dfac
  split
  · norm_num
  · rename_i h
    exact_mod_cast h

theorem dfac_form (z : ℂ) (k : Nat) : dfac k * logForm z k = -z ^ k := by
  unfold dfac logForm
  split
  · rename_i h
    simp [h]
  · rename_i h
    have : (k : ℂ) ≠ 0 := by exact_mod_cast h
    field_simp

theorem dfac_up (z : ℂ) (k j : Nat) : dfac k * logUp z k j = k.choose j * z ^ (k - j) * dfac j := by
  unfold dfac logUp
  by_cases hj : j = 0
  · by_cases hk : k = 0
    · simp [hj, hk]
    · have : (k : ℂ) ≠ 0 := by exact_mod_cast hk
      simp only [hj, hk, if_true, if_false, Nat.choose_zero_right, Nat.sub_zero, Nat.cast_one]
      field_simp
  · by_cases hk : k = 0
    · simp only [hj, hk, if_true, if_false, mul_zero]
      rw [Nat.choose_eq_zero_of_lt (by omega)]
      simp
    · simp only [hj, hk, if_false]
      obtain ⟨k', rfl⟩ := Nat.exists_eq_succ_of_ne_zero hk
      obtain ⟨j', rfl⟩ := Nat.exists_eq_succ_of_ne_zero hj
      have h : (((k' + 1 : ℕ) : ℂ)) * (k'.choose j' : ℂ) = ((k' + 1).choose (j' + 1) : ℂ) * ((j' + 1 : ℕ) : ℂ) := by
        exact_mod_cast Nat.add_one_mul_choose_eq k' j'
      simp only [Nat.succ_eq_add_one, Nat.add_sub_cancel]
      linear_combination z ^ (k' + 1 - (j' + 1)) * h

/-- The conversion, in terms of the coefficients of the derivative. -/
noncomputable def convN (z : ℂ) (l k : Nat) : ℂ :=
  ((k + l).choose l : ℂ) / ((k + l : ℕ) : ℂ) * (-1) ^ l / z ^ (k + l) +
    if k = 0 ∧ l = 0 then -lnC z else 0

theorem dfac_convert (z : ℂ) (l k : Nat) : logConvert z l k = convN z l k * dfac k := by
  unfold dfac convN logConvert
  by_cases hk : k = 0
  · by_cases hl : l = 0
    · simp [hl, hk]
    · have : (l : ℂ) ≠ 0 := by exact_mod_cast hl
      simp only [hk, hl, if_true, if_false, and_false, Nat.zero_add, Nat.choose_self, Nat.cast_one, add_zero]
      by_cases hz : z = 0
      · simp [hz, hl]
      field_simp
  · simp only [hk, if_false, false_and, add_zero]
    obtain ⟨k', rfl⟩ := Nat.exists_eq_succ_of_ne_zero hk
    have h : (((k' + 1 + l).choose l : ℕ) : ℂ) * ((k' + 1 : ℕ) : ℂ) =
        ((l + k').choose k' : ℂ) * ((k' + 1 + l : ℕ) : ℂ) := by
      have h1 := Nat.add_one_mul_choose_eq (l + k') k'
      have h2 : (k' + 1 + l).choose l = (l + k' + 1).choose (k' + 1) := by
        rw [show k' + 1 + l = l + k' + 1 by ring]
        exact (Nat.choose_symm_of_eq_add (by omega))
      have h3 : (k' + 1 + l).choose l * (k' + 1) = (l + k').choose k' * (k' + 1 + l) := by
        rw [h2, show k' + 1 + l = l + k' + 1 by ring]
        linarith
      exact_mod_cast h3
    have hne : ((k' + 1 + l : ℕ) : ℂ) ≠ 0 := by exact_mod_cast (by omega : k' + 1 + l ≠ 0)
    simp only [Nat.succ_eq_add_one, Nat.add_sub_cancel, show l + (k' + 1) - 1 = l + k' by omega]
    have e : (((k' + 1 + l).choose l : ℕ) : ℂ) / ((k' + 1 + l : ℕ) : ℂ) * ((k' + 1 : ℕ) : ℂ) =
        ((l + k').choose k' : ℂ) := by
      rw [div_mul_eq_mul_div, h, mul_div_cancel_right₀ _ hne]
    rw [← e]
    ring

/-- Local expansion about `c` of the field `f`, in the disk of radius `ρ`. -/
def IsRe (f : ℂ → ℝ) (c : ℂ) (p : Nat) (η ρ : ℝ) (r : ℂ) (u : List ℂ) : Prop :=
  p < u.length ∧ ∃ T : Nat → ℂ, (∀ l, p < l → T l = 0) ∧
    ∑ l ∈ Finset.range u.length, ‖u.getD l 0 / r ^ l - T l‖ * ρ ^ l ≤ η ∧
    ∀ y, ‖y - c‖ ≤ ρ → |(∑ l ∈ Finset.range (p + 1), T l * (y - c) ^ l).re - f y| ≤ η

/-- Field of the charge `q` at `x`. -/
noncomputable def logField (q : ℝ) (x y : ℂ) : ℝ := q * Real.log ‖y - x‖

theorem log_form {q : ℝ} {x c r : ℂ} {p n : Nat} {ρ : ℝ} (hr : r ≠ 0) (hp : p ≤ n) (hx : ‖x - c‖ ≤ ρ) :
    IsMP (-q : ℝ) x c p ρ r (dcoef (tab n fun k => (q : ℂ) * logForm (x - c) k / r ^ k)) := by
  have h := isMP_form (q := ((-q : ℝ) : ℂ)) hr hp hx
  have e : dcoef (tab n fun k => (q : ℂ) * logForm (x - c) k / r ^ k) =
      tab n fun k => ((-q : ℝ) : ℂ) * (x - c) ^ k / r ^ k := by
    refine ext_getD (by rw [length_dcoef, length_tab, length_tab]) fun k => ?_
    rw [getD_dcoef, getD_tab, getD_tab]
    split
    · have := dfac_form (x - c) k
      push_cast
      linear_combination (q : ℂ) / r ^ k * this
    · rw [mul_zero]
  rw [e]
  exact h

theorem log_up {q x c c' r r' : ℂ} {p n : Nat} {ρ d : ℝ} {v : List ℂ} (h : IsMP q x c p ρ r (dcoef v))
    (h0 : 0 ≤ ρ) (hr' : r' ≠ 0) (hp : p ≤ n) (hd : ‖c - c'‖ ≤ d) :
    IsMP q x c' p (ρ + d) r'
      (dcoef (linMap n (fun k j => logUp (c - c') k j * r ^ j / r' ^ k) v)) := by
  have h2 := isMP_shift h h0 hr' hp hd
  have e : dcoef (linMap n (fun k j => logUp (c - c') k j * r ^ j / r' ^ k) v) =
      linMap n (fun k j => k.choose j * r ^ j * (c - c') ^ (k - j) / r' ^ k) (dcoef v) := by
    refine ext_getD (by rw [length_dcoef]; simp only [linMap, length_tab]) fun k => ?_
    rw [getD_dcoef]
    simp only [linMap, getD_tab, length_dcoef]
    split
    · rw [Finset.mul_sum]
      refine Finset.sum_congr rfl fun j _ => ?_
      rw [getD_dcoef]
      have := dfac_up (c - c') k j
      linear_combination (r ^ j / r' ^ k * v.getD j 0) * this
    · rw [mul_zero]
  rw [e]
  exact h2

/-- Conversion of a multipole expansion of radius `ρs` to a local expansion of radius `ρ`. -/
theorem log_convert {q : ℝ} {x cs c r r' : ℂ} {p n : Nat} {ρs ρ s : ℝ} {v : List ℂ}
    (h : IsMP (-q : ℝ) x cs p ρs r (dcoef v)) (hx : ‖x - cs‖ ≤ ρs) (h0 : 0 ≤ ρ) (hR : c - cs ≠ 0)
    (hs : ρs + ρ ≤ s * ‖c - cs‖) (h1 : s < 1) (hp : p ≤ n) (hr' : r' ≠ 0) :
    IsRe (logField q x) c p (|q| * (tail s (p + 1) / (p + 1))) ρ r'
      (linMap n (fun l k => logConvert (c - cs) l k * r ^ k * r' ^ l) v) := by
  have hρs : 0 ≤ ρs := (norm_nonneg _).trans hx
  set R := c - cs with hRdef
  have hRn : 0 < ‖R‖ := norm_pos_iff.2 hR
  have hs' : ρs / ‖R‖ + ρ / ‖R‖ ≤ s := by
    rw [← add_div, div_le_iff₀ hRn]
    exact hs
  have hs0 : 0 ≤ s := le_trans (by positivity) hs'
  have hlen : (linMap n (fun l k => logConvert R l k * r ^ k * r' ^ l) v).length = n + 1 := length_tab _ _
  have hlong : p < v.length := by rw [← length_dcoef v]; exact h.long
  have hq : ‖((-q : ℝ) : ℂ)‖ = |q| := by rw [Complex.norm_real, Real.norm_eq_abs, abs_neg]
  set T : Nat → ℂ := fun l => if l ≤ p then ∑ k ∈ Finset.range (p + 1),
    convN R l k * (((-q : ℝ) : ℂ) * (x - cs) ^ k) else 0 with hT
  refine ⟨by rw [hlen]; omega, T, fun l hl => if_neg (by omega), ?_, ?_⟩
  · -- coefficients
    rw [hlen]
    have hdiff : ∀ l ∈ Finset.range (n + 1),
        ‖(linMap n (fun l k => logConvert R l k * r ^ k * r' ^ l) v).getD l 0 / r' ^ l - T l‖ * ρ ^ l ≤
        |q| * ∑ k ∈ Finset.range v.length, if k ≤ p ∧ l ≤ p then 0 else
          ((k + l).choose l : ℝ) / ((k + l : ℕ) : ℝ) * (ρs / ‖R‖) ^ k * (ρ / ‖R‖) ^ l := by
      intro l hl
      rw [Finset.mem_range] at hl
      have e : (linMap n (fun l k => logConvert R l k * r ^ k * r' ^ l) v).getD l 0 / r' ^ l - T l =
          ∑ k ∈ Finset.range v.length, convN R l k *
            (r ^ k * (dcoef v).getD k 0 - if k ≤ p ∧ l ≤ p then ((-q : ℝ) : ℂ) * (x - cs) ^ k else 0) := by
        have e1 : (linMap n (fun l k => logConvert R l k * r ^ k * r' ^ l) v).getD l 0 / r' ^ l =
            ∑ k ∈ Finset.range v.length, convN R l k * (r ^ k * (dcoef v).getD k 0) := by
          rw [linMap, getD_tab, if_pos (by omega), Finset.sum_div]
          refine Finset.sum_congr rfl fun k _ => ?_
          have := pow_ne_zero l hr'
          rw [dfac_convert, getD_dcoef]
          field_simp
        have e2 : T l = ∑ k ∈ Finset.range v.length, convN R l k *
            (if k ≤ p ∧ l ≤ p then ((-q : ℝ) : ℂ) * (x - cs) ^ k else 0) := by
          rw [hT]
          by_cases hlp : l ≤ p
          · simp only [hlp, if_true, and_true]
            rw [← sum_range_ite hlong]
            exact Finset.sum_congr rfl fun k _ => by split <;> simp
          · simp [hlp]
        rw [e1, e2, ← Finset.sum_sub_distrib]
        exact Finset.sum_congr rfl fun k _ => by rw [mul_sub]
      rw [e]
      refine (mul_le_mul_of_nonneg_right (norm_sum_le _ _) (pow_nonneg h0 l)).trans ?_
      rw [Finset.sum_mul, Finset.mul_sum]
      refine Finset.sum_le_sum fun k _ => ?_
      by_cases hh : k ≤ p ∧ l ≤ p
      · rw [if_pos hh, if_pos hh, h.exact k hh.1, sub_self, mul_zero, norm_zero, zero_mul, mul_zero]
      · rw [if_neg hh, if_neg hh, sub_zero, norm_mul]
        have hb := h.bound k
        rw [hq] at hb
        have hc : ‖convN R l k‖ = ((k + l).choose l : ℝ) / ((k + l : ℕ) : ℝ) / ‖R‖ ^ (k + l) := by
          unfold convN
          rw [if_neg (by omega), add_zero, norm_div, norm_mul, norm_div, norm_pow, norm_pow, norm_neg,
            norm_one, one_pow, mul_one, Complex.norm_natCast, Complex.norm_natCast]
        rw [hc]
        refine (mul_le_mul_of_nonneg_right (mul_le_mul_of_nonneg_left hb (by positivity))
          (pow_nonneg h0 l)).trans (le_of_eq ?_)
        rw [div_pow, div_pow, pow_add]
        field_simp
    refine (Finset.sum_le_sum hdiff).trans ?_
    rw [← Finset.mul_sum]
    refine mul_le_mul_of_nonneg_left ?_ (abs_nonneg q)
    rw [Finset.sum_comm, ← Finset.sum_product']
    set F := (Finset.range v.length ×ˢ Finset.range (n + 1)).filter
        fun e => ¬ (e.1 ≤ p ∧ e.2 ≤ p) with hF
    have hFm : ∀ e ∈ F, p + 1 ≤ e.1 + e.2 := fun e he => by
      have := (Finset.mem_filter.1 he).2
      omega
    have t1 := sum_choose_tail (a := ρs / ‖R‖) (b := ρ / ‖R‖) (by positivity) (by positivity) hs' h1
      (n := p + 1) F hFm
    have t2 := sum_choose_div_le (a := ρs / ‖R‖) (b := ρ / ‖R‖) (by positivity) (by positivity) F hFm
    refine le_trans (le_of_eq ?_) (t2.trans (div_le_div_of_nonneg_right t1 (by positivity)))
    rw [hF, Finset.sum_filter]
    refine Finset.sum_congr rfl fun e _ => ?_
    by_cases hh : e.1 ≤ p ∧ e.2 ≤ p
    · rw [if_pos hh, if_neg (not_not.2 hh)]
    · rw [if_neg hh, if_pos hh]
  · -- field
    intro y hy
    set a := (x - cs) / R with ha
    set b := -(y - c) / R with hb
    have hab : ‖a‖ + ‖b‖ ≤ s := by
      refine le_trans (add_le_add ?_ ?_) hs'
      · rw [ha, norm_div]
        exact div_le_div_of_nonneg_right hx hRn.le
      · rw [hb, norm_div, norm_neg]
        exact div_le_div_of_nonneg_right hy hRn.le
    have hyx : y - x = R * (1 - a - b) := by
      rw [ha, hb]
      field_simp
      rw [hRdef]
      ring
    have hne : (1 : ℂ) - a - b ≠ 0 := fun h3 => by
      have h4 : (1 : ℂ) = a + b := by linear_combination h3
      have h5 := norm_add_le a b
      rw [← h4, norm_one] at h5
      linarith
    have hsq := log_square_error hab h1 p
    set Sq := ∑ k ∈ Finset.range (p + 1), ∑ l ∈ Finset.range (p + 1),
        ((k + l).choose l : ℂ) / ((k + l : ℕ) : ℂ) * a ^ k * b ^ l with hSq
    have e : ∑ l ∈ Finset.range (p + 1), T l * (y - c) ^ l =
        ((-q : ℝ) : ℂ) * Sq + (q : ℂ) * lnC R := by
      have e1 : ∀ l ∈ Finset.range (p + 1), T l * (y - c) ^ l =
          ((-q : ℝ) : ℂ) * ∑ k ∈ Finset.range (p + 1),
            ((k + l).choose l : ℂ) / ((k + l : ℕ) : ℂ) * a ^ k * b ^ l +
          if l = 0 then (q : ℂ) * lnC R else 0 := by
        intro l hl
        rw [Finset.mem_range] at hl
        rw [hT]
        simp only [show l ≤ p by omega, if_true]
        have e2 : ∀ k ∈ Finset.range (p + 1), convN R l k * (((-q : ℝ) : ℂ) * (x - cs) ^ k) * (y - c) ^ l =
            ((-q : ℝ) : ℂ) * (((k + l).choose l : ℂ) / ((k + l : ℕ) : ℂ) * a ^ k * b ^ l) +
              if k = 0 then (if l = 0 then (q : ℂ) * lnC R else 0) else 0 := by
          intro k _
          have e3 : ((k + l).choose l : ℂ) / ((k + l : ℕ) : ℂ) * (-1) ^ l / R ^ (k + l) *
              (((-q : ℝ) : ℂ) * (x - cs) ^ k) * (y - c) ^ l =
              ((-q : ℝ) : ℂ) * (((k + l).choose l : ℂ) / ((k + l : ℕ) : ℂ) * a ^ k * b ^ l) := by
            rw [ha, hb, div_pow, div_pow, neg_pow (y - c) l, pow_add]
            field_simp
          unfold convN
          rw [add_mul, add_mul, e3]
          congr 1
          by_cases hk : k = 0
          · by_cases hl : l = 0
            · simp [hk, hl]
              ring
            · simp [hk, hl]
          · simp [hk]
        rw [Finset.sum_mul, Finset.sum_congr rfl e2, Finset.sum_add_distrib, ← Finset.mul_sum]
        congr 1
        rw [Finset.sum_ite_eq' (Finset.range (p + 1)) 0]
        simp
      rw [Finset.sum_congr rfl e1, Finset.sum_add_distrib, ← Finset.mul_sum, hSq, Finset.sum_comm]
      congr 1
      rw [Finset.sum_ite_eq' (Finset.range (p + 1)) 0]
      simp
    have e4 : (∑ l ∈ Finset.range (p + 1), T l * (y - c) ^ l).re - logField q x y =
        -q * (Sq + Complex.log (1 - a - b)).re := by
      rw [e, logField, hyx, norm_mul, Real.log_mul hRn.ne' (norm_ne_zero_iff.2 hne)]
      rw [Complex.add_re, Complex.re_ofReal_mul, Complex.re_ofReal_mul, lnC, Complex.ofReal_re,
        Complex.add_re, Complex.log_re]
      ring
    rw [e4, abs_mul, abs_neg]
    refine mul_le_mul_of_nonneg_left ?_ (abs_nonneg q)
    exact (Complex.abs_re_le_norm _).trans hsq

/-- Translation of a local expansion into a smaller disk. -/
theorem log_down {f : ℂ → ℝ} {c c' r r' : ℂ} {p n : Nat} {η ρ ρ' : ℝ} {u : List ℂ}
    (h : IsRe f c p η ρ r u) (h0 : 0 ≤ ρ') (hr' : r' ≠ 0) (hp : p ≤ n) (hd : ‖c' - c‖ + ρ' ≤ ρ) :
    IsRe f c' p η ρ' r'
      (linMap n (fun l m => m.choose l * (c' - c) ^ (m - l) / r ^ m * r' ^ l) u) := by
  obtain ⟨hlen, T, hT, h1, h2⟩ := h
  set δ := c' - c with hδ
  set T' : Nat → ℂ := fun l => ∑ m ∈ Finset.range u.length, (m.choose l : ℂ) * δ ^ (m - l) * T m with hT'
  have hT'0 : ∀ l, p < l → T' l = 0 := by
    intro l hl
    refine Finset.sum_eq_zero fun m _ => ?_
    by_cases hm : p < m
    · rw [hT m hm, mul_zero]
    · rw [Nat.choose_eq_zero_of_lt (by omega)]
      simp
  refine ⟨by rw [linMap, length_tab]; omega, T', hT'0, ?_, ?_⟩
  · rw [show (linMap n (fun l m => (m.choose l : ℂ) * δ ^ (m - l) / r ^ m * r' ^ l) u).length = n + 1
      from length_tab _ _]
    have hdiff : ∀ l ∈ Finset.range (n + 1), ‖(linMap n (fun l m => (m.choose l : ℂ) * δ ^ (m - l) /
        r ^ m * r' ^ l) u).getD l 0 / r' ^ l - T' l‖ * ρ' ^ l ≤
        ∑ m ∈ Finset.range u.length, ‖u.getD m 0 / r ^ m - T m‖ *
          ((m.choose l : ℝ) * ρ' ^ l * ‖δ‖ ^ (m - l)) := by
      intro l hl
      rw [Finset.mem_range] at hl
      have e : (linMap n (fun l m => (m.choose l : ℂ) * δ ^ (m - l) / r ^ m * r' ^ l) u).getD l 0 /
          r' ^ l - T' l = ∑ m ∈ Finset.range u.length, (m.choose l : ℂ) * δ ^ (m - l) *
            (u.getD m 0 / r ^ m - T m) := by
        rw [linMap, getD_tab, if_pos (by omega), Finset.sum_div, hT', ← Finset.sum_sub_distrib]
        refine Finset.sum_congr rfl fun m _ => ?_
        have := pow_ne_zero l hr'
        rw [mul_sub]
        congr 1
        field_simp
      rw [e]
      refine (mul_le_mul_of_nonneg_right (norm_sum_le _ _) (pow_nonneg h0 l)).trans ?_
      rw [Finset.sum_mul]
      refine Finset.sum_le_sum fun m _ => le_of_eq ?_
      rw [norm_mul, norm_mul, norm_pow, Complex.norm_natCast]
      ring
    refine (Finset.sum_le_sum hdiff).trans ?_
    rw [Finset.sum_comm]
    refine le_trans (Finset.sum_le_sum fun m _ => ?_) h1
    rw [← Finset.mul_sum]
    refine mul_le_mul_of_nonneg_left ?_ (norm_nonneg _)
    refine (sum_choose_real _ _ _ _ h0 (norm_nonneg _)).trans ?_
    exact pow_le_pow_left₀ (by positivity) (by linarith) m
  · intro y hy
    have hy' : ‖y - c‖ ≤ ρ := by
      have : y - c = (y - c') + δ := by rw [hδ]; ring
      rw [this]
      refine (norm_add_le _ _).trans ?_
      linarith
    have e : ∑ l ∈ Finset.range (p + 1), T' l * (y - c') ^ l =
        ∑ l ∈ Finset.range (p + 1), T l * (y - c) ^ l := by
      have e1 : ∀ l, T' l = ∑ m ∈ Finset.range (p + 1), (m.choose l : ℂ) * δ ^ (m - l) * T m := by
        intro l
        rw [hT']
        symm
        refine Finset.sum_subset (Finset.range_subset_range.2 (by omega)) fun m _ hm => ?_
        rw [Finset.mem_range] at hm
        rw [hT m (by omega), mul_zero]
      simp only [e1, Finset.sum_mul]
      rw [Finset.sum_comm]
      refine Finset.sum_congr rfl fun m hm => ?_
      rw [Finset.mem_range] at hm
      rw [show y - c = (y - c') + δ by rw [hδ]; ring, add_pow, Finset.mul_sum]
      symm
      refine Eq.trans ?_ (Finset.sum_subset (Finset.range_subset_range.2 (by omega : m + 1 ≤ p + 1))
        fun l _ hl => ?_)
      · exact Finset.sum_congr rfl fun l _ => by ring
      · rw [Finset.mem_range] at hl
        rw [Nat.choose_eq_zero_of_lt (by omega)]
        simp
    rw [e]
    exact h2 y hy'

/-- Value of a local expansion. -/
theorem log_taeval {f : ℂ → ℝ} {c r y : ℂ} {p : Nat} {η ρ : ℝ} {u : List ℂ} (h : IsRe f c p η ρ r u)
    (hy : ‖y - c‖ ≤ ρ) :
    |(linEval (fun l => (y - c) ^ l / r ^ l) u).re - f y| ≤ 2 * η := by
  obtain ⟨hlen, T, hT, h1, h2⟩ := h
  have g1 := h2 y hy
  have e : linEval (fun l => (y - c) ^ l / r ^ l) u =
      ∑ l ∈ Finset.range u.length, (u.getD l 0 / r ^ l - T l) * (y - c) ^ l +
        ∑ l ∈ Finset.range (p + 1), T l * (y - c) ^ l := by
    have e1 : ∑ l ∈ Finset.range (p + 1), T l * (y - c) ^ l =
        ∑ l ∈ Finset.range u.length, T l * (y - c) ^ l := by
      refine Finset.sum_subset (Finset.range_subset_range.2 (by omega)) fun m _ hm => ?_
      rw [Finset.mem_range] at hm
      rw [hT m (by omega), zero_mul]
    rw [e1, ← Finset.sum_add_distrib, linEval]
    exact Finset.sum_congr rfl fun l _ => by ring
  have b1 : ‖∑ l ∈ Finset.range u.length, (u.getD l 0 / r ^ l - T l) * (y - c) ^ l‖ ≤ η := by
    refine (norm_sum_le _ _).trans (le_trans (Finset.sum_le_sum fun l _ => ?_) h1)
    rw [norm_mul, norm_pow]
    exact mul_le_mul_of_nonneg_left (pow_le_pow_left₀ (norm_nonneg _) hy l) (norm_nonneg _)
  have b2 := (Complex.abs_re_le_norm _).trans b1
  rw [e, Complex.add_re, add_sub_assoc]
  refine (abs_add_le _ _).trans ?_
  linarith

/-- Value of a multipole expansion. -/
theorem log_mpeval {q : ℝ} {x c r y : ℂ} {p : Nat} {s ρ : ℝ} {v : List ℂ}
    (h : IsMP (-q : ℝ) x c p ρ r (dcoef v)) (hx : ‖x - c‖ ≤ ρ) (hy : y - c ≠ 0) (hs : ρ ≤ s * ‖y - c‖)
    (h1 : s < 1) :
    |(linEval (fun k => r ^ k * logBasis (y - c) k) v).re - logField q x y| ≤
      2 * (|q| * (tail s (p + 1) / (p + 1))) := by
  have h2 := log_convert h hx le_rfl hy (by rw [add_zero]; exact hs) h1 (le_refl p)
    (one_ne_zero : (1 : ℂ) ≠ 0)
  have h3 := log_taeval h2 (y := y) (by rw [sub_self, norm_zero])
  have e : linEval (fun l => (y - y) ^ l / (1 : ℂ) ^ l)
      (linMap p (fun l k => logConvert (y - c) l k * r ^ k * (1 : ℂ) ^ l) v) =
      linEval (fun k => r ^ k * logBasis (y - c) k) v := by
    rw [linEval, Finset.sum_eq_single 0]
    · rw [linMap, getD_tab, if_pos (Nat.zero_le _)]
      simp only [pow_zero, div_one, one_mul, mul_one, linEval]
      refine Finset.sum_congr rfl fun k _ => ?_
      unfold logConvert logBasis
      by_cases hk : k = 0
      · simp [hk]
      · simp only [hk, if_false, Nat.zero_add, Nat.choose_self, Nat.cast_one, pow_zero, mul_one, add_zero]
        ring
    · intro l _ hl
      rw [sub_self, zero_pow hl]
      simp
    · intro h
      simp [linMap, length_tab] at h
  rw [e] at h3
  exact h3

/-- Local expansion formed from a source. -/
theorem log_formta {q : ℝ} {x c r' : ℂ} {p n : Nat} {s ρ : ℝ} (h0 : 0 ≤ ρ) (hR : c - x ≠ 0)
    (hs : ρ ≤ s * ‖c - x‖) (h1 : s < 1) (hp : p ≤ n) (hr' : r' ≠ 0) :
    IsRe (logField q x) c p (|q| * (tail s (p + 1) / (p + 1))) ρ r'
      (tab n fun l => (q : ℂ) * logTaylor (c - x) l * r' ^ l) := by
  have h := log_form (q := q) (x := x) (c := x) (p := p) (one_ne_zero : (1 : ℂ) ≠ 0) (le_refl p)
    (ρ := 0) (by rw [sub_self, norm_zero])
  have h2 := log_convert h (by rw [sub_self, norm_zero]) h0 hR (by rw [zero_add]; exact hs) h1 hp hr'
  have e : linMap n (fun l k => logConvert (c - x) l k * (1 : ℂ) ^ k * r' ^ l)
      (tab p fun k => (q : ℂ) * logForm (x - x) k / 1 ^ k) =
      tab n fun l => (q : ℂ) * logTaylor (c - x) l * r' ^ l := by
    unfold linMap
    congr 1
    funext l
    rw [Finset.sum_eq_single 0]
    · rw [getD_tab, if_pos (Nat.zero_le _)]
      simp only [logForm, logConvert, logTaylor, if_true, pow_zero, mul_one, div_one]
      ring
    · intro k _ hk
      rw [getD_tab]
      split
      · simp [logForm, hk]
      · simp
    · intro h
      simp [length_tab] at h
  rw [e] at h2
  exact h2

end Boxtree.FmmLib
