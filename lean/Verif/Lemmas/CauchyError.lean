import Verif.Lemmas.CauchyLib

/-!
# Errors of truncated expansions of the Cauchy kernel

`IsMP`: the first `p + 1` coefficients are exact, the others bounded.  `IsLoc`: the expansion is close
to a polynomial of degree `p`, which is close to the field.  Both are kept by the translations between
levels without any loss, so that the error of a chain is that of its only conversion.
-/

namespace Boxtree.FmmLib
open Boxtree Series

theorem sum_range_ite {N p : Nat} (h : p < N) (f : Nat → ℂ) :
    ∑ k ∈ Finset.range N, (if k ≤ p then f k else 0) = ∑ k ∈ Finset.range (p + 1), f k := by
  rw [← Finset.sum_filter]
  refine Finset.sum_congr ?_ fun _ _ => rfl
  ext k
  simp only [Finset.mem_filter, Finset.mem_range]
  omega

theorem sum_choose_real (N k : Nat) (a b : ℝ) (ha : 0 ≤ a) (hb : 0 ≤ b) :
    ∑ j ∈ Finset.range N, (k.choose j : ℝ) * a ^ j * b ^ (k - j) ≤ (a + b) ^ k := by
  rw [add_pow]
  calc _ ≤ ∑ j ∈ Finset.range (N + (k + 1)), (k.choose j : ℝ) * a ^ j * b ^ (k - j) :=
        Finset.sum_le_sum_of_subset_of_nonneg (Finset.range_subset_range.2 (by omega))
          fun j _ _ => by positivity
    _ = ∑ j ∈ Finset.range (k + 1), (k.choose j : ℝ) * a ^ j * b ^ (k - j) := by
        symm
        refine Finset.sum_subset (Finset.range_subset_range.2 (by omega)) fun j _ hj => ?_
        rw [Finset.mem_range] at hj
        rw [Nat.choose_eq_zero_of_lt (by omega)]
        simp
    _ = _ := Finset.sum_congr rfl fun j _ => by ring
    _ ≤ _ := le_refl _

/-- Multipole expansion of the source `q` at `x` about `c`, exact up to coefficient `p`. -/
structure IsMP (q x c : ℂ) (p : Nat) (ρ : ℝ) (r : ℂ) (v : List ℂ) : Prop where
  long : p < v.length
  exact : ∀ k ≤ p, r ^ k * v.getD k 0 = q * (x - c) ^ k
  bound : ∀ k, ‖r ^ k * v.getD k 0‖ ≤ ‖q‖ * ρ ^ k

/-- Local expansion about `c` of the field of the source `q` at `x`, in the disk of radius `ρ`. -/
def IsLoc (q x c : ℂ) (p : Nat) (s ρ : ℝ) (r : ℂ) (u : List ℂ) : Prop :=
  p < u.length ∧ ∃ (T : Nat → ℂ) (η : ℝ), (∀ l, p < l → T l = 0) ∧
    ∑ l ∈ Finset.range u.length, ‖u.getD l 0 / r ^ l - T l‖ * ρ ^ l ≤ η ∧
    ∀ y, ‖y - c‖ ≤ ρ →
      ‖∑ l ∈ Finset.range (p + 1), T l * (y - c) ^ l - q / (y - x)‖ ≤ η ∧
      η ≤ (1 + s) * tail s (p + 1) * (‖q‖ / ‖y - x‖)

theorem isMP_form {q x c r : ℂ} {p n : Nat} {ρ : ℝ} (hr : r ≠ 0) (hp : p ≤ n) (hx : ‖x - c‖ ≤ ρ) :
    IsMP q x c p ρ r (tab n fun k => q * (x - c) ^ k / r ^ k) := by
  have h0 : 0 ≤ ρ := (norm_nonneg _).trans hx
  refine ⟨by rw [length_tab]; omega, fun k hk => ?_, fun k => ?_⟩
  · rw [getD_tab, if_pos (by omega)]
    field_simp
  · rw [getD_tab]
    split
    · rw [mul_div_cancel₀ _ (pow_ne_zero k hr), norm_mul, norm_pow]
      exact mul_le_mul_of_nonneg_left (pow_le_pow_left₀ (norm_nonneg _) hx k) (norm_nonneg _)
    · rw [mul_zero, norm_zero]
      positivity

theorem isMP_shift {q x c c' r r' : ℂ} {p n : Nat} {ρ d : ℝ} {v : List ℂ} (h : IsMP q x c p ρ r v)
    (h0 : 0 ≤ ρ) (hr' : r' ≠ 0) (hp : p ≤ n) (hd : ‖c - c'‖ ≤ d) :
    IsMP q x c' p (ρ + d) r'
      (linMap n (fun k j => k.choose j * r ^ j * (c - c') ^ (k - j) / r' ^ k) v) := by
  have hd0 : 0 ≤ d := (norm_nonneg _).trans hd
  have e : ∀ k, k ≤ n → r' ^ k *
      (linMap n (fun k j => k.choose j * r ^ j * (c - c') ^ (k - j) / r' ^ k) v).getD k 0 =
      ∑ j ∈ Finset.range v.length, (k.choose j : ℂ) * (r ^ j * v.getD j 0) * (c - c') ^ (k - j) := by
    intro k hk
    rw [linMap, getD_tab, if_pos hk, Finset.mul_sum]
    refine Finset.sum_congr rfl fun j _ => ?_
    have := pow_ne_zero k hr'
    field_simp
  refine ⟨by rw [linMap, length_tab]; omega, fun k hk => ?_, fun k => ?_⟩
  · rw [e k (by omega)]
    have h1 : ∑ j ∈ Finset.range v.length,
        (k.choose j : ℂ) * (r ^ j * v.getD j 0) * (c - c') ^ (k - j) =
        ∑ j ∈ Finset.range (k + 1), (k.choose j : ℂ) * (r ^ j * v.getD j 0) * (c - c') ^ (k - j) := by
      symm
      have := h.long
      refine Finset.sum_subset (Finset.range_subset_range.2 (by omega)) fun j _ hj => ?_
      rw [Finset.mem_range] at hj
      rw [Nat.choose_eq_zero_of_lt (by omega)]
      simp
    rw [h1, show x - c' = (x - c) + (c - c') by ring, add_pow, Finset.mul_sum]
    refine Finset.sum_congr rfl fun j hj => ?_
    rw [Finset.mem_range] at hj
    rw [h.exact j (by omega)]
    ring
  · by_cases hk : k ≤ n
    · rw [e k hk]
      refine (norm_sum_le _ _).trans ?_
      calc _ ≤ ∑ j ∈ Finset.range v.length, ‖q‖ * ((k.choose j : ℝ) * ρ ^ j * d ^ (k - j)) := by
            refine Finset.sum_le_sum fun j _ => ?_
            rw [norm_mul, norm_mul, norm_pow, Complex.norm_natCast]
            have h1 := h.bound j
            have h2 : ‖c - c'‖ ^ (k - j) ≤ d ^ (k - j) := pow_le_pow_left₀ (norm_nonneg _) hd _
            calc _ ≤ (k.choose j : ℝ) * (‖q‖ * ρ ^ j) * d ^ (k - j) := by gcongr
              _ = _ := by ring
        _ ≤ _ := by
            rw [← Finset.mul_sum]
            exact mul_le_mul_of_nonneg_left (sum_choose_real _ _ _ _ h0 hd0) (norm_nonneg _)
    · rw [linMap, getD_tab, if_neg hk, mul_zero, norm_zero]
      positivity

/-- Conversion of a multipole expansion of radius `ρs` to a local expansion of radius `ρ`. -/
theorem isLoc_convert {q x cs c r r' : ℂ} {p n : Nat} {ρs ρ s : ℝ} {v : List ℂ}
    (h : IsMP q x cs p ρs r v) (hx : ‖x - cs‖ ≤ ρs) (h0 : 0 ≤ ρ) (hR : c - cs ≠ 0)
    (hs : ρs + ρ ≤ s * ‖c - cs‖) (h1 : s < 1) (hp : p ≤ n) (hr' : r' ≠ 0) :
    IsLoc q x c p s ρ r' (linMap n (fun l k => (k + l).choose l * r ^ k * (-1) ^ l /
      (c - cs) ^ (k + l + 1) * r' ^ l) v) := by
  have hρs : 0 ≤ ρs := (norm_nonneg _).trans hx
  set R := c - cs with hRdef
  have hRn : 0 < ‖R‖ := norm_pos_iff.2 hR
  have hs' : ρs / ‖R‖ + ρ / ‖R‖ ≤ s := by
    rw [← add_div, div_le_iff₀ hRn]
    exact hs
  have hs0 : 0 ≤ s := le_trans (by positivity) hs'
  set T : Nat → ℂ := fun l => if l ≤ p then ∑ k ∈ Finset.range (p + 1),
    (k + l).choose l * (-1) ^ l / R ^ (k + l + 1) * (q * (x - cs) ^ k) else 0 with hT
  refine ⟨by rw [linMap, length_tab]; omega, T, ‖q‖ / ‖R‖ * tail s (p + 1),
    fun l hl => if_neg (by omega), ?_, ?_⟩
  · -- coefficients
    rw [show (linMap n (fun l k => ((k + l).choose l : ℂ) * r ^ k * (-1) ^ l / R ^ (k + l + 1) *
      r' ^ l) v).length = n + 1 from length_tab _ _]
    have hdiff : ∀ l ∈ Finset.range (n + 1), ‖(linMap n (fun l k => ((k + l).choose l : ℂ) * r ^ k *
        (-1) ^ l / R ^ (k + l + 1) * r' ^ l) v).getD l 0 / r' ^ l - T l‖ * ρ ^ l ≤
        ‖q‖ / ‖R‖ * ∑ k ∈ Finset.range v.length, if k ≤ p ∧ l ≤ p then 0 else
          ((k + l).choose l : ℝ) * (ρs / ‖R‖) ^ k * (ρ / ‖R‖) ^ l := by
      intro l hl
      rw [Finset.mem_range] at hl
      have e : (linMap n (fun l k => ((k + l).choose l : ℂ) * r ^ k *
          (-1) ^ l / R ^ (k + l + 1) * r' ^ l) v).getD l 0 / r' ^ l - T l =
          ∑ k ∈ Finset.range v.length, ((k + l).choose l : ℂ) * (-1) ^ l / R ^ (k + l + 1) *
            (r ^ k * v.getD k 0 - if k ≤ p ∧ l ≤ p then q * (x - cs) ^ k else 0) := by
        have e1 : (linMap n (fun l k => ((k + l).choose l : ℂ) * r ^ k *
            (-1) ^ l / R ^ (k + l + 1) * r' ^ l) v).getD l 0 / r' ^ l =
            ∑ k ∈ Finset.range v.length, ((k + l).choose l : ℂ) * (-1) ^ l / R ^ (k + l + 1) *
              (r ^ k * v.getD k 0) := by
          rw [linMap, getD_tab, if_pos (by omega), Finset.sum_div]
          refine Finset.sum_congr rfl fun k _ => ?_
          have := pow_ne_zero l hr'
          field_simp
        have e2 : T l = ∑ k ∈ Finset.range v.length, ((k + l).choose l : ℂ) * (-1) ^ l /
            R ^ (k + l + 1) * (if k ≤ p ∧ l ≤ p then q * (x - cs) ^ k else 0) := by
          rw [hT]
          by_cases hlp : l ≤ p
          · simp only [hlp, if_true, and_true]
            rw [← sum_range_ite h.long]
            exact Finset.sum_congr rfl fun k _ => by split <;> simp
          · simp [hlp]
        rw [e1, e2, ← Finset.sum_sub_distrib]
        exact Finset.sum_congr rfl fun k _ => by rw [mul_sub]
      rw [e]
      refine (mul_le_mul_of_nonneg_right (norm_sum_le _ _) (pow_nonneg h0 l)).trans ?_
      rw [Finset.sum_mul, Finset.mul_sum]
      refine Finset.sum_le_sum fun k _ => ?_
      have hb : ‖r ^ k * v.getD k 0 - if k ≤ p ∧ l ≤ p then q * (x - cs) ^ k else 0‖ ≤
          if k ≤ p ∧ l ≤ p then 0 else ‖q‖ * ρs ^ k := by
        split
        · rename_i hh
          rw [h.exact k hh.1, sub_self, norm_zero]
        · rw [sub_zero]
          exact h.bound k
      rw [norm_mul, norm_div, norm_mul, norm_pow, norm_pow, norm_neg, norm_one, one_pow, mul_one,
        Complex.norm_natCast]
      refine (mul_le_mul_of_nonneg_right (mul_le_mul_of_nonneg_left hb (by positivity))
        (pow_nonneg h0 l)).trans (le_of_eq ?_)
      split
      · ring
      · rw [div_pow, div_pow, pow_succ, pow_add]
        field_simp
    refine (Finset.sum_le_sum hdiff).trans ?_
    rw [← Finset.mul_sum]
    refine mul_le_mul_of_nonneg_left ?_ (by positivity)
    rw [Finset.sum_comm, ← Finset.sum_product', ]
    have := sum_choose_tail (a := ρs / ‖R‖) (b := ρ / ‖R‖) (by positivity) (by positivity) hs' h1
      (n := p + 1) ((Finset.range v.length ×ˢ Finset.range (n + 1)).filter
        fun e => ¬ (e.1 ≤ p ∧ e.2 ≤ p)) (fun e he => by
          have := (Finset.mem_filter.1 he).2
          omega)
    rw [Finset.sum_filter] at this
    refine le_trans (le_of_eq ?_) this
    refine Finset.sum_congr rfl fun e _ => ?_
    by_cases hh : e.1 ≤ p ∧ e.2 ≤ p
    · rw [if_pos hh, if_neg (not_not.2 hh)]
    · rw [if_neg hh, if_pos hh]
  · -- field
    intro y hy
    set a := (x - cs) / R with ha
    set b := -(y - c) / R with hb
    have hab : ‖a‖ + ‖b‖ ≤ s := by
      refine le_trans (add_le_add ?_ ?_) hs'
      · rw [ha, norm_div]
        exact div_le_div_of_nonneg_right hx hRn.le
      · rw [hb, norm_div, norm_neg]
        exact div_le_div_of_nonneg_right hy hRn.le
    have hyx : y - x = R * (1 - a - b) := by
      rw [ha, hb]
      field_simp
      rw [hRdef]
      ring
    have hsq := square_error hab h1 p
    constructor
    · have e : ∑ l ∈ Finset.range (p + 1), T l * (y - c) ^ l - q / (y - x) =
          q / R * (∑ k ∈ Finset.range (p + 1), ∑ l ∈ Finset.range (p + 1),
            ((k + l).choose l : ℂ) * a ^ k * b ^ l - (1 - a - b)⁻¹) := by
        have e1 : q / (R * (1 - a - b)) = q / R * (1 - a - b)⁻¹ := by
          rw [div_mul_eq_div_mul_one_div, one_div]
        rw [mul_sub, hyx, e1, Finset.sum_comm, Finset.mul_sum]
        congr 1
        refine Finset.sum_congr rfl fun l hl => ?_
        rw [Finset.mem_range] at hl
        rw [hT]
        simp only [show l ≤ p by omega, if_true]
        rw [Finset.sum_mul, Finset.mul_sum]
        refine Finset.sum_congr rfl fun k _ => ?_
        rw [ha, hb, div_pow, div_pow, neg_pow (y - c) l, pow_succ, pow_add]
        field_simp
      rw [e, norm_mul, norm_div]
      exact mul_le_mul_of_nonneg_left hsq (by positivity)
    · have hle : ‖y - x‖ ≤ (1 + s) * ‖R‖ := by
        rw [hyx, norm_mul, mul_comm]
        refine mul_le_mul_of_nonneg_right ?_ hRn.le
        refine (norm_sub_le _ _).trans ?_
        have := norm_sub_le (1 : ℂ) a
        rw [norm_one] at this
        linarith
      have hpos : 0 < ‖y - x‖ := by
        rw [hyx, norm_mul]
        refine mul_pos hRn (norm_pos_iff.2 fun h3 => ?_)
        have h4 : (1 : ℂ) = a + b := by linear_combination h3
        have h5 := norm_add_le a b
        rw [← h4, norm_one] at h5
        linarith
      have ht := tail_nonneg hs0 h1 (p + 1)
      have : ‖q‖ / ‖R‖ ≤ (1 + s) * (‖q‖ / ‖y - x‖) := by
        rw [← mul_div_assoc, div_le_div_iff₀ hRn hpos]
        nlinarith [norm_nonneg q]
      calc _ ≤ (1 + s) * (‖q‖ / ‖y - x‖) * tail s (p + 1) := mul_le_mul_of_nonneg_right this ht
        _ = _ := by ring

/-- Translation of a local expansion into a smaller disk. -/
theorem isLoc_shift {q x c c' r r' : ℂ} {p n : Nat} {s ρ ρ' : ℝ} {u : List ℂ}
    (h : IsLoc q x c p s ρ r u) (h0 : 0 ≤ ρ') (hr' : r' ≠ 0) (hp : p ≤ n)
    (hd : ‖c' - c‖ + ρ' ≤ ρ) :
    IsLoc q x c' p s ρ' r'
      (linMap n (fun l m => m.choose l * (c' - c) ^ (m - l) / r ^ m * r' ^ l) u) := by
  obtain ⟨hlen, T, η, hT, h1, h2⟩ := h
  set δ := c' - c with hδ
  set T' : Nat → ℂ := fun l => ∑ m ∈ Finset.range u.length, (m.choose l : ℂ) * δ ^ (m - l) * T m with hT'
  have hT'0 : ∀ l, p < l → T' l = 0 := by
    intro l hl
    refine Finset.sum_eq_zero fun m _ => ?_
    by_cases hm : p < m
    · rw [hT m hm, mul_zero]
    · rw [Nat.choose_eq_zero_of_lt (by omega)]
      simp
  refine ⟨by rw [linMap, length_tab]; omega, T', η, hT'0, ?_, ?_⟩
  · rw [show (linMap n (fun l m => (m.choose l : ℂ) * δ ^ (m - l) / r ^ m * r' ^ l) u).length = n + 1
      from length_tab _ _]
    have hdiff : ∀ l ∈ Finset.range (n + 1), ‖(linMap n (fun l m => (m.choose l : ℂ) * δ ^ (m - l) /
        r ^ m * r' ^ l) u).getD l 0 / r' ^ l - T' l‖ * ρ' ^ l ≤
        ∑ m ∈ Finset.range u.length, ‖u.getD m 0 / r ^ m - T m‖ *
          ((m.choose l : ℝ) * ρ' ^ l * ‖δ‖ ^ (m - l)) := by
      intro l hl
      rw [Finset.mem_range] at hl
      have e : (linMap n (fun l m => (m.choose l : ℂ) * δ ^ (m - l) / r ^ m * r' ^ l) u).getD l 0 /
          r' ^ l - T' l = ∑ m ∈ Finset.range u.length, (m.choose l : ℂ) * δ ^ (m - l) *
            (u.getD m 0 / r ^ m - T m) := by
        rw [linMap, getD_tab, if_pos (by omega), Finset.sum_div, hT', ← Finset.sum_sub_distrib]
        refine Finset.sum_congr rfl fun m _ => ?_
        have := pow_ne_zero l hr'
        rw [mul_sub]
        congr 1
        field_simp
      rw [e]
      refine (mul_le_mul_of_nonneg_right (norm_sum_le _ _) (pow_nonneg h0 l)).trans ?_
      rw [Finset.sum_mul]
      refine Finset.sum_le_sum fun m _ => le_of_eq ?_
      rw [norm_mul, norm_mul, norm_pow, Complex.norm_natCast]
      ring
    refine (Finset.sum_le_sum hdiff).trans ?_
    rw [Finset.sum_comm]
    refine le_trans (Finset.sum_le_sum fun m _ => ?_) h1
    rw [← Finset.mul_sum]
    refine mul_le_mul_of_nonneg_left ?_ (norm_nonneg _)
    refine (sum_choose_real _ _ _ _ h0 (norm_nonneg _)).trans ?_
    exact pow_le_pow_left₀ (by positivity) (by linarith) m
  · intro y hy
    have hy' : ‖y - c‖ ≤ ρ := by
      have : y - c = (y - c') + δ := by rw [hδ]; ring
      rw [this]
      refine (norm_add_le _ _).trans ?_
      linarith
    obtain ⟨g1, g2⟩ := h2 y hy'
    refine ⟨?_, g2⟩
    have e : ∑ l ∈ Finset.range (p + 1), T' l * (y - c') ^ l =
        ∑ l ∈ Finset.range (p + 1), T l * (y - c) ^ l := by
      have e1 : ∀ l, T' l = ∑ m ∈ Finset.range (p + 1), (m.choose l : ℂ) * δ ^ (m - l) * T m := by
        intro l
        rw [hT']
        symm
        refine Finset.sum_subset (Finset.range_subset_range.2 (by omega)) fun m _ hm => ?_
        rw [Finset.mem_range] at hm
        rw [hT m (by omega), mul_zero]
      simp only [e1, Finset.sum_mul]
      rw [Finset.sum_comm]
      refine Finset.sum_congr rfl fun m hm => ?_
      rw [Finset.mem_range] at hm
      rw [show y - c = (y - c') + δ by rw [hδ]; ring, add_pow, Finset.mul_sum]
      symm
      refine Eq.trans ?_ (Finset.sum_subset (Finset.range_subset_range.2 (by omega : m + 1 ≤ p + 1))
        fun l _ hl => ?_)
      · exact Finset.sum_congr rfl fun l _ => by ring
      · rw [Finset.mem_range] at hl
        rw [Nat.choose_eq_zero_of_lt (by omega)]
        simp
    rw [e]
    exact g1

/-- Value of a local expansion. -/
theorem isLoc_eval {q x c r y : ℂ} {p : Nat} {s ρ : ℝ} {u : List ℂ} (h : IsLoc q x c p s ρ r u)
    (hy : ‖y - c‖ ≤ ρ) :
    ‖linEval (fun l => (y - c) ^ l / r ^ l) u - q / (y - x)‖ ≤
      2 * (1 + s) * tail s (p + 1) * (‖q‖ / ‖y - x‖) := by
  obtain ⟨hlen, T, η, hT, h1, h2⟩ := h
  obtain ⟨g1, g2⟩ := h2 y hy
  have e : linEval (fun l => (y - c) ^ l / r ^ l) u - q / (y - x) =
      ∑ l ∈ Finset.range u.length, (u.getD l 0 / r ^ l - T l) * (y - c) ^ l +
        (∑ l ∈ Finset.range (p + 1), T l * (y - c) ^ l - q / (y - x)) := by
    have e1 : ∑ l ∈ Finset.range (p + 1), T l * (y - c) ^ l =
        ∑ l ∈ Finset.range u.length, T l * (y - c) ^ l := by
      refine Finset.sum_subset (Finset.range_subset_range.2 (by omega)) fun m _ hm => ?_
      rw [Finset.mem_range] at hm
      rw [hT m (by omega), zero_mul]
    rw [e1, ← add_sub_assoc, ← Finset.sum_add_distrib, linEval]
    congr 1
    exact Finset.sum_congr rfl fun l _ => by ring
  rw [e]
  refine (norm_add_le _ _).trans ?_
  have b1 : ‖∑ l ∈ Finset.range u.length, (u.getD l 0 / r ^ l - T l) * (y - c) ^ l‖ ≤ η := by
    refine (norm_sum_le _ _).trans (le_trans (Finset.sum_le_sum fun l _ => ?_) h1)
    rw [norm_mul, norm_pow]
    exact mul_le_mul_of_nonneg_left (pow_le_pow_left₀ (norm_nonneg _) hy l) (norm_nonneg _)
  linarith

/-- Value of a multipole expansion. -/
theorem isMP_eval {q x c r y : ℂ} {p : Nat} {s ρ : ℝ} {v : List ℂ} (h : IsMP q x c p ρ r v)
    (hx : ‖x - c‖ ≤ ρ) (hy : y - c ≠ 0) (hs : ρ ≤ s * ‖y - c‖) (h1 : s < 1) :
    ‖linEval (fun k => r ^ k / (y - c) ^ (k + 1)) v - q / (y - x)‖ ≤
      2 * (1 + s) * tail s (p + 1) * (‖q‖ / ‖y - x‖) := by
  have h2 := isLoc_convert h hx le_rfl hy (by rw [add_zero]; exact hs) h1 (le_refl p)
    (one_ne_zero : (1 : ℂ) ≠ 0)
  have h3 := isLoc_eval h2 (y := y) (by rw [sub_self, norm_zero])
  have e : linEval (fun l => (y - y) ^ l / (1 : ℂ) ^ l) (linMap p (fun l k => (k + l).choose l * r ^ k *
      (-1) ^ l / (y - c) ^ (k + l + 1) * (1 : ℂ) ^ l) v) =
      linEval (fun k => r ^ k / (y - c) ^ (k + 1)) v := by
    rw [linEval, Finset.sum_eq_single 0]
    · rw [linMap, getD_tab, if_pos (Nat.zero_le _)]
      simp [linEval]
    · intro l _ hl
      rw [sub_self, zero_pow hl]
      simp
    · intro h
      simp [linMap, length_tab] at h
  rw [e] at h3
  exact h3

/-- Local expansion formed from a source. -/
theorem isLoc_form {q x c r' : ℂ} {p n : Nat} {s ρ : ℝ} (h0 : 0 ≤ ρ) (hR : c - x ≠ 0)
    (hs : ρ ≤ s * ‖c - x‖) (h1 : s < 1) (hp : p ≤ n) (hr' : r' ≠ 0) :
    IsLoc q x c p s ρ r' (tab n fun l => q * (-1) ^ l / (c - x) ^ (l + 1) * r' ^ l) := by
  have h : IsMP q x x p 0 1 (tab p fun k => q * (x - x) ^ k / 1 ^ k) :=
    isMP_form one_ne_zero le_rfl (by rw [sub_self, norm_zero])
  have h2 := isLoc_convert h (by rw [sub_self, norm_zero]) h0 hR (by rw [zero_add]; exact hs) h1 hp hr'
  have e : linMap n (fun l k => (k + l).choose l * (1 : ℂ) ^ k * (-1) ^ l /
      (c - x) ^ (k + l + 1) * r' ^ l) (tab p fun k => q * (x - x) ^ k / 1 ^ k) =
      tab n fun l => q * (-1) ^ l / (c - x) ^ (l + 1) * r' ^ l := by
    unfold linMap
    congr 1
    funext l
    rw [Finset.sum_eq_single 0]
    · rw [getD_tab, if_pos (Nat.zero_le _)]
      simp
      ring
    · intro k _ hk
      rw [getD_tab]
      split
      · rw [sub_self, zero_pow hk]
        simp
      · simp
    · intro h
      simp [length_tab] at h
  rw [e] at h2
  exact h2

end Boxtree.FmmLib
