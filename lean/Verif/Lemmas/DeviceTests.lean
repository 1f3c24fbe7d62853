import Verif.Spec.DeviceTests
import Verif.Lemmas.Criteria
import Verif.Lemmas.Rounding
import Mathlib.Tactic.Positivity

/-! The geometric tests in floating point arithmetic. -/

set_option linter.unusedVariables false

namespace Boxtree
open BoxTree Build

variable {t : BoxTree} {fl rt : ℚ → ℚ} {u M : ℚ} {c0 : Nat → ℚ}

theorem Build.Rounds.u_nonneg (h : Rounds fl u) : 0 ≤ u := by
  have := h.err 1
  rw [abs_one, mul_one] at this
  exact (abs_nonneg _).trans this

/-- rounding a value that is known up to `e` -/
theorem Build.Rounds.near (h : Rounds fl u) {x x' e B : ℚ} (hx : |x' - x| ≤ e) (hB : |x| ≤ B) :
    |fl x' - x| ≤ e + u * (B + e) := by
  have h1 := h.err x'
  have h2 : |x'| ≤ B + e := by
    have : x' = x + (x' - x) := by ring
    rw [this]
    exact (abs_add_le _ _).trans (add_le_add hB hx)
  have h3 : |fl x' - x| ≤ |fl x' - x'| + |x' - x| := abs_sub_le _ _ _
  have h4 := mul_le_mul_of_nonneg_left h2 h.u_nonneg
  linarith

theorem Build.Rounds.pos_le (h : Rounds fl u) {x y : ℚ} (hx : 0 ≤ x) (hy : x ≤ y) :
    fl x ≤ (1 + u) * y := by
  have h1 := h.err x
  rw [abs_of_nonneg hx, abs_le] at h1
  have h2 : (1 + u) * x ≤ (1 + u) * y := mul_le_mul_of_nonneg_left hy (by linarith [h.u_nonneg])
  linarith [h1.2]

theorem Build.Rounds.pos_ge (h : Rounds fl u) {x y : ℚ} (hy : 0 ≤ y) (hx : y ≤ x) :
    (1 - u) * y ≤ fl x := by
  have h1 := h.err x
  rw [abs_of_nonneg (hy.trans hx), abs_le] at h1
  have h2 : (1 - u) * y ≤ (1 - u) * x := mul_le_mul_of_nonneg_left hx (by linarith [h.small])
  linarith [h1.1]

/-! ### stored centers -/

theorem radF_err (h : Rounds fl u) (hw : t.WF) (l : Nat) :
    |t.radF fl l - t.rad l| ≤ u * t.rad l := by
  have h1 : |fl (t.rad l) - t.rad l| ≤ u * |t.rad l| := h.err _
  rwa [abs_of_pos (hw.rad_pos l)] at h1

theorem mortonOf_spec (hw : t.WF) {b : Nat} (hb : b < t.nboxes) (h0 : b ≠ 0) :
    t.mortonOf b < t.nch ∧ t.child (t.mortonOf b) (t.parent b) = b := by
  obtain ⟨m, hm, hc⟩ := hw.parent_child b hb h0
  unfold mortonOf
  cases hf : (List.range t.nch).find? fun m => decide (t.child m (t.parent b) = b) with
  | none =>
    rw [List.find?_eq_none] at hf
    exact absurd hc (by simpa using hf m (List.mem_range.2 hm))
  | some m' =>
    have h1 := List.mem_of_find?_eq_some hf
    have h2 := List.find?_some hf
    exact ⟨List.mem_range.1 h1, by simpa using h2⟩

/-- exact centers and radii are bounded by the extent of the root -/
theorem center_bound (hw : t.WF) {b : Nat} (hb : b < t.nboxes) {a : Nat} (ha : a < t.dims) :
    |t.center b a - t.center 0 a| + t.rad (t.level b) ≤ t.rad 0 := by
  generalize hl : t.level b = l
  induction l generalizing b with
  | zero =>
    have := hw.eq_zero_of_level hb hl
    subst this
    simp
  | succ l ih =>
    have h0 : b ≠ 0 := by rintro rfl; rw [hw.level_root] at hl; omega
    have hlp : t.level (t.parent b) = l := by have := hw.level_parent b hb h0; omega
    have h1 := ih (hw.parent_lt b hb) hlp
    have h2 := ((linf_le_iff t _ _ _).1 (hw.linf_parent hb)).2 a ha
    rw [hl, abs_sub_comm] at h2
    have h3 := abs_sub_le (t.center b a) (t.center (t.parent b) a) (t.center 0 a)
    have h4 := rad_succ t l
    linarith

theorem rad_zero (t : BoxTree) : t.rad 0 = t.rootExtent / 2 := by simp [rad]

theorem rad_le_zero (hw : t.WF) (l : Nat) : t.rad l ≤ t.rootExtent / 2 := by
  rw [← rad_zero]; exact hw.rad_anti (Nat.zero_le l)

/-- the accuracy of a stored center on level `l` -/
def centerErr (u M : ℚ) (l : Nat) : ℚ := (5 + 3 * l) * u * M

theorem FineEnough.nonneg {n : Nat} (hw : t.WF) (hd : 0 < t.dims) (hF : FineEnough t c0 u M n) :
    0 < M := by
  have := hF.size 0 hd
  have h1 := hw.ext_pos
  have h2 := abs_nonneg (t.center 0 0)
  linarith

theorem FineEnough.err_le {n : Nat} (h : Rounds fl u) (hw : t.WF) (hd : 0 < t.dims)
    (hF : FineEnough t c0 u M n) {l : Nat} (hl : l < t.nlevels) :
    centerErr u M l ≤ (2 + 3 * t.nlevels) * u * M ∧
      5 * (4 * t.nlevels + n + 16) * u * M < M / 2 := by
  have hu := h.u_nonneg
  have hM := hF.nonneg hw hd
  have h1 := hF.fine
  have h2 := hF.size 0 hd
  have h3 := abs_nonneg (t.center 0 0)
  have h4 := rad_le_zero hw (t.nlevels - 1)
  have h5 : (l : ℚ) + 1 ≤ t.nlevels := by exact_mod_cast hl
  refine ⟨?_, by linarith⟩
  unfold centerErr
  have h6 : 5 + 3 * (l : ℚ) ≤ 2 + 3 * t.nlevels := by linarith
  have h7 : 0 ≤ u * M := mul_nonneg hu hM.le
  nlinarith

/-- Stored centers are accurate up to a few rounding errors per level. -/
theorem storedCenter_err {n : Nat} (h : Rounds fl u) (hw : t.WF) (hd : 0 < t.dims)
    (hF : FineEnough t c0 u M n) {b : Nat} (hb : b < t.nboxes) {a : Nat} (ha : a < t.dims) :
    |t.storedCenter fl c0 b a - t.center b a| ≤ centerErr u M (t.level b) := by
  unfold storedCenter
  have hu := h.u_nonneg
  have hM := hF.nonneg hw hd
  generalize hl : t.level b = l
  induction l generalizing b with
  | zero =>
    have := hw.eq_zero_of_level hb hl
    subst this
    have := hF.root a ha
    unfold centerErr centerF
    simpa using this
  | succ l ih =>
    have h0 : b ≠ 0 := by rintro rfl; rw [hw.level_root] at hl; omega
    have hlp : t.level (t.parent b) = l := by have := hw.level_parent b hb h0; omega
    have ihp := ih (hw.parent_lt b hb) hlp
    have hll : t.level b < t.nlevels := hw.level_lt b hb
    obtain ⟨he1, he2⟩ := hF.err_le h hw hd (l := l) (by omega)
    obtain ⟨hm, hc⟩ := mortonOf_spec hw hb h0
    have hcc := hw.center_child _ hm (t.parent b) (hw.parent_lt b hb) (by rw [hc]; exact h0) a ha
    rw [hc, hlp] at hcc
    have hr := radF_err h hw (l + 1)
    have hrp := hw.rad_pos (l + 1)
    have hcb := center_bound hw hb ha
    rw [hl, rad_zero] at hcb
    have hsz := hF.size a ha
    have htri : |t.center b a| ≤ |t.center b a - t.center 0 a| + |t.center 0 a| := by
      have := abs_add_le (t.center b a - t.center 0 a) (t.center 0 a)
      simpa using this
    have hB : |t.center b a| ≤ M - t.rad (l + 1) := by have := hw.ext_pos; linarith
    have hnn : 0 ≤ u * M := mul_nonneg hu hM.le
    have hL : (0:ℚ) ≤ n := Nat.cast_nonneg n
    have hLL : (0:ℚ) ≤ t.nlevels := Nat.cast_nonneg _
    have heM : centerErr u M l ≤ M / 2 := by nlinarith
    -- both signs
    have key : ∀ y', |y' - t.center b a| ≤ centerErr u M l + u * t.rad (l + 1) →
        |fl y' - t.center b a| ≤ centerErr u M (l + 1) := by
      intro y' hy
      have := h.near hy hB
      have hur : u * t.rad (l + 1) ≤ 1 / 8 * t.rad (l + 1) :=
        mul_le_mul_of_nonneg_right h.small hrp.le
      have h9 : u * (M - t.rad (l + 1) + (centerErr u M l + u * t.rad (l + 1))) ≤
          u * (2 * M - 7 / 8 * t.rad (l + 1)) :=
        mul_le_mul_of_nonneg_left (by linarith) hu
      have h10 : u * (2 * M - 7 / 8 * t.rad (l + 1)) = 2 * (u * M) - 7 / 8 * (u * t.rad (l + 1)) := by
        ring
      have h11 : u * t.rad (l + 1) ≤ u * M :=
        mul_le_mul_of_nonneg_left (by have := abs_nonneg (t.center b a); linarith) hu
      have h12 : centerErr u M (l + 1) = centerErr u M l + 3 * (u * M) := by
        unfold centerErr; push_cast; ring
      linarith
    unfold centerF
    split
    · rename_i hbit
      apply key
      have hs : mortonSign t.dims (t.mortonOf b) a = 1 := if_pos hbit
      rw [hcc, hs]
      have e : t.centerF fl c0 l (t.parent b) a + t.radF fl (l + 1) -
          (t.center (t.parent b) a + 1 * t.rad (l + 1)) =
          (t.centerF fl c0 l (t.parent b) a - t.center (t.parent b) a) +
          (t.radF fl (l + 1) - t.rad (l + 1)) := by ring
      rw [e]
      exact (abs_add_le _ _).trans (add_le_add ihp hr)
    · rename_i hbit
      apply key
      have hs : mortonSign t.dims (t.mortonOf b) a = -1 := if_neg hbit
      rw [hcc, hs]
      have e : t.centerF fl c0 l (t.parent b) a - t.radF fl (l + 1) -
          (t.center (t.parent b) a + -1 * t.rad (l + 1)) =
          (t.centerF fl c0 l (t.parent b) a - t.center (t.parent b) a) -
          (t.radF fl (l + 1) - t.rad (l + 1)) := by ring
      rw [e]
      exact (abs_sub _ _).trans (add_le_add ihp hr)

/-! ### adjacency -/

/-- Along one axis boxes (the first enlarged) touch or are two radii of the smaller one apart. -/
theorem BoxTree.WF.touch_or_apart (hw : t.WF) {n a b : Nat} (hn : 1 ≤ n) (ha : a < t.nboxes)
    (hb : b < t.nboxes) (i : Nat) (hi : i < t.dims) :
    |t.center a i - t.center b i| ≤ (2 * ((n : ℚ) - 1) + 1) * t.rad (t.level a) +
        t.rad (t.level b) ∨
    (2 * ((n : ℚ) - 1) + 1) * t.rad (t.level a) + t.rad (t.level b) +
        2 * min (t.rad (t.level a)) (t.rad (t.level b)) ≤ |t.center a i - t.center b i| := by
  have core : ∀ {x c r : ℚ} {N B : ℤ}, 0 < r → x = N * r → c = B * r → (N - B) % 2 = 0 →
      |x| ≤ c ∨ c + 2 * r ≤ |x| := by
    intro x c r N B hr hx hc hp
    rw [hx, hc, abs_mul, abs_of_pos hr]
    rcases le_or_gt |N| B with h | h
    · left
      exact mul_le_mul_of_nonneg_right (by rw [← Int.cast_abs]; exact_mod_cast h) hr.le
    · right
      have h2 : B + 2 ≤ |N| := by
        rcases abs_cases N with ⟨h3, _⟩ | ⟨h3, _⟩ <;> omega
      have h3 : ((B : ℚ) + 2) ≤ |(N : ℚ)| := by rw [← Int.cast_abs]; exact_mod_cast h2
      have := mul_le_mul_of_nonneg_right h3 hr.le
      linarith
  obtain ⟨ka, hka⟩ := hw.grid ha i hi
  obtain ⟨kb, hkb⟩ := hw.grid hb i hi
  rcases Nat.le_total (t.level a) (t.level b) with h | h
  · obtain ⟨d, hd⟩ := Nat.exists_eq_add_of_le h
    have hr : t.rad (t.level a) = 2 ^ d * t.rad (t.level b) := by rw [hd]; exact rad_mul_pow t _ d
    rw [min_eq_right (hw.rad_anti h)]
    apply core (hw.rad_pos _)
      (N := (2 * ka + 1) * 2 ^ d - (2 * kb + 1)) (B := (2 * ((n : ℤ) - 1) + 1) * 2 ^ d + 1)
    · rw [hka, hkb, hr]; push_cast; ring
    · rw [hr]; push_cast; ring
    · have : ((2 * ka + 1) * 2 ^ d - (2 * kb + 1)) - ((2 * ((n : ℤ) - 1) + 1) * 2 ^ d + 1) =
          2 * ((ka - (n - 1)) * 2 ^ d - kb - 1) := by ring
      rw [this]; omega
  · obtain ⟨d, hd⟩ := Nat.exists_eq_add_of_le h
    have hr : t.rad (t.level b) = 2 ^ d * t.rad (t.level a) := by rw [hd]; exact rad_mul_pow t _ d
    rw [min_eq_left (hw.rad_anti h)]
    apply core (hw.rad_pos _)
      (N := (2 * ka + 1) - (2 * kb + 1) * 2 ^ d) (B := (2 * ((n : ℤ) - 1) + 1) + 2 ^ d)
    · rw [hka, hkb, hr]; push_cast; ring
    · rw [hr]; push_cast; ring
    · have : ((2 * ka + 1) - (2 * kb + 1) * 2 ^ d) - ((2 * ((n : ℤ) - 1) + 1) + 2 ^ d) =
          2 * (ka - (n - 1) - (kb + 1) * 2 ^ d) := by ring
      rw [this]; omega

/-- what every rounded test uses: accuracy of the difference of two stored centers -/
theorem diff_err {n : Nat} (h : Rounds fl u) (hw : t.WF) (hd : 0 < t.dims)
    (hF : FineEnough t c0 u M n) {a b : Nat} (ha : a < t.nboxes) (hb : b < t.nboxes)
    {i : Nat} (hi : i < t.dims) :
    |fl (t.storedCenter fl c0 a i - t.storedCenter fl c0 b i) - (t.center a i - t.center b i)|
      ≤ (9 * t.nlevels + 7) * u * M ∧ |t.center a i - t.center b i| ≤ M := by
  have hu := h.u_nonneg
  have hM := hF.nonneg hw hd
  have ea := storedCenter_err h hw hd hF ha hi
  have eb := storedCenter_err h hw hd hF hb hi
  obtain ⟨fa, f2⟩ := hF.err_le h hw hd (hw.level_lt a ha)
  obtain ⟨fb, _⟩ := hF.err_le h hw hd (hw.level_lt b hb)
  set δ := (2 + 3 * (t.nlevels : ℚ)) * u * M with hδ
  have ba := center_bound hw ha hi
  have bb := center_bound hw hb hi
  rw [rad_zero] at ba bb
  have ra := hw.rad_pos (t.level a)
  have rb := hw.rad_pos (t.level b)
  have hsz := hF.size i hi
  have h0 := abs_nonneg (t.center 0 i)
  have hB : |t.center a i - t.center b i| ≤ M := by
    have := abs_sub_le (t.center a i) (t.center 0 i) (t.center b i)
    rw [abs_sub_comm (t.center 0 i)] at this
    linarith
  refine ⟨?_, hB⟩
  have e1 : |(t.storedCenter fl c0 a i - t.storedCenter fl c0 b i) -
      (t.center a i - t.center b i)| ≤ 2 * δ := by
    have e : (t.storedCenter fl c0 a i - t.storedCenter fl c0 b i) - (t.center a i - t.center b i) =
      (t.storedCenter fl c0 a i - t.center a i) - (t.storedCenter fl c0 b i - t.center b i) := by ring
    rw [e]
    have := abs_sub (t.storedCenter fl c0 a i - t.center a i)
      (t.storedCenter fl c0 b i - t.center b i)
    linarith
  have := h.near e1 hB
  have hδ0 : 0 ≤ δ := by
    rw [hδ]
    have : (0:ℚ) ≤ t.nlevels := Nat.cast_nonneg _
    positivity
  have h5 : u * (M + 2 * δ) ≤ u * M + 1 / 4 * δ := by
    have : u * δ ≤ 1 / 8 * δ := mul_le_mul_of_nonneg_right h.small hδ0
    linarith
  have h6 : (9 * (t.nlevels : ℚ) + 7) * u * M = 3 * δ + u * M := by rw [hδ]; ring
  linarith

theorem linfF_le_iff (x y : Nat → ℚ) (r : ℚ) :
    t.linfF fl x y ≤ r ↔ 0 ≤ r ∧ ∀ i, i < t.dims → |fl (x i - y i)| ≤ r := by
  unfold linfF
  rw [foldl_max_le (fun i => |fl (x i - y i)|)]
  simp

theorem le_linfF_iff (x y : Nat → ℚ) {r : ℚ} (hr : 0 < r) :
    r ≤ t.linfF fl x y ↔ ∃ i, i < t.dims ∧ r ≤ |fl (x i - y i)| := by
  unfold linfF
  rw [le_foldl_max (fun i => |fl (x i - y i)|)]
  constructor
  · rintro (h | ⟨i, hi, h⟩)
    · exact absurd h (not_le.2 hr)
    · exact ⟨i, List.mem_range.1 hi, h⟩
  · rintro ⟨i, hi, h⟩; exact Or.inr ⟨i, List.mem_range.2 hi, h⟩

theorem pow_le_lin {u : ℚ} (h0 : 0 ≤ u) (h1 : u ≤ 1 / 8) :
    (1 + u) ^ 4 ≤ 1 + 5 * u ∧ 1 - 5 * u ≤ (1 - u) ^ 4 := by
  have h2 : 0 ≤ u * (1 / 8 - u) := mul_nonneg h0 (by linarith)
  have h3 : 0 ≤ u * u := mul_nonneg h0 h0
  have h4 : u * u * u ≤ 1 / 8 * (u * u) := by nlinarith
  have h5 : u * u * u * u ≤ 1 / 8 * (u * u * u) := by
    have : 0 ≤ u * u * u := by positivity
    nlinarith
  have h6 : 0 ≤ u * u * u := by positivity
  have h7 : 0 ≤ u * u * u * u := by positivity
  constructor
  · have : (1 + u) ^ 4 = 1 + 4 * u + 6 * (u * u) + 4 * (u * u * u) + u * u * u * u := by ring
    rw [this]; linarith
  · have : (1 - u) ^ 4 = 1 - 4 * u + 6 * (u * u) - 4 * (u * u * u) + u * u * u * u := by ring
    rw [this]; linarith

/-- the computed slack of the adjacency test -/
theorem slack_err (h : Rounds fl u) (hw : t.WF) {n : Nat} (hn : 1 ≤ n) (la lb : Nat) :
    let S := (2 * ((n : ℚ) - 1) + 1) * t.rad la + t.rad lb + min (t.rad la) (t.rad lb)
    let S' := fl (fl (fl ((2 * ((n : ℚ) - 1) + 1) * t.radF fl la) + t.radF fl lb) +
      min (t.radF fl la) (t.radF fl lb))
    (1 - 5 * u) * S ≤ S' ∧ S' ≤ (1 + 5 * u) * S := by
  intro S S'
  have hu := h.u_nonneg
  have hs := h.small
  have ra := hw.rad_pos la
  have rb := hw.rad_pos lb
  have ea := radF_err h hw la
  have eb := radF_err h hw lb
  rw [abs_le] at ea eb
  have hn' : (1:ℚ) ≤ n := by exact_mod_cast hn
  set k : ℚ := 2 * ((n : ℚ) - 1) + 1 with hk
  have hk1 : 1 ≤ k := by rw [hk]; linarith
  have la1 : (1 - u) * t.rad la ≤ t.radF fl la := by linarith [ea.1]
  have ua1 : t.radF fl la ≤ (1 + u) * t.rad la := by linarith [ea.2]
  have lb1 : (1 - u) * t.rad lb ≤ t.radF fl lb := by linarith [eb.1]
  have ub1 : t.radF fl lb ≤ (1 + u) * t.rad lb := by linarith [eb.2]
  have pa : 0 ≤ (1 - u) * t.rad la := mul_nonneg (by linarith) ra.le
  have pb : 0 ≤ (1 - u) * t.rad lb := mul_nonneg (by linarith) rb.le
  -- product
  have l2 := h.pos_ge (y := k * ((1 - u) * t.rad la)) (mul_nonneg (by linarith) pa)
    (mul_le_mul_of_nonneg_left la1 (by linarith))
  have u2 := h.pos_le (x := k * t.radF fl la) (mul_nonneg (by linarith) (pa.trans la1))
    (mul_le_mul_of_nonneg_left ua1 (by linarith))
  have q2 : 0 ≤ fl (k * t.radF fl la) := le_trans (mul_nonneg (by linarith) (mul_nonneg (by linarith) pa)) l2
  -- sum; weaken the error of the second term
  have lb2 : (1 - u) * ((1 - u) * t.rad lb) ≤ t.radF fl lb := by
    have : (1 - u) * ((1 - u) * t.rad lb) ≤ 1 * ((1 - u) * t.rad lb) :=
      mul_le_mul_of_nonneg_right (by linarith) pb
    linarith
  have ub2 : t.radF fl lb ≤ (1 + u) * ((1 + u) * t.rad lb) := by
    have h1 : 0 ≤ (1 + u) * t.rad lb := mul_nonneg (by linarith) rb.le
    have : 1 * ((1 + u) * t.rad lb) ≤ (1 + u) * ((1 + u) * t.rad lb) :=
      mul_le_mul_of_nonneg_right (by linarith) h1
    linarith
  have l3 := h.pos_ge (y := (1 - u) * (k * ((1 - u) * t.rad la)) + (1 - u) * ((1 - u) * t.rad lb))
    (x := fl (k * t.radF fl la) + t.radF fl lb)
    (add_nonneg (mul_nonneg (by linarith) (mul_nonneg (by linarith) pa))
      (mul_nonneg (by linarith) pb)) (by linarith)
  have u3 := h.pos_le (x := fl (k * t.radF fl la) + t.radF fl lb)
    (y := (1 + u) * (k * ((1 + u) * t.rad la)) + (1 + u) * ((1 + u) * t.rad lb))
    (add_nonneg q2 (pb.trans lb1)) (by linarith)
  have q3 : 0 ≤ fl (fl (k * t.radF fl la) + t.radF fl lb) := by
    refine le_trans (mul_nonneg (by linarith) (add_nonneg (mul_nonneg (by linarith)
      (mul_nonneg (by linarith) pa)) (mul_nonneg (by linarith) pb))) l3
  -- minimum
  set m := min (t.rad la) (t.rad lb) with hm
  have m0 : 0 < m := lt_min ra rb
  have ml : (1 - u) * m ≤ min (t.radF fl la) (t.radF fl lb) := by
    apply le_min
    · exact le_trans (mul_le_mul_of_nonneg_left (min_le_left _ _) (by linarith)) la1
    · exact le_trans (mul_le_mul_of_nonneg_left (min_le_right _ _) (by linarith)) lb1
  have mu : min (t.radF fl la) (t.radF fl lb) ≤ (1 + u) * m := by
    rcases min_choice (t.rad la) (t.rad lb) with e | e
    · rw [hm, e]; exact (min_le_left _ _).trans ua1
    · rw [hm, e]; exact (min_le_right _ _).trans ub1
  have pm : 0 ≤ (1 - u) * m := mul_nonneg (by linarith) m0.le
  have p1 : (1 - u) ^ 3 * m ≤ (1 - u) * m := by
    have : (1 - u) ^ 3 * m = (1 - u) * (1 - u) * ((1 - u) * m) := by ring
    rw [this]
    have h1 : (1 - u) * (1 - u) ≤ 1 := by nlinarith
    nlinarith
  have p2 : (1 + u) * m ≤ (1 + u) ^ 3 * m := by
    have : (1 + u) ^ 3 * m = (1 + u) * (1 + u) * ((1 + u) * m) := by ring
    rw [this]
    have h1 : 1 ≤ (1 + u) * (1 + u) := by nlinarith
    have h2 : 0 ≤ (1 + u) * m := mul_nonneg (by linarith) m0.le
    nlinarith
  have l4 := h.pos_ge (y := (1 - u) ^ 3 * S)
    (x := fl (fl (k * t.radF fl la) + t.radF fl lb) + min (t.radF fl la) (t.radF fl lb))
    (mul_nonneg (pow_nonneg (by linarith) 3) (by
      have : 0 ≤ k * t.rad la := mul_nonneg (by linarith) ra.le
      linarith)) (by
      have : (1 - u) ^ 3 * S = (1 - u) * ((1 - u) * (k * ((1 - u) * t.rad la)) +
        (1 - u) * ((1 - u) * t.rad lb)) + (1 - u) ^ 3 * m := by ring
      rw [this]; linarith)
  have u4 := h.pos_le (x := fl (fl (k * t.radF fl la) + t.radF fl lb) +
      min (t.radF fl la) (t.radF fl lb)) (y := (1 + u) ^ 3 * S)
    (add_nonneg q3 (pm.trans ml)) (by
      have : (1 + u) ^ 3 * S = (1 + u) * ((1 + u) * (k * ((1 + u) * t.rad la)) +
        (1 + u) * ((1 + u) * t.rad lb)) + (1 + u) ^ 3 * m := by ring
      rw [this]; linarith)
  obtain ⟨w1, w2⟩ := pow_le_lin hu hs
  have S0 : 0 ≤ S := by
    have : 0 ≤ k * t.rad la := mul_nonneg (by linarith) ra.le
    linarith
  constructor
  · calc (1 - 5 * u) * S ≤ (1 - u) ^ 4 * S := mul_le_mul_of_nonneg_right w2 S0
      _ = (1 - u) * ((1 - u) ^ 3 * S) := by ring
      _ ≤ S' := l4
  · calc S' ≤ (1 + u) * ((1 + u) ^ 3 * S) := u4
      _ = (1 + u) ^ 4 * S := by ring
      _ ≤ (1 + 5 * u) * S := mul_le_mul_of_nonneg_right w1 S0

/-- On a tree that is fine enough the rounded adjacency test decides whether the boxes touch. -/
theorem adjF_iff (h : Rounds fl u) (hw : t.WF) (hd : 0 < t.dims) {n0 n : Nat} (hn : 1 ≤ n)
    (hF : FineEnough t c0 u M n0) (hn0 : n ≤ n0) {a b : Nat} (ha : a < t.nboxes)
    (hb : b < t.nboxes) :
    t.adjF fl (t.storedCenter fl c0 a) (t.level a) n (t.storedCenter fl c0 b) (t.level b) = true ↔
      t.nws n a b := by
  unfold adjF
  simp only [decide_eq_true_eq]
  rw [linfF_le_iff]
  unfold nws
  rw [linf_le_iff]
  obtain ⟨s1, s2⟩ := slack_err h hw hn (t.level a) (t.level b)
  set k : ℚ := 2 * ((n : ℚ) - 1) + 1 with hk
  set ra := t.rad (t.level a) with hra
  set rb := t.rad (t.level b) with hrb
  set S := k * ra + rb + min ra rb with hS
  set S' := fl (fl (fl (k * t.radF fl (t.level a)) + t.radF fl (t.level b)) +
      min (t.radF fl (t.level a)) (t.radF fl (t.level b))) with hS'
  have hu := h.u_nonneg
  have hM := hF.nonneg hw hd
  have ra0 : 0 < ra := hw.rad_pos _
  have rb0 : 0 < rb := hw.rad_pos _
  have hn' : (1:ℚ) ≤ n := by exact_mod_cast hn
  have hn0' : (n:ℚ) ≤ n0 := by exact_mod_cast hn0
  have hm : t.rad (t.nlevels - 1) ≤ min ra rb := by
    apply le_min
    · exact hw.rad_anti (by have := hw.level_lt a ha; omega)
    · exact hw.rad_anti (by have := hw.level_lt b hb; omega)
  have hfine := hF.fine
  have hSle : S ≤ (n + 1) * M := by
    have h1 : ra ≤ t.rootExtent / 2 := rad_le_zero hw _
    have h2 : rb ≤ t.rootExtent / 2 := rad_le_zero hw _
    have h3 := hF.size 0 hd
    have h4 := abs_nonneg (t.center 0 0)
    have h5 : min ra rb ≤ rb := min_le_right _ _
    have h6 : k * ra ≤ k * (M / 2) := mul_le_mul_of_nonneg_left (by linarith) (by rw [hk]; linarith)
    have h7 : k * (M / 2) = n * M - M / 2 := by rw [hk]; ring
    linarith
  have hS0 : 0 < S := by
    have : 0 ≤ k * ra := mul_nonneg (by rw [hk]; linarith) ra0.le
    have : 0 < min ra rb := lt_min ra0 rb0
    linarith
  have hSe : u * S ≤ (n0 + 1) * (u * M) := by
    have h1 := mul_le_mul_of_nonneg_left hSle hu
    have h2 : 0 ≤ u * M := mul_nonneg hu hM.le
    have h3 : u * ((n + 1) * M) = (n + 1) * (u * M) := by ring
    have h4 : ((n:ℚ) + 1) * (u * M) ≤ (n0 + 1) * (u * M) :=
      mul_le_mul_of_nonneg_right (by linarith) h2
    linarith
  have hS'0 : 0 ≤ S' := by
    refine le_trans (mul_nonneg ?_ hS0.le) s1
    linarith [h.small]
  have hL : (0:ℚ) ≤ t.nlevels := Nat.cast_nonneg _
  have hum : 0 ≤ u * M := mul_nonneg hu hM.le
  have budget : (9 * (t.nlevels : ℚ) + 7) * u * M + 5 * (u * S) < min ra rb := by
    have e1 : (9 * (t.nlevels : ℚ) + 7) * u * M + 5 * ((n0 + 1) * (u * M)) =
        (9 * t.nlevels + 5 * n0 + 12) * (u * M) := by ring
    have e2 : 5 * (4 * (t.nlevels : ℚ) + n0 + 16) * u * M =
        (20 * t.nlevels + 5 * n0 + 80) * (u * M) := by ring
    have e3 : (9 * (t.nlevels : ℚ) + 5 * n0 + 12) * (u * M) ≤
        (20 * t.nlevels + 5 * n0 + 80) * (u * M) :=
      mul_le_mul_of_nonneg_right (by linarith) hum
    linarith
  constructor
  · rintro ⟨_, hall⟩
    refine ⟨hS0.le, fun i hi => ?_⟩
    rcases (show |t.center a i - t.center b i| ≤ k * ra + rb ∨ k * ra + rb + 2 * min ra rb ≤
      |t.center a i - t.center b i| from hw.touch_or_apart hn ha hb i hi) with hc | hc
    · have : 0 < min ra rb := lt_min ra0 rb0
      linarith
    · exfalso
      have h1 := hall i hi
      obtain ⟨h2, _⟩ := diff_err h hw hd hF ha hb hi
      have h3 : |t.center a i - t.center b i| ≤
          |fl (t.storedCenter fl c0 a i - t.storedCenter fl c0 b i)| +
          (9 * (t.nlevels : ℚ) + 7) * u * M := by
        have h4 := abs_sub_abs_le_abs_sub (t.center a i - t.center b i)
          (fl (t.storedCenter fl c0 a i - t.storedCenter fl c0 b i))
        have h5 := abs_sub_comm (t.center a i - t.center b i)
          (fl (t.storedCenter fl c0 a i - t.storedCenter fl c0 b i))
        linarith
      linarith
  · rintro ⟨_, hall⟩
    refine ⟨hS'0, fun i hi => ?_⟩
    rcases (show |t.center a i - t.center b i| ≤ k * ra + rb ∨ k * ra + rb + 2 * min ra rb ≤
      |t.center a i - t.center b i| from hw.touch_or_apart hn ha hb i hi) with hc | hc
    · obtain ⟨h2, _⟩ := diff_err h hw hd hF ha hb hi
      have h3 := abs_sub_abs_le_abs_sub
        (fl (t.storedCenter fl c0 a i - t.storedCenter fl c0 b i)) (t.center a i - t.center b i)
      linarith
    · exfalso
      have := hall i hi
      have : 0 < min ra rb := lt_min ra0 rb0
      linarith

/-! ### the list-4 criterion -/

/-- the right hand side of the list-4 criterion as computed -/
def sepNeedF (fl : ℚ → ℚ) (t : BoxTree) (stickOut eps : ℚ) (tl sl : Nat) : ℚ :=
  fl (fl (fl (fl (3 * fl (1 + stickOut)) * t.radF fl tl) + t.radF fl sl) * fl (1 - fl (8 * eps)))

theorem FineEnough.u_small {n : Nat} (h : Rounds fl u) (hw : t.WF) (hd : 0 < t.dims)
    (hF : FineEnough t c0 u M n) : u ≤ 1 / 160 := by
  have hM := hF.nonneg hw hd
  have hu := h.u_nonneg
  have h1 := hF.fine
  have h2 := hF.size 0 hd
  have h3 := abs_nonneg (t.center 0 0)
  have h4 := rad_le_zero hw (t.nlevels - 1)
  have h5 : 0 ≤ u * M := mul_nonneg hu hM.le
  have h6 : (1:ℚ) ≤ t.nlevels := by
    have := hw.level_lt 0 hw.nboxes_pos
    exact_mod_cast (show 1 ≤ t.nlevels by omega)
  have h7 : 80 * (u * M) ≤ 5 * (4 * t.nlevels + n + 16) * u * M := by
    have e : 5 * (4 * (t.nlevels : ℚ) + n + 16) * u * M = (5 * (4 * t.nlevels + n + 16)) * (u * M) := by
      ring
    rw [e]
    have hn : (0:ℚ) ≤ n := Nat.cast_nonneg n
    exact mul_le_mul_of_nonneg_right (by linarith) h5
  by_contra hc
  push Not at hc
  have := mul_lt_mul_of_pos_right hc hM
  linarith

theorem cube_le {u : ℚ} (h0 : 0 ≤ u) (h1 : u ≤ 1 / 8) : (1 + u) ^ 3 - (1 - u) ^ 3 ≤ 7 * u := by
  have e : (1 + u) ^ 3 - (1 - u) ^ 3 = 6 * u + 2 * (u * (u * u)) := by ring
  have h2 : u * u ≤ 1 / 8 * (1 / 8) := mul_le_mul h1 h1 h0 (by norm_num)
  have h3 : u * (u * u) ≤ u * (1 / 8 * (1 / 8)) := mul_le_mul_of_nonneg_left h2 h0
  rw [e]; linarith

theorem scaleF_bounds (h : Rounds fl u) {eps : ℚ} (he0 : 0 ≤ eps) (he : eps ≤ 1 / 24) :
    2 / 3 - u ≤ fl (1 - fl (8 * eps)) ∧ fl (1 - fl (8 * eps)) ≤ 1 + u := by
  have hu := h.u_nonneg
  have hs := h.small
  have h1 := h.pos_le (x := 8 * eps) (y := 1 / 3) (by linarith) (by linarith)
  have h2 := h.pos_ge (x := 8 * eps) (y := 0) le_rfl (by linarith)
  rw [mul_zero] at h2
  have h3 := h.pos_ge (y := 2 / 3 - u / 3) (x := 1 - fl (8 * eps)) (by linarith) (by linarith)
  have h4 := h.pos_le (x := 1 - fl (8 * eps)) (y := 1) (by linarith) (by linarith)
  refine ⟨?_, by linarith⟩
  have h5 : (1 - u) * (2 / 3 - u / 3) = 2 / 3 - u + 1 / 3 * (u * u) := by ring
  have h6 : 0 ≤ u * u := mul_nonneg hu hu
  linarith

theorem factorF_ge (h : Rounds fl u) {stickOut : ℚ} (h0 : 0 ≤ stickOut) :
    3 * (1 - 2 * u) ≤ fl (3 * fl (1 + stickOut)) := by
  have hu := h.u_nonneg
  have hs := h.small
  have h1 := h.pos_ge (y := 1) (x := 1 + stickOut) (by linarith) (by linarith)
  have h2 := h.pos_ge (y := 3 * (1 - u)) (x := 3 * fl (1 + stickOut)) (by linarith) (by linarith)
  have h3 : 0 ≤ u * u := mul_nonneg hu hu
  have h4 : (1 - u) * (3 * (1 - u)) = 3 * (1 - 2 * u) + 3 * (u * u) := by ring
  linarith

/-- The computed right hand side grows by more than the errors when going to the parent. -/
theorem sepNeedF_step {n : Nat} (h : Rounds fl u) (hw : t.WF) (hd : 0 < t.dims)
    (hF : FineEnough t c0 u M n) {eps stickOut : ℚ} (he0 : 0 ≤ eps) (he : eps ≤ 1 / 24)
    (hs0 : 0 ≤ stickOut) {l : Nat} (hl : l + 1 < t.nlevels) (sl : Nat) :
    0 < sepNeedF fl t stickOut eps (l + 1) sl ∧
    sepNeedF fl t stickOut eps (l + 1) sl + t.rad (l + 1) + 2 * ((9 * t.nlevels + 7) * u * M) ≤
      sepNeedF fl t stickOut eps l sl := by
  have hu := h.u_nonneg
  have hM := hF.nonneg hw hd
  have hus := hF.u_small h hw hd
  obtain ⟨eE1, eE2⟩ := scaleF_bounds h he0 he
  have eK := factorF_ge h hs0
  unfold sepNeedF
  set E := fl (1 - fl (8 * eps)) with hE
  set K := fl (3 * fl (1 + stickOut)) with hK
  have E0 : 0 < E := by linarith
  have K0 : 0 < K := by linarith
  have r0 := hw.rad_pos (l + 1)
  have q0 := hw.rad_pos sl
  have hr := radF_err h hw (l + 1)
  have hp := radF_err h hw l
  have hs := radF_err h hw sl
  rw [rad_succ] at hp
  rw [abs_le] at hr hp hs
  set r := t.rad (l + 1) with hrr
  set q := t.rad sl with hq
  set r1 := t.radF fl (l + 1)
  set r2 := t.radF fl l
  set s := t.radF fl sl
  have ur1 : r1 ≤ (1 + u) * r := by linarith [hr.2]
  have lr1 : (1 - u) * r ≤ r1 := by linarith [hr.1]
  have lr2 : (1 - u) * (2 * r) ≤ r2 := by linarith [hp.1]
  have us : s ≤ (1 + u) * q := by linarith [hs.2]
  have ls : (1 - u) * q ≤ s := by linarith [hs.1]
  have n1 : 0 ≤ 1 - u := by linarith
  have p1 : 0 < r1 := lt_of_lt_of_le (mul_pos (by linarith) r0) lr1
  have p2 : 0 < s := lt_of_lt_of_le (mul_pos (by linarith) q0) ls
  -- upper bound for the child
  have a1 := h.pos_le (x := K * r1) (mul_nonneg K0.le p1.le) (mul_le_mul_of_nonneg_left ur1 K0.le)
  have a1p : 0 < fl (K * r1) := lt_of_lt_of_le (mul_pos (by linarith : (0:ℚ) < 1 - u)
    (mul_pos K0 p1)) (h.pos_ge (mul_nonneg K0.le p1.le) le_rfl)
  have a2 := h.pos_le (x := fl (K * r1) + s) (y := (1 + u) * (K * ((1 + u) * r)) + (1 + u) * q)
    (by linarith) (by linarith)
  have a2p : 0 < fl (fl (K * r1) + s) := lt_of_lt_of_le (mul_pos (by linarith : (0:ℚ) < 1 - u)
    (by linarith)) (h.pos_ge (by linarith : (0:ℚ) ≤ fl (K * r1) + s) le_rfl)
  have a3 := h.pos_le (x := fl (fl (K * r1) + s) * E) (mul_nonneg a2p.le E0.le)
    (mul_le_mul_of_nonneg_right a2 E0.le)
  have a3p : 0 < fl (fl (fl (K * r1) + s) * E) :=
    lt_of_lt_of_le (mul_pos (by linarith : (0:ℚ) < 1 - u) (mul_pos a2p E0))
      (h.pos_ge (mul_nonneg a2p.le E0.le) le_rfl)
  -- lower bound for the parent
  have z1 : 0 ≤ K * ((1 - u) * (2 * r)) := mul_nonneg K0.le (mul_nonneg n1 (by linarith))
  have b1 := h.pos_ge (x := K * r2) z1 (mul_le_mul_of_nonneg_left lr2 K0.le)
  have z2 : 0 ≤ (1 - u) * (K * ((1 - u) * (2 * r))) + (1 - u) * q :=
    add_nonneg (mul_nonneg n1 z1) (mul_nonneg n1 q0.le)
  have b2 := h.pos_ge (x := fl (K * r2) + s) z2 (by linarith)
  have z3 := mul_nonneg n1 z2
  have b3 := h.pos_ge (x := fl (fl (K * r2) + s) * E) (mul_nonneg z3 E0.le)
    (mul_le_mul_of_nonneg_right b2 E0.le)
  refine ⟨a3p, ?_⟩
  -- algebra
  set G := K * r * E with hG
  set H := q * E with hH
  have e1 : (1 + u) * ((1 + u) * ((1 + u) * (K * ((1 + u) * r)) + (1 + u) * q) * E) =
      (1 + u) ^ 4 * G + (1 + u) ^ 3 * H := by rw [hG, hH]; ring
  have e2 : (1 - u) * ((1 - u) * ((1 - u) * (K * ((1 - u) * (2 * r))) + (1 - u) * q) * E) =
      2 * ((1 - u) ^ 4 * G) + (1 - u) ^ 3 * H := by rw [hG, hH]; ring
  obtain ⟨w1, w2⟩ := pow_le_lin hu h.small
  have w3 := cube_le hu h.small
  have G0 : 0 ≤ G := mul_nonneg (mul_nonneg K0.le r0.le) E0.le
  have H0 : 0 ≤ H := mul_nonneg q0.le E0.le
  have v1 := mul_le_mul_of_nonneg_right w1 G0
  have v2 := mul_le_mul_of_nonneg_right w2 G0
  have v3 := mul_le_mul_of_nonneg_right w3 H0
  have hKE : 2 - 7 * u ≤ K * E := by
    have : 3 * (1 - 2 * u) * (2 / 3 - u) ≤ K * E :=
      mul_le_mul eK eE1 (by linarith) K0.le
    have h6 : 0 ≤ u * u := mul_nonneg hu hu
    have e : 3 * (1 - 2 * u) * (2 / 3 - u) = 2 - 7 * u + 6 * (u * u) := by ring
    linarith
  have hG1 : (2 - 7 * u) * r ≤ G := by
    have := mul_le_mul_of_nonneg_right hKE r0.le
    have e : K * E * r = G := by rw [hG]; ring
    linarith
  have hG2 : (2 - 37 * u) * r ≤ (1 - 15 * u) * G := by
    have h7 : (1 - 15 * u) * ((2 - 7 * u) * r) ≤ (1 - 15 * u) * G :=
      mul_le_mul_of_nonneg_left hG1 (by linarith)
    have e : (1 - 15 * u) * ((2 - 7 * u) * r) = (2 - 37 * u) * r + 105 * (u * u * r) := by ring
    have : 0 ≤ u * u * r := mul_nonneg (mul_nonneg hu hu) r0.le
    linarith
  have hsz := hF.size 0 hd
  have hc0 := abs_nonneg (t.center 0 0)
  have hqM : q ≤ M / 2 := by have := rad_le_zero hw sl; linarith
  have hrM : r ≤ M / 2 := by have := rad_le_zero hw (l + 1); linarith
  have hH1 : u * H ≤ 9 / 16 * (u * M) := by
    have h8 : H ≤ M / 2 * (9 / 8) := mul_le_mul hqM (by linarith) E0.le (by linarith)
    have := mul_le_mul_of_nonneg_left h8 hu
    linarith
  have hur : u * r ≤ 1 / 2 * (u * M) := by
    have := mul_le_mul_of_nonneg_left hrM hu
    linarith
  have hfine := hF.fine
  have hfr : t.rad (t.nlevels - 1) ≤ r := hw.rad_anti (by omega)
  have e3 : 5 * (4 * (t.nlevels : ℚ) + n + 16) * u * M =
      20 * (t.nlevels * (u * M)) + 5 * (n * (u * M)) + 80 * (u * M) := by ring
  have e4 : (9 * (t.nlevels : ℚ) + 7) * u * M = 9 * (t.nlevels * (u * M)) + 7 * (u * M) := by ring
  have hum : 0 ≤ u * M := mul_nonneg hu hM.le
  have hLu : 0 ≤ t.nlevels * (u * M) := mul_nonneg (Nat.cast_nonneg _) hum
  have hnu : 0 ≤ n * (u * M) := mul_nonneg (Nat.cast_nonneg _) hum
  rw [e3] at hfine
  rw [e4]
  rw [e1] at a3
  rw [e2] at b3
  linarith

theorem sepBiggerF_iff (stickOut eps : ℚ) (x y : Nat → ℚ) (tl sl : Nat) :
    t.sepBiggerF fl stickOut eps x tl y sl = true ↔
      sepNeedF fl t stickOut eps tl sl ≤ t.linfF fl x y := by
  simp [sepBiggerF, sepNeedF]

/-- On a tree that is fine enough the rounded list-4 criterion passes from a box to its children. -/
theorem sepBiggerF_mono {n : Nat} (h : Rounds fl u) (hw : t.WF) (hd : 0 < t.dims)
    (hF : FineEnough t c0 u M n) {eps stickOut : ℚ} (he0 : 0 ≤ eps) (he : eps ≤ 1 / 24)
    (hs0 : 0 ≤ stickOut) {a s : Nat} (ha : a < t.nboxes) (hs : s < t.nboxes) (h0 : a ≠ 0)
    (hp : t.sepBiggerF fl stickOut eps (t.storedCenter fl c0 (t.parent a)) (t.level (t.parent a))
      (t.storedCenter fl c0 s) (t.level s) = true) :
    t.sepBiggerF fl stickOut eps (t.storedCenter fl c0 a) (t.level a)
      (t.storedCenter fl c0 s) (t.level s) = true := by
  rw [sepBiggerF_iff] at hp ⊢
  have hlp := hw.level_parent a ha h0
  have hla := hw.level_lt a ha
  obtain ⟨l, hl⟩ : ∃ l, t.level a = l + 1 := ⟨t.level (t.parent a), by omega⟩
  have hl' : t.level (t.parent a) = l := by omega
  rw [hl'] at hp
  rw [hl]
  obtain ⟨s1, s2⟩ := sepNeedF_step h hw hd hF he0 he hs0 (l := l) (by omega) (t.level s)
  have hM := hF.nonneg hw hd
  have hu := h.u_nonneg
  have hrp := hw.rad_pos (l + 1)
  have hnn : 0 ≤ (9 * (t.nlevels : ℚ) + 7) * u * M := by
    have : (0:ℚ) ≤ t.nlevels := Nat.cast_nonneg _
    positivity
  rw [le_linfF_iff _ _ (by linarith)] at hp
  obtain ⟨i, hi, hle⟩ := hp
  rw [le_linfF_iff _ _ s1]
  refine ⟨i, hi, ?_⟩
  obtain ⟨d1, _⟩ := diff_err h hw hd hF (hw.parent_lt a ha) hs hi
  obtain ⟨d2, _⟩ := diff_err h hw hd hF ha hs hi
  have hpc := ((linf_le_iff t _ _ _).1 (hw.linf_parent ha)).2 i hi
  rw [hl] at hpc
  have t1 := abs_sub_abs_le_abs_sub
    (fl (t.storedCenter fl c0 (t.parent a) i - t.storedCenter fl c0 s i))
    (t.center (t.parent a) i - t.center s i)
  have t2 := abs_sub_abs_le_abs_sub (t.center a i - t.center s i)
    (fl (t.storedCenter fl c0 a i - t.storedCenter fl c0 s i))
  have t2' := abs_sub_comm (t.center a i - t.center s i)
    (fl (t.storedCenter fl c0 a i - t.storedCenter fl c0 s i))
  have t3 := abs_sub_le (t.center (t.parent a) i) (t.center a i) (t.center s i)
  linarith

/-- The stored root center of a bounding box is accurate up to a few roundings. -/
theorem rootCenterF_err (h : Rounds fl u) {lo ext : ℚ} (hM : |lo + ext / 2| + ext ≤ M)
    (he : 0 < ext) : |rootCenterF fl lo ext - (lo + ext / 2)| ≤ 5 * u * M := by
  have hu := h.u_nonneg
  have hs := h.small
  have hlo : |lo| + ext / 2 ≤ M := by
    have := abs_sub_abs_le_abs_sub lo (lo + ext / 2)
    have e : lo - (lo + ext / 2) = -(ext / 2) := by ring
    rw [e, abs_neg, abs_of_pos (by linarith : 0 < ext / 2)] at this
    linarith
  have hhi : |lo + ext| ≤ M := by
    have := abs_add_le (lo + ext / 2) (ext / 2)
    have e : lo + ext / 2 + ext / 2 = lo + ext := by ring
    rw [e, abs_of_pos (by linarith : 0 < ext / 2)] at this
    linarith
  have hM0 : 0 < M := by have := abs_nonneg lo; linarith
  have heM : ext ≤ M := by have := abs_nonneg (lo + ext / 2); linarith
  have hum : 0 ≤ u * M := mul_nonneg hu hM0.le
  have s1 : |fl (lo + ext) - (lo + ext)| ≤ u * M :=
    (h.err _).trans (mul_le_mul_of_nonneg_left hhi hu)
  have uu : u * (u * M) ≤ 1 / 8 * (u * M) := mul_le_mul_of_nonneg_right hs hum
  have s2 : |fl (fl (lo + ext) - lo) - ext| ≤ 17 / 8 * (u * M) := by
    have := h.near (x := ext) (x' := fl (lo + ext) - lo) (e := u * M) (B := M)
      (by have e : fl (lo + ext) - lo - ext = fl (lo + ext) - (lo + ext) := by ring
          rw [e]; exact s1) (by rw [abs_of_pos he]; exact heM)
    linarith
  have s3 : |fl (fl (fl (lo + ext) - lo) / 2) - ext / 2| ≤ 7 / 4 * (u * M) := by
    have := h.near (x := ext / 2) (x' := fl (fl (lo + ext) - lo) / 2) (e := 17 / 16 * (u * M))
      (B := M / 2)
      (by have e : fl (fl (lo + ext) - lo) / 2 - ext / 2 = (fl (fl (lo + ext) - lo) - ext) / 2 := by
            ring
          rw [e, abs_div, abs_of_pos (by norm_num : (0:ℚ) < 2)]; linarith)
      (by rw [abs_of_pos (by linarith : 0 < ext / 2)]; linarith)
    linarith
  have hB : |lo + ext / 2| ≤ M := by linarith
  have := h.near (x := lo + ext / 2) (x' := lo + fl (fl (fl (lo + ext) - lo) / 2))
    (e := 7 / 4 * (u * M)) (B := M)
    (by have e : lo + fl (fl (fl (lo + ext) - lo) / 2) - (lo + ext / 2) =
          fl (fl (fl (lo + ext) - lo) / 2) - ext / 2 := by ring
        rw [e]; exact s3) hB
  unfold rootCenterF
  linarith

end Boxtree
