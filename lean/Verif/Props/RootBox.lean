import Verif.Props.BuildArgs
import Verif.Lemmas.RoundedBits

/-!
# C50: the bounding box with rounding
-/

namespace Boxtree.Build

variable {fl : ℚ → ℚ} {u : ℚ}

theorem Rounds.pos (h : Rounds fl u) {x : ℚ} (hx : 0 < x) : 0 < fl x := by
  have h1 := abs_le.1 (h.err x)
  rw [abs_of_pos hx] at h1
  have h2 := mul_le_mul_of_nonneg_right h.small hx.le
  linarith [h1.1]

theorem Rounds.zero (h : Rounds fl u) : fl 0 = 0 := by
  have h1 := h.err 0
  rw [abs_zero, mul_zero, sub_zero] at h1
  exact abs_eq_zero.1 (le_antisymm h1 (abs_nonneg _))

theorem Rounds.nonneg (h : Rounds fl u) {x : ℚ} (hx : 0 ≤ x) : 0 ≤ fl x := by
  rcases hx.eq_or_lt with rfl | hx
  · rw [h.zero]
  · exact (h.pos hx).le

/-- Without rounding. -/
theorem Rounds.exact : Rounds id 0 := ⟨by simp, by simp, by norm_num⟩

/-- The automatic bounding box in terms of the rounded ends of the particles. -/
theorem rootBox_auto (h : Rounds fl u) (hm : Monotone fl) (d n : Nat) (x : Nat → Nat → ℚ)
    (r : Nat → ℚ) :
    ∃ b, rootBox fl d n x r none = .ok b ∧
      (∀ a ≤ d, (∀ i ≤ n, b.lo a ≤ fl (x a i - r i)) ∧ ∃ i ≤ n, b.lo a = fl (x a i - r i)) ∧
      (∀ a ≤ d, ∀ i ≤ n, fl (fl (fl (x a i + r i) - b.lo a) * fl (1 + 1 / 10 ^ 4)) ≤ b.ext) ∧
      (∃ a ≤ d, ∃ i ≤ n, fl (fl (fl (x a i + r i) - b.lo a) * fl (1 + 1 / 10 ^ 4)) = b.ext) ∧
      ((∃ a ≤ d, ∃ i ≤ n, ∃ j ≤ n, fl (x a i - r i) < fl (x a j + r j)) → 0 < b.ext) := by
  have hst : 0 < fl (1 + 1 / 10 ^ 4) := h.pos (by norm_num)
  have hup : ∀ a ≤ d, ∀ i ≤ n, fl (fl (x a i + r i) - (autoBox fl (x a) r n).1) ≤
      maxUpto (fun a => fl ((autoBox fl (x a) r n).2 - (autoBox fl (x a) r n).1)) d := by
    intro a ha i hi
    refine le_trans (hm ?_) (le_maxUpto
      (fun a => fl ((autoBox fl (x a) r n).2 - (autoBox fl (x a) r n).1)) d a ha)
    have := (autoBox_mem fl (x a) r n i hi).2
    linarith
  refine ⟨_, rfl, fun a ha => ⟨fun i hi => (autoBox_mem fl (x a) r n i hi).1,
    (autoBox_attained fl (x a) r n).1⟩, fun a ha i hi => ?_, ?_, ?_⟩
  · exact hm (mul_le_mul_of_nonneg_right (hup a ha i hi) hst.le)
  · obtain ⟨a, ha, h1⟩ := maxUpto_attained
      (fun a => fl ((autoBox fl (x a) r n).2 - (autoBox fl (x a) r n).1)) d
    obtain ⟨i, hi, h2⟩ := (autoBox_attained fl (x a) r n).2
    refine ⟨a, ha, i, hi, ?_⟩
    show _ = fl (_ * fl (1 + stretch))
    rw [h1, ← h2]
    rfl
  · rintro ⟨a, ha, i, hi, j, hj, hlt⟩
    refine h.pos (mul_pos (lt_of_lt_of_le (h.pos ?_) (hup a ha j hj)) hst)
    have := (autoBox_mem fl (x a) r n i hi).1
    linarith

/-- Rounding errors of numbers in the bounding box. -/
theorem Rounds.within (h : Rounds fl u) {y lo ext : ℚ} (h1 : lo ≤ fl y) (h2 : fl y ≤ lo + ext) :
    |fl y - y| ≤ 2 * u * (|lo| + ext) := by
  have hu := h.nonneg_u
  have hs := h.small
  have h3 : |fl y| ≤ |lo| + ext := by
    rw [abs_le]
    have := neg_abs_le lo
    have := le_abs_self lo
    constructor <;> linarith
  have h4 := h.err y
  have h5 : |y| ≤ |fl y| + |fl y - y| := by
    have := abs_sub_abs_le_abs_sub y (fl y)
    rw [abs_sub_comm] at this
    linarith
  have h6 : |y| ≤ 8 / 7 * (|lo| + ext) := by
    have := mul_le_mul_of_nonneg_right hs (abs_nonneg y)
    linarith
  have h7 := mul_le_mul_of_nonneg_left h6 hu
  have : 0 ≤ u * (|lo| + ext) := mul_nonneg hu ((abs_nonneg _).trans h3)
  linarith

/-- The stretch makes up for the rounding of the extent. -/
theorem stretch_le (h : Rounds fl u) (hu : u ≤ 1 / 40000) {y : ℚ} (hy : 0 ≤ y) :
    (1 + 1 / 10 ^ 4) * (1 - 3 * u) * y ≤ fl (fl y * fl (1 + 1 / 10 ^ 4)) := by
  have hu0 := h.nonneg_u
  have h1 := (abs_le.1 (h.err y)).1
  have h2 := (abs_le.1 (h.err (1 + 1 / 10 ^ 4))).1
  rw [abs_of_nonneg hy] at h1
  rw [abs_of_pos (by norm_num)] at h2
  have g1 : (1 - u) * y ≤ fl y := by linarith
  have g2 : (1 - u) * (1 + 1 / 10 ^ 4) ≤ fl (1 + 1 / 10 ^ 4) := by linarith
  have hp1 : 0 ≤ (1 - u) * y := mul_nonneg (by linarith) hy
  have hp2 : 0 ≤ (1 - u) * (1 + 1 / 10 ^ 4) := mul_nonneg (by linarith) (by norm_num)
  have g3 := mul_le_mul g1 g2 hp2 (hp1.trans g1)
  have h4 := (abs_le.1 (h.err (fl y * fl (1 + 1 / 10 ^ 4)))).1
  rw [abs_of_nonneg ((mul_nonneg hp1 hp2).trans g3)] at h4
  have g4 : (1 - u) * (((1 - u) * y) * ((1 - u) * (1 + 1 / 10 ^ 4))) ≤
      fl (fl y * fl (1 + 1 / 10 ^ 4)) := by
    have := mul_le_mul_of_nonneg_left g3 (show 0 ≤ 1 - u by linarith)
    linarith
  refine le_trans ?_ g4
  have e : (1 - u) * (((1 - u) * y) * ((1 - u) * (1 + 1 / 10 ^ 4))) =
      (1 + 1 / 10 ^ 4) * ((1 - u) ^ 3 * y) := by ring
  rw [e, mul_assoc]
  refine mul_le_mul_of_nonneg_left (mul_le_mul_of_nonneg_right ?_ hy) (by norm_num)
  nlinarith [mul_nonneg hu0 hu0, mul_nonneg (mul_nonneg hu0 hu0) (show 0 ≤ 3 - u by linarith)]

/-- The rounded extent is not much too large. -/
theorem stretch_ge (h : Rounds fl u) (hu : u ≤ 1 / 40000) {y : ℚ} (hy : 0 ≤ y) :
    fl (fl y * fl (1 + 1 / 10 ^ 4)) ≤ (1 + 1 / 5000) * y := by
  have hu0 := h.nonneg_u
  have h1 := (abs_le.1 (h.err y)).2
  have h2 := (abs_le.1 (h.err (1 + 1 / 10 ^ 4))).2
  rw [abs_of_nonneg hy] at h1
  rw [abs_of_pos (by norm_num)] at h2
  have g1 : fl y ≤ (1 + 1 / 40000) * y := by
    have := mul_le_mul_of_nonneg_right hu hy
    linarith
  have g2 : fl (1 + 1 / 10 ^ 4) ≤ (1 + 1 / 40000) * (1 + 1 / 10 ^ 4) := by linarith
  have hp1 : 0 ≤ fl y := h.nonneg hy
  have hp2 : 0 ≤ fl (1 + 1 / 10 ^ 4) := h.nonneg (by norm_num)
  have g3 := mul_le_mul g1 g2 hp2 (hp1.trans g1)
  have h4 := (abs_le.1 (h.err (fl y * fl (1 + 1 / 10 ^ 4)))).2
  rw [abs_of_nonneg (mul_nonneg hp1 hp2)] at h4
  have g4 := mul_le_mul_of_nonneg_right hu (mul_nonneg hp1 hp2)
  norm_num at *
  linarith

/-- **C50** with rounding, automatic bounding box: if the coordinates are floating point numbers and
rounding is monotone, no center of a particle is below the box, the rounded ends of all particles are
in the box, and so are the ends themselves up to two rounding errors. -/
theorem C50_auto_bbox_rounded (h : Rounds fl u) (hm : Monotone fl) (hu : u ≤ 1 / 40000) (d n : Nat)
    (x : Nat → Nat → ℚ) (r : Nat → ℚ) (hx : ∀ a ≤ d, ∀ i ≤ n, fl (x a i) = x a i)
    (hr : ∀ i ≤ n, 0 ≤ r i) :
    ∃ b, rootBox fl d n x r none = .ok b ∧ ∀ a ≤ d, ∀ i ≤ n,
      b.lo a ≤ x a i ∧ b.lo a ≤ fl (x a i - r i) ∧ fl (x a i + r i) ≤ b.lo a + b.ext ∧
      b.lo a - 2 * u * (|b.lo a| + b.ext) ≤ x a i - r i ∧
      x a i + r i ≤ b.lo a + b.ext + 2 * u * (|b.lo a| + b.ext) := by
  obtain ⟨b, hb, h1, h2, _, _⟩ := rootBox_auto h hm d n x r
  refine ⟨b, hb, fun a ha i hi => ?_⟩
  have hu0 := h.nonneg_u
  have e1 : fl (x a i - r i) ≤ x a i := by
    rw [← hx a ha i hi]
    exact hm (by rw [hx a ha i hi]; linarith [hr i hi])
  have e2 : x a i ≤ fl (x a i + r i) := by
    calc x a i = fl (x a i) := (hx a ha i hi).symm
      _ ≤ _ := hm (by linarith [hr i hi])
  have e3 := (h1 a ha).1 i hi
  have hy : 0 ≤ fl (x a i + r i) - b.lo a := by linarith
  have e4 : fl (x a i + r i) ≤ b.lo a + b.ext := by
    have g := (stretch_le h hu hy).trans (h2 a ha i hi)
    have : 1 * (fl (x a i + r i) - b.lo a) ≤
        (1 + 1 / 10 ^ 4) * (1 - 3 * u) * (fl (x a i + r i) - b.lo a) :=
      mul_le_mul_of_nonneg_right (by linarith) hy
    linarith
  have k1 := abs_le.1 (h.within (y := x a i - r i) (lo := b.lo a) (ext := b.ext) e3 (by linarith))
  have k2 := abs_le.1 (h.within (y := x a i + r i) (lo := b.lo a) (ext := b.ext) (by linarith) e4)
  exact ⟨by linarith, e3, e4, by linarith, by linarith⟩

/-- In single precision: two particles, one with a radius. -/
example : Rounds (roundEven 24) (1 / 2 ^ 24) ∧ Monotone (roundEven 24) ∧
    roundEven 24 (13421773 / 2 ^ 27) = 13421773 / 2 ^ 27 ∧
    (match rootBox (roundEven 24) 0 1 (fun _ i => [13421773 / 2 ^ 27, 1 / 2].getD i 0)
        (fun i => [1 / 2 ^ 26, 0].getD i 0) none with
      | .ok b => some (b.lo 0, b.ext) | .error _ => none) =
        some (13421771 / 2 ^ 27, 13423115 / 2 ^ 25) :=
  ⟨roundEven_rounds (by decide), roundEven_mono (by decide), by decide +kernel, by decide +kernel⟩

end Boxtree.Build
