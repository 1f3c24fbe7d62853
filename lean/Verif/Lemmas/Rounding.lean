import Verif.Spec.Rounding
import Mathlib.Tactic.Linarith
import Mathlib.Tactic.Ring
import Mathlib.Tactic.FieldSimp

/-! Rounding to a number of significant bits. -/

namespace Boxtree.Build

theorem two_zpow_pos (k : ℤ) : (0 : ℚ) < 2 ^ k := zpow_pos (by norm_num) k

theorem log_unique {x : ℚ} {k : ℤ} (h1 : (2 : ℚ) ^ k ≤ x) (h2 : x < 2 ^ (k + 1)) :
    Int.log 2 x = k := by
  have hx : 0 < x := lt_of_lt_of_le (two_zpow_pos k) h1
  have h3 := Int.zpow_log_le_self (b := 2) (by norm_num) hx
  have h4 := Int.lt_zpow_succ_log_self (b := 2) (by norm_num) x
  push_cast at h3 h4
  have h5 : (2 : ℚ) ^ k < 2 ^ (Int.log 2 x + 1) := lt_of_le_of_lt h1 h4
  have h6 : (2 : ℚ) ^ Int.log 2 x < 2 ^ (k + 1) := lt_of_le_of_lt h3 h2
  rw [zpow_lt_zpow_iff_right₀ (by norm_num)] at h5 h6
  omega

/-- Numbers with `p` significant bits. -/
def Representable (p : Nat) (z : ℚ) : Prop := ∃ m e : ℤ, |m| ≤ 2 ^ p ∧ z = m * 2 ^ e

theorem roundTo_zero (p : Nat) : roundTo p 0 = 0 := by unfold roundTo roundBy; exact if_pos rfl

/-- `near` rounds to a nearest integer. -/
def NearInt (near : ℚ → ℤ) : Prop := ∀ y, |(near y : ℚ) - y| ≤ 1 / 2

theorem near_floor : NearInt fun y => ⌊y + 1 / 2⌋ := by
  intro y
  have h7 := Int.floor_le (y + 1 / 2)
  have h8 := Int.lt_floor_add_one (y + 1 / 2)
  rw [abs_le]; constructor <;> linarith

theorem near_even : NearInt fun y => if (⌊y + 1 / 2⌋ : ℚ) = y + 1 / 2 ∧ ⌊y + 1 / 2⌋ % 2 = 1
    then ⌊y + 1 / 2⌋ - 1 else ⌊y + 1 / 2⌋ := by
  intro y
  simp only
  split
  · rename_i h
    push_cast
    rw [h.1, abs_le]; constructor <;> linarith
  · exact near_floor y

variable {near : ℚ → ℤ}

theorem NearInt.int (hn : NearInt near) (m : ℤ) : near m = m := by
  have h := hn m
  rw [← Int.cast_sub, ← Int.cast_abs] at h
  have h2 : ((|near m - m| : ℤ) : ℚ) < ((1 : ℤ) : ℚ) := lt_of_le_of_lt h (by norm_num)
  have h3 : |near (m : ℚ) - m| < 1 := Int.cast_lt.1 h2
  have := Int.abs_lt_one_iff.1 h3
  omega

theorem roundBy_of_representable (hn : NearInt near) {p : Nat} (hp : 1 ≤ p) {z : ℚ}
    (h : Representable p z) : roundBy near p z = z := by
  obtain ⟨m, e, hm, rfl⟩ := h
  unfold roundBy
  split
  · rename_i h0; exact h0.symm
  rename_i h0
  have hpos : 0 < |(m : ℚ) * 2 ^ e| := abs_pos.2 h0
  have h3 := Int.zpow_log_le_self (b := 2) (by norm_num) hpos
  push_cast at h3
  generalize Int.log 2 |(m : ℚ) * 2 ^ e| = L at *
  have hmq : |(m : ℚ)| ≤ 2 ^ p := by exact_mod_cast hm
  have he := two_zpow_pos e
  rw [abs_mul, abs_of_pos he] at h3
  -- the quotient is an integer
  have key : ∃ j : ℤ, (m : ℚ) * 2 ^ e / 2 ^ (L + 1 - p) = j := by
    by_cases hc : L + 1 - p ≤ e
    · refine ⟨m * 2 ^ (e - (L + 1 - p)).toNat, ?_⟩
      push_cast
      rw [mul_div_assoc, ← zpow_sub₀ (by norm_num), ← zpow_natCast, Int.toNat_of_nonneg (by omega)]
    · have h4 : (2 : ℚ) ^ L ≤ 2 ^ ((p : ℤ) + e) := by
        rw [zpow_add₀ (by norm_num), zpow_natCast]
        exact le_trans h3 (mul_le_mul_of_nonneg_right hmq he.le)
      rw [zpow_le_zpow_iff_right₀ (by norm_num)] at h4
      have hL : L = p + e := by omega
      subst hL
      rw [zpow_add₀ (by norm_num), zpow_natCast] at h3
      have h5 := le_of_mul_le_mul_right h3 he
      have h6 : |m| = 2 ^ p := by
        have : |(m : ℚ)| = 2 ^ p := le_antisymm hmq h5
        exact_mod_cast this
      have h7 : (2 : ℚ) ^ e / 2 ^ ((p : ℤ) + e + 1 - p) = 1 / 2 := by
        rw [← zpow_sub₀ (by norm_num), show e - ((p : ℤ) + e + 1 - p) = -1 by ring]
        norm_num
      obtain ⟨q, rfl⟩ : ∃ q, p = q + 1 := ⟨p - 1, by omega⟩
      rcases (abs_eq (by positivity)).1 h6 with h8 | h8
      · refine ⟨2 ^ q, ?_⟩
        rw [mul_div_assoc, h7, h8]
        push_cast
        rw [pow_succ]; ring
      · refine ⟨-2 ^ q, ?_⟩
        rw [mul_div_assoc, h7, h8]
        push_cast
        rw [pow_succ]; ring
  obtain ⟨j, hj⟩ := key
  rw [hj, hn.int, ← hj]
  exact div_mul_cancel₀ _ (two_zpow_pos _).ne'

theorem roundBy_representable (hn : NearInt near) (p : Nat) (x : ℚ) :
    Representable p (roundBy near p x) := by
  unfold roundBy
  split
  · exact ⟨0, 0, by simp, by simp⟩
  rename_i h0
  have hpos : 0 < |x| := abs_pos.2 h0
  have h4 := Int.lt_zpow_succ_log_self (b := 2) (by norm_num) |x|
  push_cast at h4
  refine ⟨_, _, ?_, rfl⟩
  generalize Int.log 2 |x| = L at *
  have hs := two_zpow_pos (L + 1 - p)
  have h5 : |x / 2 ^ (L + 1 - (p : ℤ))| < 2 ^ p := by
    rw [abs_div, abs_of_pos hs, div_lt_iff₀ hs, ← zpow_natCast, ← zpow_add₀ (by norm_num)]
    rw [show (p : ℤ) + (L + 1 - p) = L + 1 by ring]
    exact h4
  have h6 := abs_le.1 (hn (x / 2 ^ (L + 1 - (p : ℤ))))
  generalize near (x / 2 ^ (L + 1 - (p : ℤ))) = k at *
  rw [abs_lt] at h5
  rw [abs_le]
  constructor
  · have : ((-2 ^ p - 1 : ℤ) : ℚ) < (k : ℚ) := by push_cast; linarith [h5.1, h6.1]
    have := Int.cast_lt.1 this
    omega
  · have : (k : ℚ) < ((2 ^ p + 1 : ℤ) : ℚ) := by push_cast; linarith [h5.2, h6.2]
    have := Int.cast_lt.1 this
    omega

theorem roundBy_err (hn : NearInt near) (p : Nat) (x : ℚ) :
    |roundBy near p x - x| ≤ 1 / 2 ^ p * |x| := by
  unfold roundBy
  split
  · rename_i h; subst h; simp
  rename_i h0
  have hpos : 0 < |x| := abs_pos.2 h0
  have h3 := Int.zpow_log_le_self (b := 2) (by norm_num) hpos
  push_cast at h3
  generalize Int.log 2 |x| = L at *
  have hs := two_zpow_pos (L + 1 - p)
  have e : x = x / 2 ^ (L + 1 - (p : ℤ)) * 2 ^ (L + 1 - (p : ℤ)) := (div_mul_cancel₀ _ hs.ne').symm
  have h6 := hn (x / 2 ^ (L + 1 - (p : ℤ)))
  have h9 : (2 : ℚ) ^ (L + 1 - (p : ℤ)) * (1 / 2) = 1 / 2 ^ p * 2 ^ L := by
    rw [zpow_sub₀ (by norm_num), zpow_add₀ (by norm_num), zpow_natCast]
    field_simp
  calc |(near (x / 2 ^ (L + 1 - (p : ℤ))) : ℚ) * 2 ^ (L + 1 - (p : ℤ)) - x|
      = |(near (x / 2 ^ (L + 1 - (p : ℤ))) : ℚ) - x / 2 ^ (L + 1 - (p : ℤ))|
          * 2 ^ (L + 1 - (p : ℤ)) := by
        rw [← abs_of_pos hs, ← abs_mul, abs_of_pos hs, sub_mul, ← e]
    _ ≤ 1 / 2 * 2 ^ (L + 1 - (p : ℤ)) := mul_le_mul_of_nonneg_right h6 hs.le
    _ = 1 / 2 ^ p * 2 ^ L := by rw [mul_comm, h9]
    _ ≤ 1 / 2 ^ p * |x| := mul_le_mul_of_nonneg_left h3 (by positivity)

theorem roundBy_scale (hn : NearInt near) {p : Nat} (hp : 1 ≤ p) (y : ℚ) (k : Nat) :
    roundBy near p (roundBy near p y * 2 ^ k) = roundBy near p y * 2 ^ k := by
  obtain ⟨m, e, hm, h⟩ := roundBy_representable hn p y
  refine roundBy_of_representable hn hp ⟨m, e + k, hm, ?_⟩
  rw [h, zpow_add₀ (by norm_num), zpow_natCast]
  ring

theorem roundBy_rounds (hn : NearInt near) {p : Nat} (hp : 3 ≤ p) :
    Rounds (roundBy near p) (1 / 2 ^ p) where
  err := roundBy_err hn p
  scale := roundBy_scale hn (by omega)
  small := by
    have : (2 : ℚ) ^ 3 ≤ 2 ^ p := pow_le_pow_right₀ (by norm_num) hp
    rw [div_le_div_iff₀ (by positivity) (by norm_num)]
    linarith

/-- Rounding to the nearest is a rounding. -/
theorem roundTo_rounds {p : Nat} (hp : 3 ≤ p) : Rounds (roundTo p) (1 / 2 ^ p) :=
  roundBy_rounds near_floor hp

/-- Rounding to the nearest with ties to even is a rounding. -/
theorem roundEven_rounds {p : Nat} (hp : 3 ≤ p) : Rounds (roundEven p) (1 / 2 ^ p) :=
  roundBy_rounds near_even hp

theorem rootTo_rounds (k : Nat) : RoundsRoot (rootTo k) (1 / 2 ^ k) := by
  intro x hx
  unfold rootTo
  rcases eq_or_lt_of_le hx with h0 | h0
  · subst h0; simp
  have hnum : 0 < x.num := Rat.num_pos.2 h0
  have hden : 0 < x.den := x.den_pos
  obtain ⟨n, hn⟩ : ∃ n : Nat, x.num = n := ⟨x.num.toNat, (Int.toNat_of_nonneg hnum.le).symm⟩
  have hn1 : 1 ≤ n := by omega
  have hxe : (x : ℝ) = n / x.den := by
    have h1 := Rat.cast_def (K := ℝ) x
    rw [hn, Int.cast_natCast] at h1
    exact h1
  rw [hn, Int.toNat_natCast]
  generalize hd : x.den = d at *
  have hd1 : (0 : ℝ) < d := by exact_mod_cast hden
  set N := n * d * 4 ^ k with hN
  have hs : Real.sqrt x = Real.sqrt N / (d * 2 ^ k) := by
    rw [eq_div_iff (by positivity), hxe]
    have : (d : ℝ) * 2 ^ k = Real.sqrt ((d * 2 ^ k) ^ 2) := (Real.sqrt_sq (by positivity)).symm
    rw [this, ← Real.sqrt_mul (by positivity)]
    congr 1
    rw [hN]
    push_cast
    rw [show (4 : ℝ) = 2 ^ 2 by norm_num, ← pow_mul]
    field_simp
    rw [← pow_mul, mul_comm]
  have h1 : (Nat.sqrt N : ℝ) ≤ Real.sqrt N := Real.nat_sqrt_le_real_sqrt
  have h2 : Real.sqrt N ≤ Nat.sqrt N + 1 := Real.real_sqrt_le_nat_sqrt_succ
  have h3 : (2 : ℝ) ^ k ≤ Real.sqrt N := by
    apply Real.le_sqrt_of_sq_le
    rw [← pow_mul, mul_comm k 2, pow_mul, hN]
    push_cast
    have h4 : (1 : ℝ) ≤ n * d := by exact_mod_cast Nat.mul_pos hn1 hden
    norm_num
    nlinarith [show (0 : ℝ) < 4 ^ k by positivity]
  rw [hs]
  push_cast
  rw [← sub_div, abs_div, abs_of_pos (by positivity : (0 : ℝ) < d * 2 ^ k), ← mul_div_assoc]
  apply div_le_div_of_nonneg_right _ (by positivity)
  have h5 : (1 : ℝ) ≤ 1 / 2 ^ k * Real.sqrt N := by
    rw [one_div, inv_mul_eq_div, le_div_iff₀ (by positivity), one_mul]
    exact h3
  rw [abs_le]
  constructor <;> linarith

namespace Rounds
variable {fl : ℚ → ℚ} {u : ℚ} (h : Rounds fl u)
include h

theorem nonneg_u : 0 ≤ u := by
  have := h.err 1
  rw [abs_one, mul_one] at this
  exact le_trans (abs_nonneg _) this

theorem rel (x : ℚ) : ∃ e, |e| ≤ u ∧ fl x = x * (1 + e) := by
  by_cases h0 : x = 0
  · subst h0
    have h1 := h.err 0
    simp only [abs_zero, mul_zero, sub_zero] at h1
    exact ⟨0, by simpa using h.nonneg_u, by rw [abs_nonpos_iff.1 h1]; ring⟩
  · refine ⟨(fl x - x) / x, ?_, by field_simp; ring⟩
    rw [abs_div, div_le_iff₀ (abs_pos.2 h0)]
    exact h.err x

end Rounds

/-- Product of factors near one. -/
theorem near_one {u α f e : ℚ} (hu : u ≤ 1 / 8) (hα : 0 ≤ α) (hf : |f - 1| ≤ α * u) (he : |e| ≤ u) :
    |f * (1 + e) - 1| ≤ (α + 1 + α / 8) * u := by
  have hu0 : 0 ≤ u := le_trans (abs_nonneg _) he
  have h1 : f * (1 + e) - 1 = (f - 1) + e + (f - 1) * e := by ring
  rw [h1]
  have h2 : |(f - 1) * e| ≤ α / 8 * u := by
    rw [abs_mul]
    calc |f - 1| * |e| ≤ α * u * u := mul_le_mul hf he (abs_nonneg _) (by positivity)
      _ ≤ α / 8 * u := by nlinarith [mul_nonneg hα hu0]
  have h3 := abs_add_le (f - 1 + e) ((f - 1) * e)
  have h4 := abs_add_le (f - 1) e
  linarith

theorem NearInt.mono (hn : NearInt near) {x y : ℚ} (h : x ≤ y) : near x ≤ near y := by
  rcases h.eq_or_lt with rfl | h
  · exact le_refl _
  · have h1 := abs_le.1 (hn x)
    have h2 := abs_le.1 (hn y)
    have h3 : (near x : ℚ) < (near y + 1 : ℤ) := by push_cast; linarith [h1.2, h2.1]
    have := Int.cast_lt.1 h3
    omega

/-- Rounding keeps a number between two numbers that need no rounding. -/
theorem roundBy_mono (hn : NearInt near) {p : Nat} (hp : 1 ≤ p) : Monotone (roundBy near p) := by
  have hlow : ∀ {x : ℚ} {k : ℤ}, 2 ^ k ≤ x → (2 : ℚ) ^ k ≤ roundBy near p x := by
    intro x k hk
    have hx : 0 < x := lt_of_lt_of_le (two_zpow_pos k) hk
    unfold roundBy
    rw [if_neg hx.ne', abs_of_pos hx]
    have h4 := Int.lt_zpow_succ_log_self (b := 2) (by norm_num) x
    have h3 := Int.zpow_log_le_self (b := 2) (by norm_num) hx
    push_cast at h3 h4
    generalize Int.log 2 x = L at *
    have hkL : k ≤ L := by
      have h5 : (2 : ℚ) ^ k < 2 ^ (L + 1) := lt_of_le_of_lt hk h4
      rw [zpow_lt_zpow_iff_right₀ (by norm_num)] at h5
      omega
    have hs := two_zpow_pos (L + 1 - p)
    have h6 : ((2 ^ (p - 1) : ℤ) : ℚ) ≤ x / 2 ^ (L + 1 - (p : ℤ)) := by
      rw [le_div_iff₀ hs]
      push_cast
      rw [← zpow_natCast, ← zpow_add₀ (by norm_num)]
      rw [show ((p - 1 : Nat) : ℤ) + (L + 1 - p) = L by omega]
      exact h3
    have h7 := hn.mono h6
    rw [hn.int] at h7
    have h8 : ((2 ^ (p - 1) : ℤ) : ℚ) ≤ near (x / 2 ^ (L + 1 - (p : ℤ))) := by exact_mod_cast h7
    calc (2 : ℚ) ^ k ≤ 2 ^ L := by rw [zpow_le_zpow_iff_right₀ (by norm_num)]; exact hkL
      _ = ((2 ^ (p - 1) : ℤ) : ℚ) * 2 ^ (L + 1 - (p : ℤ)) := by
        push_cast
        rw [← zpow_natCast, ← zpow_add₀ (by norm_num)]
        congr 1; omega
      _ ≤ _ := mul_le_mul_of_nonneg_right h8 hs.le
  have hhigh : ∀ {x : ℚ} {k : ℤ}, x ≤ -2 ^ k → roundBy near p x ≤ -(2 : ℚ) ^ k := by
    intro x k hk
    have hx : 0 < -x := lt_of_lt_of_le (two_zpow_pos k) (by linarith)
    unfold roundBy
    rw [if_neg (by linarith), abs_of_neg (by linarith)]
    have h4 := Int.lt_zpow_succ_log_self (b := 2) (by norm_num) (-x)
    have h3 := Int.zpow_log_le_self (b := 2) (by norm_num) hx
    push_cast at h3 h4
    generalize Int.log 2 (-x) = L at *
    have hkL : k ≤ L := by
      have h5 : (2 : ℚ) ^ k < 2 ^ (L + 1) := lt_of_le_of_lt (by linarith) h4
      rw [zpow_lt_zpow_iff_right₀ (by norm_num)] at h5
      omega
    have hs := two_zpow_pos (L + 1 - p)
    have h6 : x / 2 ^ (L + 1 - (p : ℤ)) ≤ ((-2 ^ (p - 1) : ℤ) : ℚ) := by
      rw [div_le_iff₀ hs]
      push_cast
      rw [neg_mul, ← zpow_natCast, ← zpow_add₀ (by norm_num)]
      rw [show ((p - 1 : Nat) : ℤ) + (L + 1 - p) = L by omega]
      linarith
    have h7 := hn.mono h6
    rw [hn.int] at h7
    have h8 : (near (x / 2 ^ (L + 1 - (p : ℤ))) : ℚ) ≤ ((-2 ^ (p - 1) : ℤ) : ℚ) := by exact_mod_cast h7
    calc _ ≤ ((-2 ^ (p - 1) : ℤ) : ℚ) * 2 ^ (L + 1 - (p : ℤ)) := mul_le_mul_of_nonneg_right h8 hs.le
      _ = -2 ^ L := by
        push_cast
        rw [neg_mul, ← zpow_natCast, ← zpow_add₀ (by norm_num)]
        congr 2; omega
      _ ≤ -(2 : ℚ) ^ k := by
        rw [neg_le_neg_iff, zpow_le_zpow_iff_right₀ (by norm_num)]; exact hkL
  have hlow' : ∀ {x : ℚ} {k : ℤ}, 0 < x → x < 2 ^ k → roundBy near p x ≤ 2 ^ k := by
    intro x k hx hk
    unfold roundBy
    rw [if_neg hx.ne', abs_of_pos hx]
    have h4 := Int.lt_zpow_succ_log_self (b := 2) (by norm_num) x
    have h3 := Int.zpow_log_le_self (b := 2) (by norm_num) hx
    push_cast at h3 h4
    generalize Int.log 2 x = L at *
    have hkL : L + 1 ≤ k := by
      have h5 : (2 : ℚ) ^ L < 2 ^ k := lt_of_le_of_lt h3 hk
      rw [zpow_lt_zpow_iff_right₀ (by norm_num)] at h5
      omega
    have hs := two_zpow_pos (L + 1 - p)
    have h6 : x / 2 ^ (L + 1 - (p : ℤ)) ≤ ((2 ^ p : ℤ) : ℚ) := by
      rw [div_le_iff₀ hs]
      push_cast
      rw [← zpow_natCast, ← zpow_add₀ (by norm_num)]
      rw [show (p : ℤ) + (L + 1 - p) = L + 1 by omega]
      exact h4.le
    have h7 := hn.mono h6
    rw [hn.int] at h7
    have h8 : (near (x / 2 ^ (L + 1 - (p : ℤ))) : ℚ) ≤ ((2 ^ p : ℤ) : ℚ) := by exact_mod_cast h7
    calc _ ≤ ((2 ^ p : ℤ) : ℚ) * 2 ^ (L + 1 - (p : ℤ)) := mul_le_mul_of_nonneg_right h8 hs.le
      _ = 2 ^ (L + 1) := by
        push_cast
        rw [← zpow_natCast, ← zpow_add₀ (by norm_num)]
        congr 1; omega
      _ ≤ 2 ^ k := by rw [zpow_le_zpow_iff_right₀ (by norm_num)]; exact hkL
  have hhigh' : ∀ {x : ℚ} {k : ℤ}, x < 0 → -2 ^ k < x → -(2 : ℚ) ^ k ≤ roundBy near p x := by
    intro x k hx hk
    unfold roundBy
    rw [if_neg (by linarith), abs_of_neg (by linarith)]
    have h4 := Int.lt_zpow_succ_log_self (b := 2) (by norm_num) (-x)
    have h3 := Int.zpow_log_le_self (b := 2) (by norm_num) (show 0 < -x by linarith)
    push_cast at h3 h4
    generalize Int.log 2 (-x) = L at *
    have hkL : L + 1 ≤ k := by
      have h5 : (2 : ℚ) ^ L < 2 ^ k := lt_of_le_of_lt h3 (by linarith)
      rw [zpow_lt_zpow_iff_right₀ (by norm_num)] at h5
      omega
    have hs := two_zpow_pos (L + 1 - p)
    have h6 : ((-2 ^ p : ℤ) : ℚ) ≤ x / 2 ^ (L + 1 - (p : ℤ)) := by
      rw [le_div_iff₀ hs]
      push_cast
      rw [neg_mul, ← zpow_natCast, ← zpow_add₀ (by norm_num)]
      rw [show (p : ℤ) + (L + 1 - p) = L + 1 by omega]
      linarith
    have h7 := hn.mono h6
    rw [hn.int] at h7
    have h8 : ((-2 ^ p : ℤ) : ℚ) ≤ (near (x / 2 ^ (L + 1 - (p : ℤ))) : ℚ) := by exact_mod_cast h7
    calc -(2 : ℚ) ^ k ≤ -2 ^ (L + 1) := by
          rw [neg_le_neg_iff, zpow_le_zpow_iff_right₀ (by norm_num)]; exact hkL
      _ = ((-2 ^ p : ℤ) : ℚ) * 2 ^ (L + 1 - (p : ℤ)) := by
        push_cast
        rw [neg_mul, ← zpow_natCast, ← zpow_add₀ (by norm_num)]
        congr 2; omega
      _ ≤ _ := mul_le_mul_of_nonneg_right h8 hs.le
  have h0 : roundBy near p 0 = 0 := by unfold roundBy; exact if_pos rfl
  have pos : ∀ {x : ℚ}, 0 < x → 0 < roundBy near p x := by
    intro x hx
    have h3 := Int.zpow_log_le_self (b := 2) (by norm_num) hx
    push_cast at h3
    exact lt_of_lt_of_le (two_zpow_pos _) (hlow h3)
  have neg : ∀ {x : ℚ}, x < 0 → roundBy near p x < 0 := by
    intro x hx
    have h3 := Int.zpow_log_le_self (b := 2) (by norm_num) (show 0 < -x by linarith)
    push_cast at h3
    have := hhigh (x := x) (k := Int.log 2 (-x)) (by linarith)
    linarith [two_zpow_pos (Int.log 2 (-x))]
  intro x y hxy
  rcases lt_trichotomy x 0 with hx | rfl | hx
  · rcases lt_trichotomy y 0 with hy | rfl | hy
    · -- both negative
      have a3 := Int.zpow_log_le_self (b := 2) (by norm_num) (show 0 < -x by linarith)
      have a4 := Int.lt_zpow_succ_log_self (b := 2) (by norm_num) (-x)
      have b3 := Int.zpow_log_le_self (b := 2) (by norm_num) (show 0 < -y by linarith)
      have b4 := Int.lt_zpow_succ_log_self (b := 2) (by norm_num) (-y)
      push_cast at a3 a4 b3 b4
      by_cases he : Int.log 2 (-x) = Int.log 2 (-y)
      · unfold roundBy
        rw [if_neg hx.ne, if_neg hy.ne, abs_of_neg hx, abs_of_neg hy, he]
        have hs := two_zpow_pos (Int.log 2 (-y) + 1 - p)
        refine mul_le_mul_of_nonneg_right ?_ hs.le
        have := hn.mono (div_le_div_of_nonneg_right hxy hs.le)
        exact_mod_cast this
      · have hlt : Int.log 2 (-y) + 1 ≤ Int.log 2 (-x) := by
          have : (2 : ℚ) ^ Int.log 2 (-y) < 2 ^ (Int.log 2 (-x) + 1) := by linarith
          rw [zpow_lt_zpow_iff_right₀ (by norm_num)] at this
          omega
        have h5 : (2 : ℚ) ^ (Int.log 2 (-y) + 1) ≤ 2 ^ Int.log 2 (-x) := by
          rw [zpow_le_zpow_iff_right₀ (by norm_num)]; exact hlt
        exact (hhigh (k := Int.log 2 (-y) + 1) (by linarith)).trans (hhigh' hy (by linarith))
    · rw [h0]; exact (neg hx).le
    · exact ((neg hx).trans (pos hy)).le
  · rcases hxy.eq_or_lt with rfl | hy
    · exact le_refl _
    · rw [h0]; exact (pos hy).le
  · have hy : 0 < y := lt_of_lt_of_le hx hxy
    have a3 := Int.zpow_log_le_self (b := 2) (by norm_num) hx
    have a4 := Int.lt_zpow_succ_log_self (b := 2) (by norm_num) x
    have b3 := Int.zpow_log_le_self (b := 2) (by norm_num) hy
    have b4 := Int.lt_zpow_succ_log_self (b := 2) (by norm_num) y
    push_cast at a3 a4 b3 b4
    by_cases he : Int.log 2 x = Int.log 2 y
    · unfold roundBy
      rw [if_neg hx.ne', if_neg hy.ne', abs_of_pos hx, abs_of_pos hy, he]
      have hs := two_zpow_pos (Int.log 2 y + 1 - p)
      refine mul_le_mul_of_nonneg_right ?_ hs.le
      have := hn.mono (div_le_div_of_nonneg_right hxy hs.le)
      exact_mod_cast this
    · have hlt : Int.log 2 x + 1 ≤ Int.log 2 y := by
        have : (2 : ℚ) ^ Int.log 2 x < 2 ^ (Int.log 2 y + 1) := by linarith
        rw [zpow_lt_zpow_iff_right₀ (by norm_num)] at this
        omega
      have h5 : (2 : ℚ) ^ (Int.log 2 x + 1) ≤ 2 ^ Int.log 2 y := by
        rw [zpow_le_zpow_iff_right₀ (by norm_num)]; exact hlt
      exact (hlow' hx a4).trans (hlow (h5.trans b3))

theorem roundTo_mono {p : Nat} (hp : 1 ≤ p) : Monotone (roundTo p) := roundBy_mono near_floor hp

theorem roundEven_mono {p : Nat} (hp : 1 ≤ p) : Monotone (roundEven p) := roundBy_mono near_even hp

end Boxtree.Build
