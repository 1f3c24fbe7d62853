import Verif.Lemmas.Rounding
import Verif.Lemmas.Inside

/-! Morton numbers with rounding. -/

namespace Boxtree.Build

section
variable {fl : ℚ → ℚ} {u : ℚ} (h : Rounds fl u) {lo ext : Nat → ℚ} {a : Nat} (hE : 0 ≤ ext a)
include h hE

theorem extF_err : |Arith.extF fl lo ext a - ext a| ≤ 17 / 8 * (u * (|lo a| + ext a)) := by
  have hu := h.nonneg_u
  have hs := h.small
  unfold Arith.extF
  have h1 := h.err (lo a + ext a)
  have h2 := h.err (fl (lo a + ext a) - lo a)
  have h3 : |lo a + ext a| ≤ |lo a| + ext a := by
    have := abs_add_le (lo a) (ext a)
    rwa [abs_of_nonneg hE] at this
  have h4 : u * |lo a + ext a| ≤ u * (|lo a| + ext a) := mul_le_mul_of_nonneg_left h3 hu
  have hM : ext a ≤ |lo a| + ext a := by linarith [abs_nonneg (lo a)]
  have hM0 : 0 ≤ |lo a| + ext a := by linarith
  generalize |lo a| + ext a = M at *
  have h5 : |fl (lo a + ext a) - lo a| ≤ M + u * M := by
    have : fl (lo a + ext a) - lo a = (fl (lo a + ext a) - (lo a + ext a)) + ext a := by ring
    rw [this]
    have := abs_add_le (fl (lo a + ext a) - (lo a + ext a)) (ext a)
    rw [abs_of_nonneg hE] at this
    linarith
  have h6 : u * |fl (lo a + ext a) - lo a| ≤ 9 / 8 * (u * M) := by
    have : u * M ≤ 1 / 8 * M := mul_le_mul_of_nonneg_right hs hM0
    calc u * |fl (lo a + ext a) - lo a| ≤ u * (M + 1 / 8 * M) :=
          mul_le_mul_of_nonneg_left (by linarith) hu
      _ = _ := by ring
  have h7 : fl (fl (lo a + ext a) - lo a) - ext a
      = (fl (fl (lo a + ext a) - lo a) - (fl (lo a + ext a) - lo a))
        + (fl (lo a + ext a) - (lo a + ext a)) := by ring
  rw [h7]
  have := abs_add_le (fl (fl (lo a + ext a) - lo a) - (fl (lo a + ext a) - lo a))
    (fl (lo a + ext a) - (lo a + ext a))
  linarith

end

namespace Input
variable {inp : Input} {fl rt : ℚ → ℚ} {u : ℚ}

/-- Scaled coordinate that the kernel computes. -/
def fracF (inp : Input) (fl : ℚ → ℚ) (a p : Nat) : ℚ :=
  fl (fl (inp.x a p - inp.lo a) / Arith.extF fl inp.lo inp.ext a)

section
variable (ok : inp.NearlyPlaced u) (h : Rounds fl u) (room : inp.Room u) {a p : Nat} (ha : a < inp.dims)
  (hp : p < inp.n)
include ok h room ha hp

theorem frac_core : 0 ≤ inp.fracF fl a p ∧ inp.fracF fl a p < 1 ∧
    |inp.ext a * inp.fracF fl a p - (inp.x a p - inp.lo a)|
      ≤ 5 * u * (|inp.lo a| + inp.ext a) := by
  have hu := h.nonneg_u
  have hs := h.small
  have hE : 0 < inp.ext a := ok.ext_pos' ha
  have hr := room a ha p hp
  have hd0 := ok.center a ha p hp
  have hX := extF_err h (lo := inp.lo) (ext := inp.ext) (a := a) hE.le
  have hM : inp.ext a ≤ |inp.lo a| + inp.ext a := by linarith [abs_nonneg (inp.lo a)]
  unfold fracF
  obtain ⟨e1, he1, q1⟩ := h.rel (inp.x a p - inp.lo a)
  obtain ⟨e2, he2, q2⟩ := h.rel (fl (inp.x a p - inp.lo a) / Arith.extF fl inp.lo inp.ext a)
  rw [q2, q1]
  generalize Arith.extF fl inp.lo inp.ext a = X at *
  generalize hMM : |inp.lo a| + inp.ext a = M at *
  have hd0 : 0 ≤ inp.x a p - inp.lo a := by linarith
  have hr : inp.x a p - inp.lo a + 5 * (u * M) < inp.ext a := by linarith
  generalize inp.x a p - inp.lo a = d at *
  have hM0 : 0 ≤ M := by linarith
  have huM : 0 ≤ u * M := mul_nonneg hu hM0
  rw [abs_le] at hX
  have hX0 : 0 < X := by linarith
  have hf : |(1 + e1) * (1 + e2) - 1| ≤ 17 / 8 * u := by
    have := near_one (f := 1 + e1) (α := 1) hs (by norm_num) (by simpa using he1) he2
    linarith
  have e : d * (1 + e1) / X * (1 + e2) = d / X * ((1 + e1) * (1 + e2)) := by
    field_simp
  rw [e]
  generalize (1 + e1) * (1 + e2) = f at *
  rw [abs_le] at hf
  have hf0 : 0 ≤ f := by linarith
  have hdX : d / X ≤ 1 := (div_le_one hX0).2 (by linarith)
  have hdX0 : 0 ≤ d / X := div_nonneg hd0 hX0.le
  have huE : u * inp.ext a ≤ u * M := mul_le_mul_of_nonneg_left hM hu
  have hud : d * u ≤ u * M := by nlinarith
  refine ⟨mul_nonneg hdX0 hf0, ?_, ?_⟩
  · rw [div_mul_eq_mul_div, div_lt_one hX0]
    have : d * f ≤ d + 17 / 8 * (d * u) := by nlinarith
    linarith
  · have e2 : inp.ext a * (d / X * f) - d = d / X * (inp.ext a * f - X) := by
      field_simp
    rw [e2, abs_mul, abs_of_nonneg hdX0]
    have h1 : |inp.ext a * f - X| ≤ 17 / 4 * (u * M) := by
      have e3 : inp.ext a * f - X = inp.ext a * (f - 1) - (X - inp.ext a) := by ring
      rw [e3, abs_le]
      have : inp.ext a * (f - 1) ≤ 17 / 8 * (u * M) := by nlinarith
      have : -(17 / 8 * (u * M)) ≤ inp.ext a * (f - 1) := by nlinarith
      constructor <;> linarith
    calc d / X * |inp.ext a * f - X| ≤ 1 * (17 / 4 * (u * M)) :=
          mul_le_mul hdX h1 (abs_nonneg _) (by norm_num)
      _ ≤ 5 * u * M := by linarith

end

theorem Room.scaled (room : inp.Room u) (ok : inp.NearlyPlaced u) (h : Rounds fl u)
    (hx : inp.arith = .rounded fl rt) : inp.Scaled (inp.fracF fl) where
  eq := fun a ha p hp l => by
    rw [hx]
    show fl (inp.fracF fl a p * 2 ^ (1 + l)) = _
    exact h.scale _ _
  nonneg := fun a ha p hp => (frac_core ok h room ha hp).1
  lt_one := fun a ha p hp => (frac_core ok h room ha hp).2.1

end Input
/-! ### Extents -/

section
variable {fl : ℚ → ℚ} {u : ℚ} (h : Rounds fl u) {lo ext : Nat → ℚ} {a : Nat} (hE : 0 ≤ ext a)
include h hE

/-- Error of a product with the extent of the bounding box. -/
theorem ext_prod_err {w f : ℚ} (hw0 : 0 ≤ w) (hf : |f - 1| ≤ 5 * u) :
    |Arith.extF fl lo ext a * w * f - ext a * w| ≤ 9 * w * (u * (|lo a| + ext a)) := by
  have hu := h.nonneg_u
  have hs := h.small
  have hX := extF_err h (lo := lo) hE
  have hM : ext a ≤ |lo a| + ext a := by linarith [abs_nonneg (lo a)]
  generalize Arith.extF fl lo ext a = X at *
  generalize |lo a| + ext a = M at *
  have hM0 : 0 ≤ M := by linarith
  have huM : 0 ≤ u * M := mul_nonneg hu hM0
  have e : X * w * f - ext a * w = w * (ext a * (f - 1) + (X - ext a) * f) := by ring
  rw [e, abs_mul, abs_of_nonneg hw0]
  have h1 : |ext a * (f - 1)| ≤ 5 * (u * M) := by
    rw [abs_mul, abs_of_nonneg hE]
    calc ext a * |f - 1| ≤ M * (5 * u) := mul_le_mul hM hf (abs_nonneg _) hM0
      _ = _ := by ring
  have h2 : |f| ≤ 13 / 8 := by
    rw [abs_le] at hf ⊢
    constructor <;> linarith
  have h3 : |(X - ext a) * f| ≤ 4 * (u * M) := by
    rw [abs_mul]
    calc |X - ext a| * |f| ≤ 17 / 8 * (u * M) * (13 / 8) :=
          mul_le_mul hX h2 (abs_nonneg _) (by positivity)
      _ ≤ _ := by linarith
  have h4 := abs_add_le (ext a * (f - 1)) ((X - ext a) * f)
  calc w * |ext a * (f - 1) + (X - ext a) * f| ≤ w * (9 * (u * M)) :=
        mul_le_mul_of_nonneg_left (by linarith) hw0
    _ = _ := by ring

theorem centerF_err {bits : Nat → Nat} {l : Nat} (hb : bits a + 1 ≤ 2 ^ (1 + l)) :
    |Arith.centerF fl lo ext bits l a - Arith.center lo ext bits l a|
      ≤ 45 / 4 * (u * (|lo a| + ext a)) ∧
    |Arith.center lo ext bits l a| ≤ |lo a| + ext a := by
  have hu := h.nonneg_u
  have hs := h.small
  have hM : ext a ≤ |lo a| + ext a := by linarith [abs_nonneg (lo a)]
  have hP : (0 : ℚ) < 2 ^ (1 + l) := by positivity
  unfold Arith.centerF Arith.center
  obtain ⟨e1, he1, q1⟩ := h.rel ((bits a : ℚ) + 1 / 2)
  obtain ⟨e2, he2, q2⟩ := h.rel (Arith.extF fl lo ext a * fl ((bits a : ℚ) + 1 / 2))
  obtain ⟨e3, he3, q3⟩ := h.rel (fl (Arith.extF fl lo ext a * fl ((bits a : ℚ) + 1 / 2))
    * (1 / 2 ^ (1 + l)))
  have h4 := h.err (lo a + fl (fl (Arith.extF fl lo ext a * fl ((bits a : ℚ) + 1 / 2))
    * (1 / 2 ^ (1 + l))))
  have hb' : (bits a : ℚ) + 1 ≤ 2 ^ (1 + l) := by exact_mod_cast hb
  have hw0 : 0 ≤ ((bits a : ℚ) + 1 / 2) * (1 / 2 ^ (1 + l)) := by positivity
  have hw1 : ((bits a : ℚ) + 1 / 2) * (1 / 2 ^ (1 + l)) ≤ 1 := by
    rw [mul_one_div, div_le_one hP]; linarith
  have hg : fl (fl (Arith.extF fl lo ext a * fl ((bits a : ℚ) + 1 / 2)) * (1 / 2 ^ (1 + l)))
      = Arith.extF fl lo ext a * (((bits a : ℚ) + 1 / 2) * (1 / 2 ^ (1 + l)))
        * ((1 + e1) * (1 + e2) * (1 + e3)) := by
    rw [q3, q2, q1]; ring
  have hf2 := near_one (f := 1 + e1) (α := 1) hs (by norm_num) (by simpa using he1) he2
  have hf3 := near_one (f := (1 + e1) * (1 + e2)) (α := 1 + 1 + 1 / 8) hs (by norm_num) hf2 he3
  have hG := ext_prod_err h (lo := lo) hE (f := (1 + e1) * (1 + e2) * (1 + e3)) hw0 (by linarith)
  rw [← hg] at hG
  rw [mul_assoc (ext a)]
  have hEw : ext a * (((bits a : ℚ) + 1 / 2) * (1 / 2 ^ (1 + l))) ≤ ext a :=
    mul_le_of_le_one_right hE hw1
  have hEw0 : 0 ≤ ext a * (((bits a : ℚ) + 1 / 2) * (1 / 2 ^ (1 + l))) := mul_nonneg hE hw0
  generalize fl (fl (Arith.extF fl lo ext a * fl ((bits a : ℚ) + 1 / 2)) * (1 / 2 ^ (1 + l))) = g at *
  have hG' : |g - ext a * (((bits a : ℚ) + 1 / 2) * (1 / 2 ^ (1 + l)))|
      ≤ 9 * (u * (|lo a| + ext a)) := by
    refine le_trans hG ?_
    have : 0 ≤ u * (|lo a| + ext a) := mul_nonneg hu (by linarith)
    nlinarith
  generalize ext a * (((bits a : ℚ) + 1 / 2) * (1 / 2 ^ (1 + l))) = c at *
  have h6 : |lo a + c| ≤ |lo a| + ext a := by
    have := abs_add_le (lo a) c
    rw [abs_of_nonneg hEw0] at this
    linarith
  refine ⟨?_, h6⟩
  have h7 : |lo a + g| ≤ |lo a| + ext a + 9 * (u * (|lo a| + ext a)) := by
    have := abs_add_le (lo a + c) (g - c)
    rw [show lo a + c + (g - c) = lo a + g by ring] at this
    linarith
  have hM0 : 0 ≤ |lo a| + ext a := by linarith
  generalize |lo a| + ext a = M at *
  have h8 : u * |lo a + g| ≤ 17 / 8 * (u * M) := by
    have : u * M ≤ 1 / 8 * M := mul_le_mul_of_nonneg_right hs hM0
    calc u * |lo a + g| ≤ u * (M + 9 * (1 / 8 * M)) := mul_le_mul_of_nonneg_left (by linarith) hu
      _ = _ := by ring
  have h9 := abs_add_le (fl (lo a + g) - (lo a + g)) (g - c)
  rw [show fl (lo a + g) - (lo a + g) + (g - c) = fl (lo a + g) - (lo a + c) by ring] at h9
  have : 0 ≤ u * M := mul_nonneg hu hM0
  linarith

theorem stickOutRadiusF_err {sigma : ℚ} (hσ : 0 ≤ sigma) (l : Nat) :
    |Arith.stickOutRadiusF fl lo ext sigma l a - Arith.stickOutRadius ext sigma l a|
      ≤ 9 / 4 * ((1 + sigma) * (u * (|lo a| + ext a))) ∧
    0 ≤ Arith.stickOutRadius ext sigma l a ∧
    Arith.stickOutRadius ext sigma l a ≤ 1 / 4 * ((1 + sigma) * (|lo a| + ext a)) := by
  have hu := h.nonneg_u
  have hs := h.small
  have hM : ext a ≤ |lo a| + ext a := by linarith [abs_nonneg (lo a)]
  have hM0 : 0 ≤ |lo a| + ext a := by linarith
  have hP : (1 : ℚ) / 2 ^ (1 + l) ≤ 1 / 2 := by
    rw [div_le_div_iff₀ (by positivity) (by norm_num), pow_add]
    have : (1 : ℚ) ≤ 2 ^ l := one_le_pow₀ (by norm_num)
    linarith
  have hP0 : (0 : ℚ) ≤ 1 / 2 ^ (1 + l) := by positivity
  unfold Arith.stickOutRadiusF Arith.stickOutRadius
  obtain ⟨e0, he0, q0⟩ := h.rel (1 + sigma)
  obtain ⟨e1, he1, q1⟩ := h.rel (fl (1 + sigma) * (1 / 2))
  obtain ⟨e2, he2, q2⟩ := h.rel (fl (fl (1 + sigma) * (1 / 2)) * Arith.extF fl lo ext a)
  obtain ⟨e3, he3, q3⟩ := h.rel (fl (fl (fl (1 + sigma) * (1 / 2)) * Arith.extF fl lo ext a)
    * (1 / 2 ^ (1 + l)))
  have hw0 : 0 ≤ (1 + sigma) * (1 / 2) * (1 / 2 ^ (1 + l)) := by positivity
  have hw1 : (1 + sigma) * (1 / 2) * (1 / 2 ^ (1 + l)) ≤ 1 / 4 * (1 + sigma) := by nlinarith
  have hg : fl (fl (fl (fl (1 + sigma) * (1 / 2)) * Arith.extF fl lo ext a) * (1 / 2 ^ (1 + l)))
      = Arith.extF fl lo ext a * ((1 + sigma) * (1 / 2) * (1 / 2 ^ (1 + l)))
        * ((1 + e0) * (1 + e1) * (1 + e2) * (1 + e3)) := by
    rw [q3, q2, q1, q0]; ring
  have hf2 := near_one (f := 1 + e0) (α := 1) hs (by norm_num) (by simpa using he0) he1
  have hf3 := near_one (f := (1 + e0) * (1 + e1)) (α := 1 + 1 + 1 / 8) hs (by norm_num) hf2 he2
  have hf4 := near_one (f := (1 + e0) * (1 + e1) * (1 + e2)) hs (by norm_num) hf3 he3
  have hG := ext_prod_err h (lo := lo) hE (f := (1 + e0) * (1 + e1) * (1 + e2) * (1 + e3)) hw0
    (by linarith)
  rw [← hg] at hG
  rw [show (1 + sigma) * (1 / 2) * ext a * (1 / 2 ^ (1 + l))
    = ext a * ((1 + sigma) * (1 / 2) * (1 / 2 ^ (1 + l))) by ring]
  generalize (1 + sigma) * (1 / 2) * (1 / 2 ^ (1 + l)) = w at *
  refine ⟨le_trans hG ?_, mul_nonneg hE hw0, ?_⟩
  · have : 0 ≤ u * (|lo a| + ext a) := mul_nonneg hu hM0
    nlinarith
  · calc ext a * w ≤ (|lo a| + ext a) * (1 / 4 * (1 + sigma)) := mul_le_mul hM hw1 hw0 hM0
      _ = _ := by ring

end

namespace Input
variable {inp : Input} {fl rt : ℚ → ℚ} {u : ℚ}

theorem NearlyPlaced.path_infF (ok : inp.NearlyPlaced u) (h : Rounds fl u) (room : inp.Room u)
    (hx : inp.arith = .rounded fl rt) (he : inp.haveExtent = true) (hl2 : inp.l2 = false)
    (hσ : 0 ≤ inp.stickOut) {level : Nat} {s : State} (hI : Inv inp.params level s) {p : Nat}
    (hp : p < inp.n) {l k : Nat} (hk : k < s.used l) (hpath : PathOK inp.params s.parent p l k)
    {a : Nat} (ha : a < inp.dims) :
    s.center l k a - (1 + inp.stickOut) * (inp.ext 0 / 2 ^ (l + 1))
        - 20 * u * (1 + inp.stickOut) * (|inp.lo a| + inp.ext a) ≤ inp.x a p - inp.radius p ∧
    inp.x a p + inp.radius p ≤ s.center l k a + (1 + inp.stickOut) * (inp.ext 0 / 2 ^ (l + 1))
        + 20 * u * (1 + inp.stickOut) * (|inp.lo a| + inp.ext a) := by
  have hu := h.nonneg_u
  have hs := h.small
  have hE : 0 < inp.ext a := ok.ext_pos' ha
  have h1 := ok.lower a ha p hp
  have h2 := ok.upper a ha p hp
  have h3 := ok.radius_nonneg p hp
  have hlo := neg_abs_le (inp.lo a)
  have hlo' := le_abs_self (inp.lo a)
  have hM0 : 0 ≤ |inp.lo a| + inp.ext a := by linarith [abs_nonneg (inp.lo a)]
  have huM : 0 ≤ u * (|inp.lo a| + inp.ext a) := mul_nonneg hu hM0
  have huM8 : u * (|inp.lo a| + inp.ext a) ≤ 1 / 8 * (|inp.lo a| + inp.ext a) :=
    mul_le_mul_of_nonneg_right hs hM0
  have hxm : |inp.x a p - inp.radius p| ≤ 5 / 4 * (|inp.lo a| + inp.ext a) := by
    rw [abs_le]; constructor <;> linarith
  have hxp : |inp.x a p + inp.radius p| ≤ 5 / 4 * (|inp.lo a| + inp.ext a) := by
    rw [abs_le]; constructor <;> linarith
  have hσM := mul_nonneg hσ huM
  cases l with
  | zero =>
    have hk0 := hk
    rw [hI.used_zero] at hk0
    obtain rfl : k = 0 := by omega
    have h4 := mul_nonneg hσ ok.ext_pos.le
    rw [hI.root_center]
    show inp.lo a + inp.ext a / 2 - _ - _ ≤ _ ∧ _ ≤ inp.lo a + inp.ext a / 2 + _ + _
    generalize |inp.lo a| + inp.ext a = M at *
    rw [ok.cube a ha] at *
    norm_num
    constructor <;> linarith
  | succ l =>
    have hS := room.scaled ok h hx
    have hc := hS.path_center ha hp ok.toOK hI (l + 1) k hk hpath
    have hstop := (morton_some hpath.1).2 he
    unfold Input.stop at hstop
    rw [hx] at hstop
    simp only [Arith.rounded, hl2, Bool.false_eq_true, if_false, Arith.sticksInfF,
      List.any_eq_false, List.mem_range, Bool.or_eq_true, decide_eq_true_eq, not_or, not_le,
      not_lt] at hstop
    obtain ⟨t1, t2⟩ := hstop a ha
    have hb := hS.bits_eq ha hp l
    have hlt := hS.bits_lt ha hp l
    obtain ⟨c1, c2⟩ := centerF_err h (lo := inp.lo) (ext := inp.ext)
      (bits := fun a => inp.bits a p l) (l := l) hE.le hlt
    obtain ⟨r1, r2, r3⟩ := stickOutRadiusF_err h (lo := inp.lo) (ext := inp.ext) hE.le hσ l
    have e1 : Arith.center inp.lo inp.ext (fun a => inp.bits a p l) l a = s.center (l + 1) k a := by
      rw [hc]; unfold Arith.center; dsimp only; rw [hb, Nat.add_comm 1 l]
    have e2 : Arith.stickOutRadius inp.ext inp.stickOut l a
        = (1 + inp.stickOut) * (inp.ext 0 / 2 ^ (l + 1 + 1)) := by
      unfold Arith.stickOutRadius
      rw [ok.cube a ha, Nat.add_comm 1 l, pow_succ _ (l + 1)]
      field_simp
    rw [e1] at c1 c2
    rw [e2] at r1 r2 r3
    generalize Arith.centerF fl inp.lo inp.ext (fun a => inp.bits a p l) l a = C at *
    generalize Arith.stickOutRadiusF fl inp.lo inp.ext inp.stickOut l a = R at *
    generalize s.center (l + 1) k a = c at *
    generalize (1 + inp.stickOut) * (inp.ext 0 / 2 ^ (l + 1 + 1)) = r at *
    have k1 := h.err (C + R)
    have k2 := h.err (C - R)
    have k3 := h.err (inp.x a p + inp.radius p)
    have k4 := h.err (inp.x a p - inp.radius p)
    have k5 : u * |inp.x a p + inp.radius p| ≤ u * (5 / 4 * (|inp.lo a| + inp.ext a)) :=
      mul_le_mul_of_nonneg_left hxp hu
    have k6 : u * |inp.x a p - inp.radius p| ≤ u * (5 / 4 * (|inp.lo a| + inp.ext a)) :=
      mul_le_mul_of_nonneg_left hxm hu
    generalize |inp.lo a| + inp.ext a = M at *
    have hm8 : u * M ≤ 1 / 8 * M := mul_le_mul_of_nonneg_right hs hM0
    have hσ8 : inp.stickOut * (u * M) ≤ 1 / 8 * (inp.stickOut * M) := by nlinarith
    have hC : |C| ≤ 5 / 2 * M := by
      have := abs_add_le (C - c) c
      rw [sub_add_cancel] at this
      linarith
    have hR : |R| ≤ 9 / 16 * ((1 + inp.stickOut) * M) := by
      have := abs_add_le (R - r) r
      rw [sub_add_cancel, abs_of_nonneg r2] at this
      linarith
    have j1 : u * |C + R| ≤ 49 / 16 * (u * M) + 9 / 16 * (inp.stickOut * (u * M)) := by
      have := abs_add_le C R
      calc u * |C + R| ≤ u * (49 / 16 * M + 9 / 16 * (inp.stickOut * M)) :=
            mul_le_mul_of_nonneg_left (by linarith) hu
        _ = _ := by ring
    have j2 : u * |C - R| ≤ 49 / 16 * (u * M) + 9 / 16 * (inp.stickOut * (u * M)) := by
      have := abs_sub C R
      calc u * |C - R| ≤ u * (49 / 16 * M + 9 / 16 * (inp.stickOut * M)) :=
            mul_le_mul_of_nonneg_left (by linarith) hu
        _ = _ := by ring
    rw [abs_le] at c1 r1 k1 k2 k3 k4
    constructor <;> linarith

end Input
end Boxtree.Build
