import Verif.Lemmas.Build

/-! Particles lie in their boxes. -/

namespace Boxtree.Build.Input
variable {inp : Input}

theorem Placed.path_inf (ok : inp.Placed) (hx : inp.arith = .exact) (he : inp.haveExtent = true) (hl2 : inp.l2 = false)
    (hs : 0 ≤ inp.stickOut) {level : Nat} {s : State} (hI : Inv inp.params level s) {p : Nat}
    (hp : p < inp.n) {l k : Nat} (hk : k < s.used l) (hpath : PathOK inp.params s.parent p l k)
    {a : Nat} (ha : a < inp.dims) :
    s.center l k a - (1 + inp.stickOut) * (inp.ext 0 / 2 ^ (l + 1)) ≤ inp.x a p - inp.radius p ∧
    inp.x a p + inp.radius p ≤ s.center l k a + (1 + inp.stickOut) * (inp.ext 0 / 2 ^ (l + 1)) := by
  cases l with
  | zero =>
    have hk0 := hk
    rw [hI.used_zero] at hk0
    obtain rfl : k = 0 := by omega
    have h1 := ok.lower a ha p hp
    have h2 := ok.upper a ha p hp
    have h3 := mul_nonneg hs ok.ext_pos.le
    rw [hI.root_center]
    show inp.lo a + inp.ext a / 2 - _ ≤ _ ∧ _ ≤ inp.lo a + inp.ext a / 2 + _
    rw [ok.cube a ha] at *
    norm_num
    constructor <;> linarith
  | succ l =>
    have hc := ok.path_center ha hp hx hI (l + 1) k hk hpath
    have hstop := (morton_some hpath.1).2 he
    rw [stop_eq hx, hl2] at hstop
    simp only [Bool.false_eq_true, if_false, stopInf, List.any_eq_false, List.mem_range,
      Bool.or_eq_true, decide_eq_true_eq, not_or, not_le, not_lt] at hstop
    obtain ⟨h1, h2⟩ := hstop a ha
    have e1 : inp.nextCenter a p l = s.center (l + 1) k a := by
      rw [hc]; unfold nextCenter; rw [Nat.add_comm 1 l]
    have e2 : inp.nextRadius a l = (1 + inp.stickOut) * (inp.ext 0 / 2 ^ (l + 1 + 1)) := by
      unfold nextRadius
      rw [ok.cube a ha, Nat.add_comm 1 l, pow_succ _ (l + 1)]
      field_simp
    rw [e1, e2] at h1 h2
    exact ⟨h2, h1.le⟩

theorem sum_sq_le {f : Nat → ℚ} {B : ℚ} (d : Nat) (h : ∀ a < d, f a ^ 2 ≤ B) :
    ((List.range d).map fun a => f a ^ 2).sum ≤ d * B := by
  induction d with
  | zero => simp
  | succ d ih =>
    rw [List.range_succ, List.map_append, List.sum_append]
    have := ih fun a ha => h a (by omega)
    have := h d (by omega)
    simp
    linarith

theorem OK.root_l2 (ok : inp.OK) (hs : 0 ≤ inp.stickOut) {level : Nat} {s : State}
    (hI : Inv inp.params level s) {p : Nat} (hp : p < inp.n) {k : Nat} (hk : k < s.used 0) {d : ℚ}
    (hlo : ∀ a < inp.dims, inp.lo a - d ≤ inp.x a p - inp.radius p)
    (hhi : ∀ a < inp.dims, inp.x a p + inp.radius p ≤ inp.lo a + inp.ext a + d) :
    Real.sqrt (((List.range inp.dims).map fun a => (inp.x a p - s.center 0 k a) ^ 2).sum : ℚ)
        + (inp.radius p : ℝ)
      ≤ Real.sqrt inp.dims * ((1 + inp.stickOut) * (inp.ext 0 / 2 ^ (0 + 1)) + d : ℚ) := by
  have hr := ok.radius_nonneg p hp
  have hr' : (0 : ℝ) ≤ (inp.radius p : ℝ) := by exact_mod_cast hr
  have hd1 : (1 : ℝ) ≤ Real.sqrt inp.dims := by
    rw [Real.one_le_sqrt]; exact_mod_cast ok.dims_pos
  have hk0 := hk
  rw [hI.used_zero] at hk0
  obtain rfl : k = 0 := by omega
  have hR : 0 ≤ inp.ext 0 / 2 + d - inp.radius p := by
    have h1 := hlo 0 ok.dims_pos
    have h2 := hhi 0 ok.dims_pos
    linarith
  have hsum : ((List.range inp.dims).map fun a => (inp.x a p - s.center 0 0 a) ^ 2).sum
      ≤ inp.dims * (inp.ext 0 / 2 + d - inp.radius p) ^ 2 := by
    apply sum_sq_le
    intro a ha
    have h1 := hlo a ha
    have h2 := hhi a ha
    rw [hI.root_center]
    show (inp.x a p - (inp.lo a + inp.ext a / 2)) ^ 2 ≤ _
    rw [ok.cube a ha] at *
    apply sq_le_sq' <;> linarith
  have h4 : Real.sqrt (((List.range inp.dims).map fun a =>
      (inp.x a p - s.center 0 0 a) ^ 2).sum : ℚ)
      ≤ Real.sqrt inp.dims * ((inp.ext 0 / 2 + d - inp.radius p : ℚ) : ℝ) := by
    have h5 : (0 : ℝ) ≤ ((inp.ext 0 / 2 + d - inp.radius p : ℚ) : ℝ) := by exact_mod_cast hR
    rw [Real.sqrt_le_iff]
    refine ⟨by positivity, ?_⟩
    rw [mul_pow, Real.sq_sqrt (by positivity)]
    exact_mod_cast hsum
  have h6 := mul_nonneg hs ok.ext_pos.le
  have h6' : (0 : ℝ) ≤ ((inp.stickOut * inp.ext 0 : ℚ) : ℝ) := by exact_mod_cast h6
  push_cast at h4 h6' ⊢
  have h7 : (inp.radius p : ℝ) ≤ Real.sqrt inp.dims * inp.radius p := by nlinarith
  have h8 : 0 ≤ Real.sqrt inp.dims * ((inp.stickOut : ℝ) * inp.ext 0) :=
    mul_nonneg (by linarith) h6'
  norm_num
  nlinarith

theorem Placed.path_l2 (ok : inp.Placed) (hx : inp.arith = .exact) (he : inp.haveExtent = true) (hl2 : inp.l2 = true)
    (hs : 0 ≤ inp.stickOut) {level : Nat} {s : State} (hI : Inv inp.params level s) {p : Nat}
    (hp : p < inp.n) {l k : Nat} (hk : k < s.used l) (hpath : PathOK inp.params s.parent p l k) :
    Real.sqrt (((List.range inp.dims).map fun a => (inp.x a p - s.center l k a) ^ 2).sum : ℚ)
        + (inp.radius p : ℝ)
      ≤ Real.sqrt inp.dims * ((1 + inp.stickOut) * (inp.ext 0 / 2 ^ (l + 1)) : ℚ) := by
  have hr := ok.radius_nonneg p hp
  have hr' : (0 : ℝ) ≤ (inp.radius p : ℝ) := by exact_mod_cast hr
  have hd1 : (1 : ℝ) ≤ Real.sqrt inp.dims := by
    rw [Real.one_le_sqrt]; exact_mod_cast ok.dims_pos
  cases l with
  | zero =>
    have := ok.root_l2 hs hI hp hk (d := 0) (fun a ha => by linarith [ok.lower a ha p hp])
      fun a ha => by linarith [ok.upper a ha p hp]
    rwa [add_zero] at this
  | succ l =>
    have hstop := (morton_some hpath.1).2 he
    rw [stop_eq hx, hl2, if_pos rfl] at hstop
    have e2 : inp.nextRadius 0 l = (1 + inp.stickOut) * (inp.ext 0 / 2 ^ (l + 1 + 1)) := by
      unfold nextRadius
      rw [Nat.add_comm 1 l, pow_succ _ (l + 1)]
      field_simp
    have e3 : inp.dist2 p l
        = ((List.range inp.dims).map fun a => (inp.x a p - s.center (l + 1) k a) ^ 2).sum := by
      unfold dist2
      congr 1
      apply List.map_congr_left
      intro a ha
      rw [List.mem_range] at ha
      rw [ok.path_center ha hp hx hI (l + 1) k hk hpath]
      unfold nextCenter
      rw [Nat.add_comm 1 l]
      ring
    rw [← e2, ← e3]
    have h1 := (not_iff_not.2 (stopL2_iff hr)).1 (by rw [hstop]; simp)
    rw [not_le] at h1
    have h0 : (0 : ℝ) ≤ (inp.nextRadius 0 l : ℝ) := by
      rw [e2]
      have h2 := ok.ext_pos
      have : (0 : ℚ) ≤ (1 + inp.stickOut) * (inp.ext 0 / 2 ^ (l + 1 + 1)) := by positivity
      exact_mod_cast this
    have hq := Real.sqrt_nonneg (inp.dist2 p l : ℝ)
    rw [← abs_of_nonneg h0, ← Real.sqrt_sq_eq_abs, ← Real.sqrt_mul (by positivity)]
    apply Real.le_sqrt_of_sq_le
    rw [sq, sq, ← mul_assoc]
    exact h1.le

end Boxtree.Build.Input
