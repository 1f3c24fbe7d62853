import Verif.Lemmas.RoundedBits
import Mathlib.Algebra.Order.BigOperators.Ring.Finset
import Mathlib.Data.Rat.BigOperators

/-! Euclidean stick-out test with rounding. -/

namespace Boxtree.Build

theorem sum_range_finset (f : Nat → ℚ) (n : Nat) :
    ((List.range n).map f).sum = ∑ a ∈ Finset.range n, f a := by
  induction n with
  | zero => rfl
  | succ n ih => rw [Finset.sum_range_succ, List.range_succ, List.map_append, List.sum_append, ih]; simp

/-- Triangle inequality. -/
theorem sqrt_sum_add (n : Nat) (f g : Nat → ℝ) :
    Real.sqrt (∑ a ∈ Finset.range n, (f a + g a) ^ 2)
      ≤ Real.sqrt (∑ a ∈ Finset.range n, f a ^ 2) + Real.sqrt (∑ a ∈ Finset.range n, g a ^ 2) := by
  have hA : 0 ≤ ∑ a ∈ Finset.range n, f a ^ 2 := Finset.sum_nonneg fun a _ => sq_nonneg _
  have hB : 0 ≤ ∑ a ∈ Finset.range n, g a ^ 2 := Finset.sum_nonneg fun a _ => sq_nonneg _
  have hC := Finset.sum_mul_sq_le_sq_mul_sq (Finset.range n) f g
  have hC' := Real.le_sqrt_of_sq_le hC
  rw [Real.sqrt_mul hA] at hC'
  have e : ∑ a ∈ Finset.range n, (f a + g a) ^ 2
      = (∑ a ∈ Finset.range n, f a ^ 2) + 2 * (∑ a ∈ Finset.range n, f a * g a)
        + ∑ a ∈ Finset.range n, g a ^ 2 := by
    rw [Finset.mul_sum, ← Finset.sum_add_distrib, ← Finset.sum_add_distrib]
    exact Finset.sum_congr rfl fun a _ => by ring
  rw [e, Real.sqrt_le_iff]
  refine ⟨add_nonneg (Real.sqrt_nonneg _) (Real.sqrt_nonneg _), ?_⟩
  rw [add_sq, Real.sq_sqrt hA, Real.sq_sqrt hB]
  linarith

theorem sqrt_sum_near (n : Nat) (f g : Nat → ℝ) {δ : ℝ} (hδ : 0 ≤ δ)
    (h : ∀ a < n, |f a - g a| ≤ δ) :
    Real.sqrt (∑ a ∈ Finset.range n, f a ^ 2)
      ≤ Real.sqrt (∑ a ∈ Finset.range n, g a ^ 2) + Real.sqrt n * δ := by
  have h1 := sqrt_sum_add n g fun a => f a - g a
  simp only [add_sub_cancel] at h1
  refine le_trans h1 ?_
  have h2 : ∑ a ∈ Finset.range n, (f a - g a) ^ 2 ≤ n * δ ^ 2 := by
    calc ∑ a ∈ Finset.range n, (f a - g a) ^ 2 ≤ ∑ a ∈ Finset.range n, δ ^ 2 :=
          Finset.sum_le_sum fun a ha => sq_le_sq' (abs_le.1 (h a (Finset.mem_range.1 ha))).1
            (abs_le.1 (h a (Finset.mem_range.1 ha))).2
      _ = n * δ ^ 2 := by simp
  have h3 : Real.sqrt (∑ a ∈ Finset.range n, (f a - g a) ^ 2) ≤ Real.sqrt n * δ := by
    refine le_trans (Real.sqrt_le_sqrt h2) ?_
    rw [Real.sqrt_mul (by positivity), Real.sqrt_sq hδ]
  linarith

section
variable {fl : ℚ → ℚ} {u : ℚ} (h : Rounds fl u)
include h

theorem Rounds.ge {y : ℚ} (hy : 0 ≤ y) : (1 - u) * y ≤ fl y := by
  have := (abs_le.1 (h.err y)).1
  rw [abs_of_nonneg hy] at this
  linarith

theorem Rounds.le {y : ℚ} (hy : 0 ≤ y) : fl y ≤ (1 + u) * y := by
  have := (abs_le.1 (h.err y)).2
  rw [abs_of_nonneg hy] at this
  linarith

theorem Rounds.sq_ge (y : ℚ) : (1 - u) ^ 3 * y ^ 2 ≤ fl (fl y * fl y) := by
  obtain ⟨e, he, q⟩ := h.rel y
  have h1 : 0 ≤ 1 - u := by linarith [h.small]
  refine le_trans ?_ (h.ge (mul_self_nonneg _))
  rw [q]
  have h2 : 1 - u ≤ 1 + e := by have := (abs_le.1 he).1; linarith
  have h3 : (1 - u) ^ 2 ≤ (1 + e) ^ 2 := pow_le_pow_left₀ h1 h2 2
  have h4 : (1 - u) ^ 2 * y ^ 2 ≤ (1 + e) ^ 2 * y ^ 2 := mul_le_mul_of_nonneg_right h3 (sq_nonneg _)
  have h5 := mul_le_mul_of_nonneg_left h4 h1
  calc (1 - u) ^ 3 * y ^ 2 = (1 - u) * ((1 - u) ^ 2 * y ^ 2) := by ring
    _ ≤ (1 - u) * ((1 + e) ^ 2 * y ^ 2) := h5
    _ = _ := by ring

/-- Lower bound of the computed sum of squares. -/
theorem sqDistF_ge (x : Nat → ℚ) (lo ext : Nat → ℚ) (bits : Nat → Nat) (l : Nat) : ∀ n,
    (1 - u) ^ (n + 3) * (∑ a ∈ Finset.range n, (x a - Arith.centerF fl lo ext bits l a) ^ 2)
      ≤ Arith.sqDistF fl n x lo ext bits l ∧ 0 ≤ Arith.sqDistF fl n x lo ext bits l := by
  have h1 : 0 ≤ 1 - u := by linarith [h.small]
  have h1' : 1 - u ≤ 1 := by linarith [h.nonneg_u]
  intro n
  unfold Arith.sqDistF
  induction n with
  | zero => simp
  | succ n ih =>
    rw [List.range_succ, List.foldl_append, Finset.sum_range_succ]
    simp only [List.foldl_cons, List.foldl_nil]
    generalize (List.range n).foldl _ (0 : ℚ) = s at *
    have h2 := h.sq_ge (x n - Arith.centerF fl lo ext bits l n)
    generalize fl (fl (x n - Arith.centerF fl lo ext bits l n)
      * fl (x n - Arith.centerF fl lo ext bits l n)) = t at *
    have h3 := sq_nonneg (x n - Arith.centerF fl lo ext bits l n)
    generalize (x n - Arith.centerF fl lo ext bits l n) ^ 2 = y at *
    have h4 : 0 ≤ t := le_trans (mul_nonneg (pow_nonneg h1 _) h3) h2
    have h5 : 0 ≤ s + t := by linarith [ih.2]
    have h6 := h.ge h5
    refine ⟨le_trans ?_ h6, le_trans (mul_nonneg h1 h5) h6⟩
    have h7 : (1 - u) ^ (n + 3) * y ≤ (1 - u) ^ 3 * y :=
      mul_le_mul_of_nonneg_right (pow_le_pow_of_le_one h1 h1' (by omega)) h3
    have h8 := ih.1
    generalize (∑ a ∈ Finset.range n, (x a - Arith.centerF fl lo ext bits l a) ^ 2) = Y at *
    calc (1 - u) ^ (n + 1 + 3) * (Y + y)
        = (1 - u) * ((1 - u) ^ (n + 3) * Y + (1 - u) ^ (n + 3) * y) := by
          rw [show n + 1 + 3 = (n + 3) + 1 by omega, pow_succ]; ring
      _ ≤ (1 - u) * (s + t) := mul_le_mul_of_nonneg_left (by linarith) h1

end

/-- From the last comparison of the kernel to the distance. -/
theorem l2_core {fl rt : ℚ → ℚ} {u : ℚ} (h : Rounds fl u) (hr : RoundsRoot rt u) {d : Nat}
    {S r R Y : ℚ} (hS : 0 ≤ S) (hr0 : 0 ≤ r) (hY : 0 ≤ Y) (hSY : (1 - u) ^ (d + 3) * Y ≤ S)
    (hcmp : ¬ fl (fl (d * R) * R) ≤ fl (fl (rt S + r) * fl (rt S + r))) :
    ((1 - u) ^ (d + 6) : ℝ) * (Real.sqrt Y + r) ≤ (1 + u) * (Real.sqrt d * |(R : ℝ)|) := by
  have hu := h.nonneg_u
  have h1 : 0 ≤ 1 - u := by linarith [h.small]
  have h1' : 1 - u ≤ 1 := by linarith
  have k1 : (0 : ℝ) ≤ 1 - u := by exact_mod_cast h1
  have k1' : (1 : ℝ) - u ≤ 1 := by exact_mod_cast h1'
  have ku : (0 : ℝ) ≤ (u : ℝ) := by exact_mod_cast hu
  have hroot := hr S hS
  have hroot' : ((1 - u : ℝ)) * Real.sqrt S ≤ rt S := by
    have := (abs_le.1 hroot).1
    linarith
  have hrt0 : 0 ≤ rt S := by
    have : (0 : ℝ) ≤ (rt S : ℝ) := le_trans (mul_nonneg k1 (Real.sqrt_nonneg _)) hroot'
    exact_mod_cast this
  have hD := h.ge (add_nonneg hrt0 hr0)
  have hD0 : 0 ≤ fl (rt S + r) := le_trans (mul_nonneg h1 (add_nonneg hrt0 hr0)) hD
  have hDD := h.ge (mul_self_nonneg (fl (rt S + r)))
  have hdR : fl (fl (d * R) * R) ≤ (1 + u) * ((1 + u) * (d * R ^ 2)) := by
    obtain ⟨e, he, q⟩ := h.rel (d * R)
    have he' := abs_le.1 he
    have e0 : fl (d * R) * R = d * R ^ 2 * (1 + e) := by rw [q]; ring
    have hd0 : (0 : ℚ) ≤ d * R ^ 2 := by positivity
    have hn : 0 ≤ fl (d * R) * R := by
      rw [e0]; exact mul_nonneg hd0 (by linarith [he'.1, h.small])
    refine le_trans (h.le hn) ?_
    apply mul_le_mul_of_nonneg_left _ (by linarith)
    rw [e0, mul_comm]
    exact mul_le_mul_of_nonneg_right (by linarith [he'.2]) hd0
  rw [not_le] at hcmp
  generalize fl (rt S + r) = D at *
  have hsq : ((1 - u) * D) ^ 2 ≤ (1 + u) ^ 2 * (d * R ^ 2) := by
    have h2 : (1 - u) * ((1 - u) * (D * D)) ≤ 1 * ((1 - u) * (D * D)) :=
      mul_le_mul_of_nonneg_right h1' (mul_nonneg h1 (mul_self_nonneg _))
    calc ((1 - u) * D) ^ 2 = (1 - u) * ((1 - u) * (D * D)) := by ring
      _ ≤ (1 + u) * ((1 + u) * (d * R ^ 2)) := by linarith
      _ = _ := by ring
  have hlin : ((1 - u : ℝ)) * D ≤ (1 + u) * (Real.sqrt d * |(R : ℝ)|) := by
    have hsq' : ((1 - u : ℝ) * D) ^ 2 ≤ ((1 + u) * (Real.sqrt d * |(R : ℝ)|)) ^ 2 := by
      rw [mul_pow, mul_pow, mul_pow, Real.sq_sqrt (by positivity), sq_abs]
      have : (((((1 - u) * D) ^ 2 : ℚ)) : ℝ) ≤ ((((1 + u) ^ 2 * (d * R ^ 2) : ℚ)) : ℝ) := by
        exact_mod_cast hsq
      push_cast at this
      rw [mul_pow] at this
      exact this
    exact le_of_sq_le_sq hsq' (mul_nonneg (by linarith) (by positivity))
  have hsY : ((1 - u : ℝ)) ^ (d + 3) * Real.sqrt Y ≤ Real.sqrt S := by
    apply Real.le_sqrt_of_sq_le
    rw [mul_pow, Real.sq_sqrt (by exact_mod_cast hY)]
    have h2 : ((1 - u : ℝ) ^ (d + 3)) ^ 2 ≤ (1 - u : ℝ) ^ (d + 3) := by
      rw [sq]
      exact mul_le_of_le_one_left (pow_nonneg k1 _) (pow_le_one₀ k1 k1')
    have h3 : ((1 - u : ℝ)) ^ (d + 3) * (Y : ℝ) ≤ S := by exact_mod_cast hSY
    exact le_trans (mul_le_mul_of_nonneg_right h2 (by exact_mod_cast hY)) h3
  have hDr : ((1 - u : ℝ)) * (rt S + r) ≤ D := by exact_mod_cast hD
  have hr0' : (0 : ℝ) ≤ (r : ℝ) := by exact_mod_cast hr0
  have hp := pow_le_one₀ (n := d + 4) k1 k1'
  calc ((1 - u) ^ (d + 6) : ℝ) * (Real.sqrt Y + r)
      = (1 - u) * ((1 - u) * ((1 - u) * ((1 - u) ^ (d + 3) * Real.sqrt Y)
          + (1 - u) ^ (d + 4) * r)) := by ring
    _ ≤ (1 - u) * ((1 - u) * ((1 - u) * Real.sqrt S + 1 * r)) := by
        apply mul_le_mul_of_nonneg_left _ k1
        apply mul_le_mul_of_nonneg_left _ k1
        exact add_le_add (mul_le_mul_of_nonneg_left hsY k1) (mul_le_mul_of_nonneg_right hp hr0')
    _ ≤ (1 - u) * ((1 - u) * (rt S + r)) := by
        apply mul_le_mul_of_nonneg_left _ k1
        apply mul_le_mul_of_nonneg_left _ k1
        linarith
    _ ≤ (1 - u) * D := mul_le_mul_of_nonneg_left hDr k1
    _ ≤ _ := hlin

/-- `1 / (1 - u) ^ n` is little more than one. -/
theorem inv_pow_le {u : ℝ} {n : Nat} (hu : 0 ≤ u) (hn : n * u ≤ 1 / 8) (h1 : 1 ≤ n) {A B : ℝ}
    (hA : 0 ≤ A) (hB : 0 ≤ B) (h : (1 - u) ^ n * A ≤ (1 + u) * B) : A ≤ (1 + 3 * (n * u)) * B := by
  have hu8 : u ≤ 1 / 8 := by
    have : (1 : ℝ) ≤ n := by exact_mod_cast h1
    nlinarith
  have hber : 1 - n * u ≤ (1 - u) ^ n := by
    have := one_add_mul_le_pow (a := -u) (by linarith) n
    rw [show (1 : ℝ) + -u = 1 - u by ring] at this
    linarith
  have h2 : (1 - n * u) * A ≤ (1 + u) * B := le_trans (mul_le_mul_of_nonneg_right hber hA) h
  have hnu : u ≤ n * u := by
    have : (1 : ℝ) ≤ n := by exact_mod_cast h1
    nlinarith
  generalize (n : ℝ) * u = v at *
  have h3 : (1 + u) * B ≤ (1 - v) * ((1 + 3 * v) * B) := by
    have : 1 + u ≤ (1 - v) * (1 + 3 * v) := by nlinarith
    nlinarith
  have h4 : (1 - v) * A ≤ (1 - v) * ((1 + 3 * v) * B) := le_trans h2 h3
  have := le_of_mul_le_mul_left h4 (by linarith)
  linarith

namespace Input
variable {inp : Input} {fl rt : ℚ → ℚ} {u : ℚ}

theorem NearlyPlaced.path_l2F (ok : inp.NearlyPlaced u) (h : Rounds fl u) (hrt : RoundsRoot rt u) (room : inp.Room u)
    (hx : inp.arith = .rounded fl rt) (he : inp.haveExtent = true) (hl2 : inp.l2 = true)
    (hσ : 0 ≤ inp.stickOut) (hdu : (inp.dims + 6) * u ≤ 1 / 8) {B : ℚ}
    (hB : ∀ a < inp.dims, |inp.lo a| + inp.ext a ≤ B)
    {level : Nat} {s : State} (hI : Inv inp.params level s) {p : Nat}
    (hp : p < inp.n) {l k : Nat} (hk : k < s.used l) (hpath : PathOK inp.params s.parent p l k) :
    Real.sqrt (((List.range inp.dims).map fun a => (inp.x a p - s.center l k a) ^ 2).sum : ℚ)
        + (inp.radius p : ℝ)
      ≤ Real.sqrt inp.dims * ((1 + inp.stickOut) * (inp.ext 0 / 2 ^ (l + 1))
          + (inp.dims + 22) * u * (1 + inp.stickOut) * B : ℚ) := by
  have hu := h.nonneg_u
  have hs := h.small
  have hd0 := ok.dims_pos
  have hB0 : 0 ≤ B := by
    have := hB 0 hd0
    linarith [abs_nonneg (inp.lo 0), ok.ext_pos]
  have huB : 0 ≤ u * B := mul_nonneg hu hB0
  cases l with
  | zero =>
    have h1 : Real.sqrt (((List.range inp.dims).map fun a => (inp.x a p - s.center 0 k a) ^ 2).sum : ℚ)
        + (inp.radius p : ℝ)
      ≤ Real.sqrt inp.dims * ((1 + inp.stickOut) * (inp.ext 0 / 2 ^ (0 + 1)) + 2 * u * B : ℚ) :=
      ok.root_l2 hσ hI hp hk
        (fun a ha => by
          have := ok.lower a ha p hp
          have := mul_le_mul_of_nonneg_left (hB a ha) hu
          linarith)
        fun a ha => by
          have := ok.upper a ha p hp
          have := mul_le_mul_of_nonneg_left (hB a ha) hu
          linarith
    refine le_trans h1 (mul_le_mul_of_nonneg_left ?_ (Real.sqrt_nonneg _))
    have : (0 : ℚ) ≤ (inp.dims + 20) * (u * B) := by positivity
    have : (0 : ℚ) ≤ (inp.dims + 22) * inp.stickOut * (u * B) := by positivity
    exact Rat.cast_le.2 (by linarith)
  | succ l =>
    have hS := room.scaled ok h hx
    have hstop := (morton_some hpath.1).2 he
    unfold Input.stop at hstop
    rw [hx] at hstop
    simp only [Arith.rounded, hl2, if_true, Arith.sticksL2F, decide_eq_false_iff_not] at hstop
    have hr0 := ok.radius_nonneg p hp
    have hc : ∀ a < inp.dims, |Arith.centerF fl inp.lo inp.ext (fun a => inp.bits a p l) l a
        - s.center (l + 1) k a| ≤ 45 / 4 * (u * B) := by
      intro a ha
      have hb := hS.bits_eq ha hp l
      have hE : 0 < inp.ext a := ok.ext_pos' ha
      have hpc := hS.path_center ha hp ok.toOK hI (l + 1) k hk hpath
      have hlt := hS.bits_lt ha hp l
      have c1 := (centerF_err h (lo := inp.lo) (ext := inp.ext)
        (bits := fun a => inp.bits a p l) (l := l) hE.le hlt).1
      have e1 : Arith.center inp.lo inp.ext (fun a => inp.bits a p l) l a = s.center (l + 1) k a := by
        rw [hpc]; unfold Arith.center; dsimp only; rw [hb, Nat.add_comm 1 l]
      rw [e1] at c1
      refine le_trans c1 ?_
      have := mul_le_mul_of_nonneg_left (hB a ha) hu
      linarith
    obtain ⟨g1, g2⟩ := sqDistF_ge h (fun a => inp.x a p) inp.lo inp.ext
      (fun a => inp.bits a p l) l inp.dims
    have hY : 0 ≤ ∑ a ∈ Finset.range inp.dims, (inp.x a p
        - Arith.centerF fl inp.lo inp.ext (fun a => inp.bits a p l) l a) ^ 2 :=
      Finset.sum_nonneg fun a _ => sq_nonneg _
    have hcore := l2_core h hrt g2 hr0 hY g1 hstop
    obtain ⟨r1, r2, r3⟩ := stickOutRadiusF_err h (lo := inp.lo) (ext := inp.ext) (a := 0)
      ok.ext_pos.le hσ l
    have e2 : Arith.stickOutRadius inp.ext inp.stickOut l 0
        = (1 + inp.stickOut) * (inp.ext 0 / 2 ^ (l + 1 + 1)) := by
      unfold Arith.stickOutRadius
      rw [Nat.add_comm 1 l, pow_succ _ (l + 1)]
      field_simp
    rw [e2] at r1 r2 r3
    generalize Arith.stickOutRadiusF fl inp.lo inp.ext inp.stickOut l 0 = R at *
    have hsum := sum_range_finset (fun a => (inp.x a p - s.center (l + 1) k a) ^ 2) inp.dims
    rw [hsum]
    -- the computed and the stored centers
    have htri := sqrt_sum_near inp.dims (fun a => ((inp.x a p - s.center (l + 1) k a : ℚ) : ℝ))
      (fun a => ((inp.x a p - Arith.centerF fl inp.lo inp.ext (fun a => inp.bits a p l) l a : ℚ) : ℝ))
      (δ := ((45 / 4 * (u * B) : ℚ) : ℝ)) (by exact_mod_cast (by positivity))
      (fun a ha => by
        have := hc a ha
        have e : (inp.x a p - s.center (l + 1) k a)
            - (inp.x a p - Arith.centerF fl inp.lo inp.ext (fun a => inp.bits a p l) l a)
            = Arith.centerF fl inp.lo inp.ext (fun a => inp.bits a p l) l a - s.center (l + 1) k a := by
          ring
        rw [← e] at this
        exact_mod_cast this)
    have hA0 := Real.sqrt_nonneg ((∑ a ∈ Finset.range inp.dims, (inp.x a p
        - Arith.centerF fl inp.lo inp.ext (fun a => inp.bits a p l) l a) ^ 2 : ℚ) : ℝ)
    have hr0' : (0 : ℝ) ≤ (inp.radius p : ℝ) := by exact_mod_cast hr0
    have hdu' : ((inp.dims + 6 : Nat) : ℝ) * (u : ℝ) ≤ 1 / 8 := by
      have : (((inp.dims + 6) * u : ℚ) : ℝ) ≤ ((1 / 8 : ℚ) : ℝ) := Rat.cast_le.2 hdu
      push_cast at this ⊢
      exact this
    have hinv := inv_pow_le (u := (u : ℝ)) (n := inp.dims + 6) (by exact_mod_cast hu)
      hdu' (by omega) (add_nonneg hA0 hr0')
      (mul_nonneg (Real.sqrt_nonneg _) (abs_nonneg _)) hcore
    have hR : |R| ≤ (1 + inp.stickOut) * (inp.ext 0 / 2 ^ (l + 1 + 1))
        + 9 / 4 * ((1 + inp.stickOut) * (u * B)) := by
      have q1 := abs_add_le (R - (1 + inp.stickOut) * (inp.ext 0 / 2 ^ (l + 1 + 1)))
        ((1 + inp.stickOut) * (inp.ext 0 / 2 ^ (l + 1 + 1)))
      rw [sub_add_cancel, abs_of_nonneg r2] at q1
      have q2 := mul_le_mul_of_nonneg_left (hB 0 hd0) hu
      have q3 : 0 ≤ 1 + inp.stickOut := by linarith
      have q4 := mul_le_mul_of_nonneg_left q2 q3
      linarith
    have hr3 : (1 + inp.stickOut) * (inp.ext 0 / 2 ^ (l + 1 + 1))
        ≤ 1 / 4 * ((1 + inp.stickOut) * B) := by
      have q3 : 0 ≤ 1 + inp.stickOut := by linarith
      have q4 := mul_le_mul_of_nonneg_left (hB 0 hd0) q3
      linarith
    generalize (1 + inp.stickOut) * (inp.ext 0 / 2 ^ (l + 1 + 1)) = ρ at *
    have hfin : (1 + 3 * ((inp.dims + 6 : Nat) : ℚ) * u) * |R| + 45 / 4 * (u * B)
        ≤ ρ + (inp.dims + 22) * u * (1 + inp.stickOut) * B := by
      have q3 : (0 : ℚ) ≤ 1 + 3 * ((inp.dims + 6 : Nat) : ℚ) * u := by positivity
      have q5 := mul_le_mul_of_nonneg_left hR q3
      push_cast at q5 ⊢
      have q6 : (inp.dims + 6) * u * ρ ≤ (inp.dims + 6) * u * (1 / 4 * ((1 + inp.stickOut) * B)) :=
        mul_le_mul_of_nonneg_left hr3 (by positivity)
      have q7 : (inp.dims + 6) * u * ((1 + inp.stickOut) * (u * B))
          ≤ 1 / 8 * ((1 + inp.stickOut) * (u * B)) :=
        mul_le_mul_of_nonneg_right hdu (by positivity)
      have q8 := mul_nonneg hσ huB
      have q9 : (0 : ℚ) ≤ inp.dims * (u * B) := by positivity
      have q10 : (0 : ℚ) ≤ inp.dims * (inp.stickOut * (u * B)) := by positivity
      nlinarith
    have hfin' : (1 + 3 * ((inp.dims + 6 : Nat) : ℝ) * (u : ℝ)) * |(R : ℝ)|
        + ((45 / 4 * (u * B) : ℚ) : ℝ)
        ≤ ((ρ + (inp.dims + 22) * u * (1 + inp.stickOut) * B : ℚ) : ℝ) := by
      exact_mod_cast hfin
    have hq := mul_le_mul_of_nonneg_left hfin' (Real.sqrt_nonneg (inp.dims : ℝ))
    push_cast at htri hinv hq ⊢
    nlinarith

end Input
end Boxtree.Build
