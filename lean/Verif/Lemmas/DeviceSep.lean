import Verif.Lemmas.DeviceTests
import Verif.Lemmas.RoundedL2

/-! Separation of the boxes that the rounded criteria accept. -/

set_option linter.unusedVariables false

namespace Boxtree
open BoxTree Build

variable {t : BoxTree} {fl rt : ℚ → ℚ} {u M : ℚ} {c0 : Nat → ℚ}

theorem Build.Rounds.pos (h : Rounds fl u) {x : ℚ} (hx : 0 < x) : 0 < fl x :=
  lt_of_lt_of_le (mul_pos (by linarith [h.small] : (0:ℚ) < 1 - u) hx) (h.pos_ge hx.le le_rfl)

theorem Build.Rounds.nonpos (h : Rounds fl u) {x : ℚ} (hx : x ≤ 0) : fl x ≤ 0 := by
  have h1 := h.err x
  rw [abs_of_nonpos hx, abs_le] at h1
  have h2 : u * -x ≤ 1 / 8 * -x := mul_le_mul_of_nonneg_right h.small (by linarith)
  linarith [h1.2]

/-- rounding a value known up to `k` rounding errors -/
theorem Build.Rounds.step (h : Rounds fl u) {x x' k b N : ℚ} (hN : 0 ≤ N)
    (hx : |x' - x| ≤ k * (u * N)) (hb : |x| ≤ b * N) (hk : k * u ≤ 1 / 2) :
    |fl x' - x| ≤ (k + b + 1 / 2) * (u * N) := by
  have h1 := h.near hx hb
  have hu := h.u_nonneg
  have h2 : k * u * (u * N) ≤ 1 / 2 * (u * N) :=
    mul_le_mul_of_nonneg_right hk (mul_nonneg hu hN)
  have e : k * (u * N) + u * (b * N + k * (u * N)) = k * (u * N) + b * (u * N) + k * u * (u * N) := by
    ring
  have e2 : (k + b + 1 / 2) * (u * N) = k * (u * N) + b * (u * N) + 1 / 2 * (u * N) := by ring
  linarith

theorem mul_near {a a' r r' ea er : ℚ} (ha : |a' - a| ≤ ea) (hr : |r' - r| ≤ er) :
    |a' * r' - a * r| ≤ (|a| + ea) * er + ea * |r| := by
  have e : a' * r' - a * r = a' * (r' - r) + (a' - a) * r := by ring
  have h1 : |a'| ≤ |a| + ea := by
    have : a' = a + (a' - a) := by ring
    rw [this]; exact (abs_add_le _ _).trans (by linarith)
  rw [e]
  refine (abs_add_le _ _).trans ?_
  rw [abs_mul, abs_mul]
  have h0 : 0 ≤ |a| + ea := (abs_nonneg _).trans h1
  have h2 : |a'| * |r' - r| ≤ (|a| + ea) * er := mul_le_mul h1 hr (abs_nonneg _) h0
  have h3 : |a' - a| * |r| ≤ ea * |r| := mul_le_mul_of_nonneg_right ha (abs_nonneg _)
  linarith

/-- what the bounds below use of `FineEnough` -/
structure Bounds (t : BoxTree) (u M : ℚ) : Prop where
  pos : 0 < M
  lev : (20 * (t.nlevels : ℚ) + 80) * u ≤ 1 / 2
  one : (1:ℚ) ≤ t.nlevels
  ext : t.rootExtent ≤ M

theorem FineEnough.bounds {n : Nat} (h : Rounds fl u) (hw : t.WF) (hd : 0 < t.dims)
    (hF : FineEnough t c0 u M n) : Bounds t u M := by
  have hM := hF.nonneg hw hd
  have hu := h.u_nonneg
  have h1 := hF.fine
  have h2 := hF.size 0 hd
  have h3 := abs_nonneg (t.center 0 0)
  have h4 := rad_le_zero hw (t.nlevels - 1)
  refine ⟨hM, ?_, ?_, by linarith⟩
  · by_contra hc
    push Not at hc
    have h5 := mul_lt_mul_of_pos_right hc hM
    have e : 5 * (4 * (t.nlevels : ℚ) + n + 16) * u * M =
      (20 * t.nlevels + 80) * u * M + 5 * (n * (u * M)) := by ring
    have h6 : 0 ≤ n * (u * M) := mul_nonneg (Nat.cast_nonneg _) (mul_nonneg hu hM.le)
    linarith
  · have := hw.level_lt 0 hw.nboxes_pos
    exact_mod_cast (show 1 ≤ t.nlevels by omega)

theorem Bounds.le (hb : Bounds t u M) (hu : 0 ≤ u) {k : ℚ} (hk : k ≤ 20 * t.nlevels + 80) :
    k * u ≤ 1 / 2 := le_trans (mul_le_mul_of_nonneg_right hk hu) hb.lev

theorem Bounds.le_scaled (hb : Bounds t u M) {σ : ℚ} (hs : 0 ≤ σ) : M ≤ (1 + σ) * M := by
  have := mul_nonneg hs hb.pos.le
  linarith

theorem Bounds.rad_le (hb : Bounds t u M) (hw : t.WF) (l : Nat) : t.rad l ≤ M / 2 := by
  have := rad_le_zero hw l
  have := hb.ext
  linarith

/-- the enlarged target radius -/
theorem stickRadF_err (h : Rounds fl u) (hw : t.WF) (hb : Bounds t u M) {σ : ℚ} (hs : 0 ≤ σ)
    (l : Nat) :
    |t.stickRadF fl σ l - (1 + σ) * t.rad l| ≤ 17 / 8 * (u * ((1 + σ) * M)) := by
  have hu := h.u_nonneg
  have hN : 0 ≤ (1 + σ) * M := mul_nonneg (by linarith) hb.pos.le
  have r0 := hw.rad_pos l
  have rM := hb.rad_le hw l
  have h1 : |fl (1 + σ) - (1 + σ)| ≤ u * (1 + σ) := by
    have := h.err (1 + σ)
    rwa [abs_of_nonneg (by linarith : 0 ≤ 1 + σ)] at this
  have h2 := mul_near h1 (radF_err h hw l)
  rw [abs_of_nonneg (by linarith : 0 ≤ 1 + σ), abs_of_pos r0] at h2
  have h3 : (1 + σ + u * (1 + σ)) * (u * t.rad l) + u * (1 + σ) * t.rad l ≤
      9 / 8 * (u * ((1 + σ) * M)) := by
    have e : (1 + σ + u * (1 + σ)) * (u * t.rad l) + u * (1 + σ) * t.rad l =
      (2 + u) * (u * ((1 + σ) * t.rad l)) := by ring
    rw [e]
    have h4 : u * ((1 + σ) * t.rad l) ≤ u * ((1 + σ) * (M / 2)) :=
      mul_le_mul_of_nonneg_left (mul_le_mul_of_nonneg_left rM (by linarith)) hu
    have h5 : 0 ≤ u * ((1 + σ) * t.rad l) := mul_nonneg hu (mul_nonneg (by linarith) r0.le)
    have h6 : (2 + u) * (u * ((1 + σ) * t.rad l)) ≤ (2 + 1 / 8) * (u * ((1 + σ) * t.rad l)) :=
      mul_le_mul_of_nonneg_right (by linarith [h.small]) h5
    have h7 : 0 ≤ u * ((1 + σ) * M) := mul_nonneg hu hN
    linarith
  have h8 := h.step hN (h2.trans h3) (b := 1 / 2) (by
    rw [abs_of_pos (mul_pos (by linarith) r0)]
    have := mul_le_mul_of_nonneg_left rM (by linarith : 0 ≤ 1 + σ)
    linarith) (hb.le hu (by linarith [hb.one]))
  have e : (9 / 8 + 1 / 2 + 1 / 2 : ℚ) = 17 / 8 := by norm_num
  rw [e] at h8
  exact h8

/-- the left hand side of the list-3 criteria -/
theorem needF_err (h : Rounds fl u) (hw : t.WF) (hb : Bounds t u M) {eps : ℚ} (he0 : 0 ≤ eps)
    (he : eps ≤ 1 / 24) (l : Nat) :
    0 < t.needF fl eps l ∧ |t.needF fl eps l - (2 - 8 * eps) * t.rad l| ≤ 4 * (u * M) := by
  have hu := h.u_nonneg
  have hs := h.small
  have r0 := hw.rad_pos l
  have rM := hb.rad_le hw l
  have h1 : |fl (8 * eps) - 8 * eps| ≤ u * (1 / 3) := by
    refine (h.err _).trans (mul_le_mul_of_nonneg_left ?_ hu)
    rw [abs_of_nonneg (by linarith)]; linarith
  have h2 : |fl (2 - fl (8 * eps)) - (2 - 8 * eps)| ≤ 12 / 5 * u := by
    have := h.near (x := 2 - 8 * eps) (x' := 2 - fl (8 * eps)) (e := u * (1 / 3)) (B := 2)
      (by have e : 2 - fl (8 * eps) - (2 - 8 * eps) = -(fl (8 * eps) - 8 * eps) := by ring
          rw [e, abs_neg]; exact h1) (by rw [abs_le]; constructor <;> linarith)
    have h4 : u * u ≤ 1 / 8 * u := mul_le_mul_of_nonneg_right hs hu
    linarith
  have hrp : 0 < t.radF fl l := h.pos (by exact r0)
  have h3 := mul_near h2 (radF_err h hw l)
  rw [abs_of_pos r0, abs_of_nonneg (by linarith : 0 ≤ 2 - 8 * eps)] at h3
  have h5 : (2 - 8 * eps + 12 / 5 * u) * (u * t.rad l) + 12 / 5 * u * t.rad l ≤ 5 / 2 * (u * M) := by
    have hur0 : 0 ≤ u * t.rad l := mul_nonneg hu r0.le
    have hur : u * t.rad l ≤ u * (M / 2) := mul_le_mul_of_nonneg_left rM hu
    have : (2 - 8 * eps + 12 / 5 * u) * (u * t.rad l) ≤ (2 + 3 / 10) * (u * t.rad l) :=
      mul_le_mul_of_nonneg_right (by linarith) hur0
    have hum : 0 ≤ u * M := mul_nonneg hu hb.pos.le
    linarith
  have h6 := h.step hb.pos.le (h3.trans h5) (b := 1) (by
    rw [abs_of_pos (mul_pos (by linarith) r0)]
    have : (2 - 8 * eps) * t.rad l ≤ 2 * t.rad l := mul_le_mul_of_nonneg_right (by linarith) r0.le
    linarith) (hb.le hu (by linarith [hb.one]))
  constructor
  · apply h.pos
    apply mul_pos _ hrp
    apply h.pos
    rw [abs_le] at h1
    linarith [h1.2]
  · have e : (5 / 2 + 1 + 1 / 2 : ℚ) = 4 := by norm_num
    rw [e] at h6
    exact h6

theorem le_foldl_max_iff {n : Nat} (f : Nat → ℚ) {r : ℚ} (hr : 0 < r) :
    r ≤ (List.range n).foldl (fun acc i => max acc (f i)) 0 ↔ ∃ i, i < n ∧ r ≤ f i := by
  rw [le_foldl_max f]
  constructor
  · rintro (h | ⟨i, hi, h⟩)
    · exact absurd h (not_le.2 hr)
    · exact ⟨i, List.mem_range.1 hi, h⟩
  · rintro ⟨i, hi, h⟩; exact Or.inr ⟨i, List.mem_range.2 hi, h⟩

theorem abs_abs_sub_le (x y : ℚ) : |(|x| - |y|)| ≤ |x - y| := abs_abs_sub_abs_le x y

/-- `|d'| - s' - r'` rounded twice, all three known up to rounding errors -/
theorem sub_sub_err (h : Rounds fl u) {N D S R D' S' R' kd ks kr : ℚ} (hN : 0 ≤ N)
    (hd : |D' - D| ≤ kd * (u * N)) (hs : |S' - S| ≤ ks * (u * N)) (hr : |R' - R| ≤ kr * (u * N))
    (bd : |D| ≤ 2 * N) (bs : 0 ≤ S) (bs' : S ≤ N) (br : 0 ≤ R) (br' : R ≤ N / 2)
    (hk : (kd + ks + kr + 5) * u ≤ 1 / 2) (hkr : 0 ≤ kr) :
    |fl (fl (|D'| - S') - R') - (|D| - S - R)| ≤ (kd + ks + kr + 6) * (u * N) := by
  have hu := h.u_nonneg
  have d0 := abs_nonneg D
  have h1 : |(|D'| - S') - (|D| - S)| ≤ (kd + ks) * (u * N) := by
    have e : (|D'| - S') - (|D| - S) = (|D'| - |D|) - (S' - S) := by ring
    rw [e]
    have := abs_sub (|D'| - |D|) (S' - S)
    have := abs_abs_sub_le D' D
    linarith
  have h2 := h.step hN h1 (b := 2) (by rw [abs_le]; constructor <;> linarith)
    (le_trans (mul_le_mul_of_nonneg_right (by linarith) hu) hk)
  have h3 : |(fl (|D'| - S') - R') - (|D| - S - R)| ≤ (kd + ks + kr + 5 / 2) * (u * N) := by
    have e : (fl (|D'| - S') - R') - (|D| - S - R) = (fl (|D'| - S') - (|D| - S)) - (R' - R) := by
      ring
    rw [e]
    have := abs_sub (fl (|D'| - S') - (|D| - S)) (R' - R)
    linarith
  have h4 := h.step hN h3 (b := 2) (by rw [abs_le]; constructor <;> linarith)
    (le_trans (mul_le_mul_of_nonneg_right (by linarith) hu) hk)
  have h5 : 0 ≤ u * N := mul_nonneg hu hN
  linarith

/-- A source box accepted by the rounded `static_linf` criterion is separated up to `sepTol`. -/
theorem staticLinfF_far {n : Nat} (h : Rounds fl u) (hw : t.WF) (hd : 0 < t.dims)
    (hF : FineEnough t c0 u M n) {eps σ : ℚ} (he0 : 0 ≤ eps) (he : eps ≤ 1 / 24) (hs : 0 ≤ σ)
    {a b : Nat} (ha : a < t.nboxes) (hb : b < t.nboxes)
    (hc : t.staticLinfF fl σ eps (t.storedCenter fl c0 a) (t.level a) (t.storedCenter fl c0 b)
      (t.level b) = true) :
    ∃ i, i < t.dims ∧ (2 - 8 * eps) * t.rad (t.level b) - sepTol t σ u M ≤
      |t.center a i - t.center b i| - (1 + σ) * t.rad (t.level a) - t.rad (t.level b) := by
  have hB := hF.bounds h hw hd
  have hu := h.u_nonneg
  unfold staticLinfF at hc
  simp only [decide_eq_true_eq] at hc
  obtain ⟨n0, n1⟩ := needF_err h hw hB he0 he (t.level b)
  rw [le_foldl_max_iff _ n0] at hc
  obtain ⟨i, hi, hle⟩ := hc
  refine ⟨i, hi, ?_⟩
  obtain ⟨d1, d2⟩ := diff_err h hw hd hF ha hb hi
  have hMN := hB.le_scaled hs
  set N := (1 + σ) * M with hN
  have hM0 := hB.pos
  have hN0 : 0 ≤ N := by linarith
  have huMN : u * M ≤ u * N := mul_le_mul_of_nonneg_left hMN hu
  have hL := hB.one
  have ra0 := hw.rad_pos (t.level a)
  have rb0 := hw.rad_pos (t.level b)
  have raM := hB.rad_le hw (t.level a)
  have rbM := hB.rad_le hw (t.level b)
  have d1' : |fl (t.storedCenter fl c0 a i - t.storedCenter fl c0 b i) -
      (t.center a i - t.center b i)| ≤ (9 * t.nlevels + 7) * (u * N) := by
    refine d1.trans ?_
    rw [mul_assoc]
    exact mul_le_mul_of_nonneg_left huMN (by linarith)
  have hst := stickRadF_err h hw hB hs (t.level a)
  have hr : |t.radF fl (t.level b) - t.rad (t.level b)| ≤ 1 / 2 * (u * N) := by
    refine (radF_err h hw _).trans ?_
    have := mul_le_mul_of_nonneg_left rbM hu
    linarith
  have key := sub_sub_err h hN0 d1' hst hr (by linarith) (mul_nonneg (by linarith) ra0.le)
    (by have := mul_le_mul_of_nonneg_left raM (by linarith : 0 ≤ 1 + σ)
        rw [hN]; linarith) rb0.le (by linarith) (hB.le hu (by linarith)) (by norm_num)
  rw [abs_le] at key n1
  have e : sepTol t σ u M = (20 * t.nlevels + 80) * (u * N) := by rw [sepTol, hN]; ring
  rw [e]
  have hun : 0 ≤ u * N := mul_nonneg hu hN0
  have e2 : (9 * (t.nlevels : ℚ) + 7 + 17 / 8 + 1 / 2 + 6) * (u * N) + 4 * (u * N) ≤
      (20 * t.nlevels + 80) * (u * N) := by
    have : (9 * (t.nlevels : ℚ) + 7 + 17 / 8 + 1 / 2 + 6) * (u * N) + 4 * (u * N) =
      (9 * t.nlevels + 7 + 17 / 8 + 1 / 2 + 6 + 4) * (u * N) := by ring
    rw [this]
    exact mul_le_mul_of_nonneg_right (by linarith) hun
  linarith [key.2, n1.1]

/-- A source box accepted by the rounded `precise_linf` criterion is separated from the target
bounding box up to `sepTol`. -/
theorem preciseLinfF_far {n : Nat} (h : Rounds fl u) (hw : t.WF) (hd : 0 < t.dims)
    (hF : FineEnough t c0 u M n) {eps σ : ℚ} (he0 : 0 ≤ eps) (he : eps ≤ 1 / 24) (hs : 0 ≤ σ)
    {b : Nat} (hb : b < t.nboxes) {emin emax lo hi : Nat → ℚ}
    (hlo : ∀ i < t.dims, |lo i| ≤ (1 + σ) * M ∧
      |emin i - lo i| ≤ (3 * t.nlevels + 2) * u * ((1 + σ) * M))
    (hhi : ∀ i < t.dims, |hi i| ≤ (1 + σ) * M ∧
      |emax i - hi i| ≤ (3 * t.nlevels + 2) * u * ((1 + σ) * M))
    (hlh : ∀ i < t.dims, lo i ≤ hi i)
    (hc : t.preciseLinfF fl eps emin emax (t.storedCenter fl c0 b) (t.level b) = true) :
    ∃ i, i < t.dims ∧ (2 - 8 * eps) * t.rad (t.level b) - sepTol t σ u M ≤
      |(lo i + hi i) / 2 - t.center b i| - (hi i - lo i) / 2 - t.rad (t.level b) := by
  have hB := hF.bounds h hw hd
  have hu := h.u_nonneg
  unfold preciseLinfF at hc
  simp only [decide_eq_true_eq] at hc
  obtain ⟨n0, n1⟩ := needF_err h hw hB he0 he (t.level b)
  rw [le_foldl_max_iff _ n0] at hc
  obtain ⟨i, hi', hle⟩ := hc
  refine ⟨i, hi', ?_⟩
  have hMN := hB.le_scaled hs
  obtain ⟨l1, l2⟩ := hlo i hi'
  obtain ⟨g1, g2⟩ := hhi i hi'
  have hlh' := hlh i hi'
  set N := (1 + σ) * M with hN
  have hM0 := hB.pos
  have hN0 : 0 ≤ N := by linarith
  have huMN : u * M ≤ u * N := mul_le_mul_of_nonneg_left hMN hu
  have hun : 0 ≤ u * N := mul_nonneg hu hN0
  have hL := hB.one
  have rb0 := hw.rad_pos (t.level b)
  have rbM := hB.rad_le hw (t.level b)
  set L : ℚ := ((t.nlevels : ℕ) : ℚ) with hLdef
  rw [mul_assoc] at l2 g2
  rw [abs_le] at l1 g1
  -- the center of the bounding box
  have c1 : |(emin i + emax i) - (lo i + hi i)| ≤ (6 * L + 4) * (u * N) := by
    have e : (emin i + emax i) - (lo i + hi i) = (emin i - lo i) + (emax i - hi i) := by ring
    rw [e]
    have := abs_add_le (emin i - lo i) (emax i - hi i)
    linarith
  have c2 := h.step hN0 c1 (b := 2) (by rw [abs_le]; constructor <;> linarith)
    (hB.le hu (by linarith))
  have c3 : |1 / 2 * fl (emin i + emax i) - (lo i + hi i) / 2| ≤ (3 * L + 13 / 4) * (u * N) := by
    have e : 1 / 2 * fl (emin i + emax i) - (lo i + hi i) / 2 =
      1 / 2 * (fl (emin i + emax i) - (lo i + hi i)) := by ring
    rw [e, abs_mul, abs_of_pos (by norm_num : (0:ℚ) < 1 / 2)]
    linarith
  have c4 := h.step hN0 c3 (b := 1) (by rw [abs_le]; constructor <;> linarith)
    (hB.le hu (by linarith))
  -- its radius
  have r1 : |(emax i - emin i) - (hi i - lo i)| ≤ (6 * L + 4) * (u * N) := by
    have e : (emax i - emin i) - (hi i - lo i) = (emax i - hi i) - (emin i - lo i) := by ring
    rw [e]
    have := abs_sub (emax i - hi i) (emin i - lo i)
    linarith
  have r2 := h.step hN0 r1 (b := 2) (by rw [abs_le]; constructor <;> linarith)
    (hB.le hu (by linarith))
  have r3 : |1 / 2 * fl (emax i - emin i) - (hi i - lo i) / 2| ≤ (3 * L + 13 / 4) * (u * N) := by
    have e : 1 / 2 * fl (emax i - emin i) - (hi i - lo i) / 2 =
      1 / 2 * (fl (emax i - emin i) - (hi i - lo i)) := by ring
    rw [e, abs_mul, abs_of_pos (by norm_num : (0:ℚ) < 1 / 2)]
    linarith
  have r4 := h.step hN0 r3 (b := 1) (by rw [abs_le]; constructor <;> linarith)
    (hB.le hu (by linarith))
  -- the distance of the centers
  have sc : |t.storedCenter fl c0 b i - t.center b i| ≤ (3 * L + 2) * (u * N) := by
    refine (storedCenter_err h hw hd hF hb hi').trans ?_
    refine (hF.err_le h hw hd (hw.level_lt b hb)).1.trans ?_
    have e : (2 + 3 * L) * u * M = (3 * L + 2) * (u * M) := by ring
    rw [e]
    exact mul_le_mul_of_nonneg_left huMN (by linarith)
  have cM : |t.center b i| ≤ N := by
    have hcb := center_bound hw hb hi'
    rw [rad_zero] at hcb
    have hsz := hF.size i hi'
    have := abs_add_le (t.center b i - t.center 0 i) (t.center 0 i)
    rw [sub_add_cancel] at this
    have := hw.ext_pos
    linarith
  rw [abs_le] at cM
  have d1 : |(fl (1 / 2 * fl (emin i + emax i)) - t.storedCenter fl c0 b i) -
      ((lo i + hi i) / 2 - t.center b i)| ≤ (6 * L + 27 / 4) * (u * N) := by
    have e : (fl (1 / 2 * fl (emin i + emax i)) - t.storedCenter fl c0 b i) -
      ((lo i + hi i) / 2 - t.center b i) = (fl (1 / 2 * fl (emin i + emax i)) - (lo i + hi i) / 2) -
      (t.storedCenter fl c0 b i - t.center b i) := by ring
    rw [e]
    have := abs_sub (fl (1 / 2 * fl (emin i + emax i)) - (lo i + hi i) / 2)
      (t.storedCenter fl c0 b i - t.center b i)
    linarith
  have dB : |(lo i + hi i) / 2 - t.center b i| ≤ 2 * N := by
    rw [abs_le]; constructor <;> linarith [cM.1, cM.2]
  have d2 := h.step hN0 d1 dB (hB.le hu (by linarith))
  have hr : |t.radF fl (t.level b) - t.rad (t.level b)| ≤ 1 / 2 * (u * N) := by
    refine (radF_err h hw _).trans ?_
    have := mul_le_mul_of_nonneg_left rbM hu
    linarith
  have key := sub_sub_err h hN0 d2 r4 hr dB (by linarith) (by linarith) rb0.le (by linarith)
    (hB.le hu (by linarith)) (by norm_num)
  rw [abs_le] at key n1
  have e : sepTol t σ u M = (20 * L + 80) * (u * N) := by rw [sepTol, hN]; ring
  rw [e]
  have e2 : (6 * L + 27 / 4 + 2 + 1 / 2 + (3 * L + 13 / 4 + 1 + 1 / 2) + 1 / 2 + 6) * (u * N) +
      4 * (u * N) ≤ (20 * L + 80) * (u * N) := by
    have : (6 * L + 27 / 4 + 2 + 1 / 2 + (3 * L + 13 / 4 + 1 + 1 / 2) + 1 / 2 + 6) * (u * N) +
      4 * (u * N) =
      (6 * L + 27 / 4 + 2 + 1 / 2 + (3 * L + 13 / 4 + 1 + 1 / 2) + 1 / 2 + 6 + 4) * (u * N) := by
      ring
    rw [this]
    exact mul_le_mul_of_nonneg_right (by linarith) hun
  linarith [key.2, n1.1]

theorem bern {u a b : ℚ} (hu : 0 ≤ u) (ha : 0 ≤ a) (hb : 0 ≤ b) {x : ℚ} (hx : 0 ≤ x) :
    (1 - (a + b) * u) * x ≤ (1 - a * u) * ((1 - b * u) * x) := by
  have : (1 - a * u) * ((1 - b * u) * x) = (1 - (a + b) * u) * x + a * b * (u * u) * x := by ring
  rw [this]
  have : 0 ≤ a * b * (u * u) * x := by positivity
  linarith

/-- the computed right hand side of the list-4 criterion is not much too small -/
theorem sepNeedF_ge (h : Rounds fl u) (hw : t.WF) (hB : Bounds t u M) {eps σ : ℚ} (he0 : 0 ≤ eps)
    (he : eps ≤ 1 / 24) (hs : 0 ≤ σ) (tl sl : Nat) :
    (3 * (1 + σ) * t.rad tl + t.rad sl) * (1 - 8 * eps) - 16 * (u * ((1 + σ) * M)) ≤
      sepNeedF fl t σ eps tl sl := by
  have hu := h.u_nonneg
  have hus : 100 * u ≤ 1 / 2 := hB.le hu (by linarith [hB.one])
  have r0 := hw.rad_pos tl
  have q0 := hw.rad_pos sl
  have rM := hB.rad_le hw tl
  have qM := hB.rad_le hw sl
  set e := 1 - 8 * eps with hedef
  have e0 : 2 / 3 ≤ e := by rw [hedef]; linarith
  have e1 : e ≤ 1 := by rw [hedef]; linarith
  -- the factor
  have hE : (1 - 2 * u) * e ≤ fl (1 - fl (8 * eps)) := by
    have h1 := h.pos_le (x := 8 * eps) (y := 8 * eps) (by linarith) le_rfl
    have h2 : (1 - 1 * u) * e ≤ 1 - fl (8 * eps) := by
      have : u * (8 * eps) ≤ u * e := mul_le_mul_of_nonneg_left (by linarith) hu
      have e' : (1 - 1 * u) * e = e - u * e := by ring
      rw [e']; linarith
    have h3 := h.pos_ge (mul_nonneg (by linarith) (by linarith) : 0 ≤ (1 - 1 * u) * e) h2
    have h4 := bern hu (a := 1) (b := 1) (by norm_num) (by norm_num) (by linarith : 0 ≤ e)
    norm_num at h4 h3
    linarith
  have hK : (1 - 2 * u) * (3 * (1 + σ)) ≤ fl (3 * fl (1 + σ)) := by
    have h1 := h.pos_ge (y := 1 + σ) (by linarith) le_rfl
    have h2 := h.pos_ge (y := 3 * ((1 - u) * (1 + σ))) (x := 3 * fl (1 + σ))
      (mul_nonneg (by norm_num) (mul_nonneg (by linarith) (by linarith))) (by linarith)
    have h4 := bern hu (a := 1) (b := 1) (x := 3 * (1 + σ)) (by norm_num) (by norm_num)
      (by linarith)
    norm_num at h4
    have e' : (1 - u) * (3 * ((1 - u) * (1 + σ))) = (1 - u) * ((1 - u) * (3 * (1 + σ))) := by ring
    linarith
  unfold sepNeedF
  set E' := fl (1 - fl (8 * eps))
  set K' := fl (3 * fl (1 + σ))
  set K := 3 * (1 + σ) with hKdef
  have K0 : 0 ≤ K := by rw [hKdef]; linarith
  have hr := (abs_le.1 (radF_err h hw tl)).1
  have hq := (abs_le.1 (radF_err h hw sl)).1
  have lr : (1 - 1 * u) * t.rad tl ≤ t.radF fl tl := by linarith
  have lq : (1 - 4 * u) * t.rad sl ≤ t.radF fl sl := by
    have := mul_nonneg hu q0.le
    linarith
  have p1 : (1 - 3 * u) * (K * t.rad tl) ≤ K' * t.radF fl tl := by
    have h1 : (1 - 2 * u) * K * ((1 - 1 * u) * t.rad tl) ≤ K' * t.radF fl tl :=
      mul_le_mul hK lr (mul_nonneg (by linarith) r0.le)
        ((mul_nonneg (by linarith) K0).trans hK)
    have h2 := bern hu (a := 2) (b := 1) (x := K * t.rad tl) (by norm_num) (by norm_num)
      (mul_nonneg K0 r0.le)
    have e' : (1 - 2 * u) * K * ((1 - 1 * u) * t.rad tl) =
      (1 - 2 * u) * ((1 - 1 * u) * (K * t.rad tl)) := by ring
    norm_num at h2 e' h1
    linarith
  have p2 : (1 - 4 * u) * (K * t.rad tl) ≤ fl (K' * t.radF fl tl) := by
    have h1 := h.pos_ge (mul_nonneg (by linarith) (mul_nonneg K0 r0.le)) p1
    have h2 := bern hu (a := 1) (b := 3) (x := K * t.rad tl) (by norm_num) (by norm_num)
      (mul_nonneg K0 r0.le)
    norm_num at h2
    linarith
  set A := K * t.rad tl + t.rad sl with hA
  have A0 : 0 ≤ A := by have := mul_nonneg K0 r0.le; linarith
  have p3 : (1 - 5 * u) * A ≤ fl (fl (K' * t.radF fl tl) + t.radF fl sl) := by
    have h1 := h.pos_ge (y := (1 - 4 * u) * A) (x := fl (K' * t.radF fl tl) + t.radF fl sl)
      (mul_nonneg (by linarith) A0) (by rw [hA, mul_add]; linarith)
    have h2 := bern hu (a := 1) (b := 4) (x := A) (by norm_num) (by norm_num) A0
    norm_num at h2
    linarith
  have Ae : 0 ≤ A * e := mul_nonneg A0 (by linarith)
  have p4 : (1 - 7 * u) * (A * e) ≤ fl (fl (K' * t.radF fl tl) + t.radF fl sl) * E' := by
    have h1 : (1 - 5 * u) * A * ((1 - 2 * u) * e) ≤
        fl (fl (K' * t.radF fl tl) + t.radF fl sl) * E' :=
      mul_le_mul p3 hE (mul_nonneg (by linarith) (by linarith))
        ((mul_nonneg (by linarith) A0).trans p3)
    have h2 := bern hu (a := 5) (b := 2) (x := A * e) (by norm_num) (by norm_num) Ae
    have e' : (1 - 5 * u) * A * ((1 - 2 * u) * e) = (1 - 5 * u) * ((1 - 2 * u) * (A * e)) := by ring
    norm_num at h2
    linarith
  have p5 := h.pos_ge (mul_nonneg (by linarith) Ae) p4
  have p6 := bern hu (a := 1) (b := 7) (x := A * e) (by norm_num) (by norm_num) Ae
  norm_num at p6
  have hMN := hB.le_scaled hs
  have hAe : A * e ≤ 2 * ((1 + σ) * M) := by
    have h1 : A * e ≤ A * 1 := mul_le_mul_of_nonneg_left e1 A0
    have h2 : K * t.rad tl ≤ K * (M / 2) := mul_le_mul_of_nonneg_left rM K0
    have h3 : K * (M / 2) = 3 / 2 * ((1 + σ) * M) := by rw [hKdef]; ring
    linarith
  have := mul_le_mul_of_nonneg_left hAe hu
  linarith

/-- A source box accepted by the rounded list-4 criterion is separated up to `sepTol`. -/
theorem sepBiggerF_far {n : Nat} (h : Rounds fl u) (hw : t.WF) (hd : 0 < t.dims)
    (hF : FineEnough t c0 u M n) {eps σ : ℚ} (he0 : 0 ≤ eps) (he : eps ≤ 1 / 24) (hs : 0 ≤ σ)
    {a b : Nat} (ha : a < t.nboxes) (hb : b < t.nboxes)
    (hc : t.sepBiggerF fl σ eps (t.storedCenter fl c0 a) (t.level a) (t.storedCenter fl c0 b)
      (t.level b) = true) :
    ∃ i, i < t.dims ∧ (3 * (1 + σ) * t.rad (t.level a) + t.rad (t.level b)) * (1 - 8 * eps) -
      sepTol t σ u M ≤ |t.center a i - t.center b i| := by
  have hB := hF.bounds h hw hd
  have hu := h.u_nonneg
  rw [sepBiggerF_iff] at hc
  have hge := sepNeedF_ge h hw hB he0 he hs (t.level a) (t.level b)
  have hpos : 0 < sepNeedF fl t σ eps (t.level a) (t.level b) := by
    have e1 := (scaleF_bounds h he0 he).1
    have := h.small
    unfold sepNeedF
    refine h.pos (mul_pos (h.pos (add_pos (h.pos (mul_pos (h.pos (mul_pos (by norm_num)
      (h.pos (by linarith)))) (h.pos (hw.rad_pos _)))) (h.pos (hw.rad_pos _)))) (by linarith))
  rw [le_linfF_iff _ _ hpos] at hc
  obtain ⟨i, hi, hle⟩ := hc
  refine ⟨i, hi, ?_⟩
  obtain ⟨d1, _⟩ := diff_err h hw hd hF ha hb hi
  have t1 := abs_sub_abs_le_abs_sub
    (fl (t.storedCenter fl c0 a i - t.storedCenter fl c0 b i)) (t.center a i - t.center b i)
  have hMN := hB.le_scaled hs
  set N := (1 + σ) * M with hN
  have huMN : u * M ≤ u * N := mul_le_mul_of_nonneg_left hMN hu
  have hL := hB.one
  have e : sepTol t σ u M = (20 * t.nlevels + 80) * (u * N) := by rw [sepTol, hN]; ring
  rw [e]
  have hun : 0 ≤ u * N := mul_nonneg hu (by have := hB.pos; linarith)
  have e1 : (9 * (t.nlevels : ℚ) + 7) * u * M ≤ (9 * t.nlevels + 7) * (u * N) := by
    rw [mul_assoc]; exact mul_le_mul_of_nonneg_left huMN (by linarith)
  have e2 : (9 * (t.nlevels : ℚ) + 7) * (u * N) + 16 * (u * N) ≤ (20 * t.nlevels + 80) * (u * N) := by
    have : (9 * (t.nlevels : ℚ) + 7) * (u * N) + 16 * (u * N) = (9 * t.nlevels + 23) * (u * N) := by
      ring
    rw [this]
    exact mul_le_mul_of_nonneg_right (by linarith) hun
  linarith

/-! ### the Euclidean criterion -/

/-- the computed sum of squares is not much too large -/
theorem sumSqF_le (h : Rounds fl u) (f : Nat → ℚ) (n : Nat) :
    0 ≤ (List.range n).foldl (fun acc i => fl (acc + fl (f i * f i))) 0 ∧
    (List.range n).foldl (fun acc i => fl (acc + fl (f i * f i))) 0 ≤
      (1 + u) ^ (n + 1) * ∑ i ∈ Finset.range n, f i ^ 2 := by
  have hu := h.u_nonneg
  induction n with
  | zero => simp
  | succ n ih =>
    rw [List.range_succ, List.foldl_append, Finset.sum_range_succ]
    simp only [List.foldl_cons, List.foldl_nil]
    obtain ⟨i1, i2⟩ := ih
    set acc := (List.range n).foldl (fun acc i => fl (acc + fl (f i * f i))) 0
    have s0 : 0 ≤ f n * f n := mul_self_nonneg _
    have s1 := h.pos_le s0 le_rfl
    have s2 : 0 ≤ fl (f n * f n) := le_trans (mul_nonneg (by linarith [h.small]) s0) (h.pos_ge s0 le_rfl)
    have s3 : 0 ≤ acc + fl (f n * f n) := add_nonneg i1 s2
    refine ⟨le_trans (mul_nonneg (by linarith [h.small]) s3) (h.pos_ge s3 le_rfl), ?_⟩
    refine (h.pos_le s3 (y := (1 + u) ^ (n + 1) * (∑ i ∈ Finset.range n, f i ^ 2 + f n ^ 2)) ?_).trans
      (le_of_eq (by ring))
    have h1 : (1 + u) * (f n * f n) ≤ (1 + u) ^ (n + 1) * f n ^ 2 := by
      have : (1 + u) ^ 1 ≤ (1 + u) ^ (n + 1) := pow_le_pow_right₀ (by linarith) (by omega)
      rw [pow_one] at this
      have := mul_le_mul_of_nonneg_right this (sq_nonneg (f n))
      rw [sq] at this ⊢
      linarith
    rw [mul_add]
    linarith

/-- A source box accepted by the rounded `static_l2` criterion is separated up to `sepTol`. -/
theorem staticL2F_far {n : Nat} (h : Rounds fl u) (hrt : RoundsRoot rt u) (hw : t.WF)
    (hd : 0 < t.dims) (hd3 : t.dims ≤ 3) (hF : FineEnough t c0 u M n) {eps σ : ℚ} (he0 : 0 ≤ eps)
    (he : eps ≤ 1 / 24) (hs : 0 ≤ σ) {a b : Nat} (ha : a < t.nboxes) (hb : b < t.nboxes)
    (hc : t.staticL2F fl rt σ eps (t.storedCenter fl c0 a) (t.level a) (t.storedCenter fl c0 b)
      (t.level b) = true) :
    (((2 - 8 * eps) * t.rad (t.level b) - sepTol t σ u M : ℚ) : ℝ) ≤
      Real.sqrt (∑ i ∈ Finset.range t.dims, ((t.center a i - t.center b i : ℚ) : ℝ) ^ 2) -
        Real.sqrt t.dims * ((1 + σ) * t.rad (t.level a) : ℚ) - (t.rad (t.level b) : ℚ) := by
  have hB := hF.bounds h hw hd
  have hu := h.u_nonneg
  have hus : 100 * u ≤ 1 / 2 := hB.le hu (by linarith [hB.one])
  unfold staticL2F at hc
  simp only [decide_eq_true_eq] at hc
  obtain ⟨n0, n1⟩ := needF_err h hw hB he0 he (t.level b)
  obtain ⟨q1, q2⟩ := sumSqF_le h
    (fun i => fl (t.storedCenter fl c0 a i - t.storedCenter fl c0 b i)) t.dims
  set d2 := (List.range t.dims).foldl (fun acc i =>
    fl (acc + fl (fl (t.storedCenter fl c0 a i - t.storedCenter fl c0 b i) *
      fl (t.storedCenter fl c0 a i - t.storedCenter fl c0 b i)))) 0 with hd2
  set dd : Nat → ℚ := fun i => fl (t.storedCenter fl c0 a i - t.storedCenter fl c0 b i) with hdd
  set DD : Nat → ℚ := fun i => t.center a i - t.center b i with hDD
  set ra := t.rad (t.level a) with hra
  set rb := t.rad (t.level b) with hrb
  have ra0 : 0 < ra := hw.rad_pos _
  have rb0 : 0 < rb := hw.rad_pos _
  have raM : ra ≤ M / 2 := hB.rad_le hw _
  have rbM : rb ≤ M / 2 := hB.rad_le hw _
  have hMN := hB.le_scaled hs
  have hst := stickRadF_err h hw hB hs (t.level a)
  have hr := radF_err h hw (t.level b)
  rw [← hrb] at hr
  set N := (1 + σ) * M with hN
  set st := (1 + σ) * ra with hstdef
  set st' := t.stickRadF fl σ (t.level a) with hst'
  set rb' := t.radF fl (t.level b) with hrb'
  have hM0 := hB.pos
  have hN0 : 0 ≤ N := by linarith
  have huMN : u * M ≤ u * N := mul_le_mul_of_nonneg_left hMN hu
  have hun : 0 ≤ u * N := mul_nonneg hu hN0
  have hL := hB.one
  have rb'0 : 0 < rb' := h.pos (hw.rad_pos _)
  have st'0 : 0 < st' := h.pos (mul_pos (h.pos (by linarith)) (h.pos (hw.rad_pos _)))
  have st0 : 0 < st := mul_pos (by linarith) ra0
  have stN : st ≤ N / 2 := by
    have := mul_le_mul_of_nonneg_left raM (by linarith : 0 ≤ 1 + σ)
    rw [hN, hstdef]; linarith
  set s' := fl (rt t.dims * st') with hs'
  -- unwind the two subtractions
  have x1 : 0 < fl (rt d2 - s') - rb' := by
    by_contra hcn
    have := h.nonpos (not_lt.1 hcn)
    linarith
  have x2 : 0 < rt d2 - s' := by
    by_contra hcn
    have := h.nonpos (not_lt.1 hcn)
    linarith
  have x3 := h.pos_le x1.le le_rfl
  have x4 := h.pos_le x2.le le_rfl
  set y := rt d2 - s' with hy
  have x5 : t.needF fl eps (t.level b) ≤ y + 21 / 10 * u * y - rb' := by
    have h1 : (1 + u) * (fl y - rb') ≤ (1 + u) * ((1 + u) * y - rb') :=
      mul_le_mul_of_nonneg_left (by linarith) (by linarith)
    have h2 : (1 + u) * ((1 + u) * y - rb') = y + 2 * (u * y) + u * (u * y) - rb' - u * rb' := by ring
    have h3 : u * (u * y) ≤ 1 / 10 * (u * y) :=
      mul_le_mul_of_nonneg_right (by linarith) (mul_nonneg hu x2.le)
    have h4 : 0 ≤ u * rb' := mul_nonneg hu rb'0.le
    linarith
  -- into the reals
  have ur : (0:ℝ) ≤ (u:ℝ) := by exact_mod_cast hu
  have usr : 100 * (u:ℝ) ≤ 1 / 2 := by
    have : ((100 * u : ℚ) : ℝ) ≤ ((1 / 2 : ℚ) : ℝ) := Rat.cast_le.2 hus
    push_cast at this; exact this
  have Mr : (0:ℝ) < (M:ℝ) := by exact_mod_cast hM0
  set m : ℝ := Real.sqrt t.dims with hm
  have m0 : 0 ≤ m := Real.sqrt_nonneg _
  have m2 : m ≤ 2 := by
    rw [hm, Real.sqrt_le_left (by norm_num)]
    have : (t.dims : ℝ) ≤ 3 := by exact_mod_cast hd3
    linarith
  set ε : ℚ := (9 * t.nlevels + 7) * u * M with hε
  have ε0 : 0 ≤ ε := by rw [hε]; have : (0:ℚ) ≤ t.nlevels := by linarith
                        positivity
  have εM : ε ≤ M / 2 := by
    have := hB.le hu (k := 9 * t.nlevels + 7) (by linarith)
    have := mul_le_mul_of_nonneg_right this hM0.le
    rw [hε]; linarith
  have er : (0:ℝ) ≤ (ε:ℝ) := by exact_mod_cast ε0
  have erM : (ε:ℝ) ≤ (M:ℝ) / 2 := by
    have : ((ε : ℚ) : ℝ) ≤ ((M / 2 : ℚ) : ℝ) := Rat.cast_le.2 εM
    push_cast at this; exact this
  set R : ℝ := Real.sqrt (∑ i ∈ Finset.range t.dims, ((DD i : ℚ) : ℝ) ^ 2) with hR
  have hnear : Real.sqrt (∑ i ∈ Finset.range t.dims, ((dd i : ℚ) : ℝ) ^ 2) ≤ R + m * ε := by
    apply sqrt_sum_near t.dims (fun i => ((dd i : ℚ) : ℝ)) (fun i => ((DD i : ℚ) : ℝ)) er
    intro i hi
    obtain ⟨d1, _⟩ := diff_err h hw hd hF ha hb hi
    have : ((|dd i - DD i| : ℚ) : ℝ) ≤ ((ε : ℚ) : ℝ) := Rat.cast_le.2 d1
    push_cast at this
    exact this
  have R0 : 0 ≤ R := Real.sqrt_nonneg _
  have RM : R ≤ 2 * M := by
    have h1 : ∑ i ∈ Finset.range t.dims, ((DD i : ℚ) : ℝ) ^ 2 ≤ t.dims * (M:ℝ) ^ 2 := by
      calc ∑ i ∈ Finset.range t.dims, ((DD i : ℚ) : ℝ) ^ 2
          ≤ ∑ i ∈ Finset.range t.dims, (M:ℝ) ^ 2 := by
            apply Finset.sum_le_sum
            intro i hi
            obtain ⟨_, d3⟩ := diff_err h hw hd hF ha hb (Finset.mem_range.1 hi)
            rw [← sq_abs ((DD i : ℚ) : ℝ)]
            apply pow_le_pow_left₀ (abs_nonneg _)
            have : ((|DD i| : ℚ) : ℝ) ≤ ((M : ℚ) : ℝ) := Rat.cast_le.2 d3
            push_cast at this
            exact this
        _ = t.dims * (M:ℝ) ^ 2 := by simp
    calc R ≤ Real.sqrt (t.dims * (M:ℝ) ^ 2) := Real.sqrt_le_sqrt h1
      _ = m * M := by rw [Real.sqrt_mul (by positivity), Real.sqrt_sq Mr.le]
      _ ≤ 2 * M := mul_le_mul_of_nonneg_right m2 Mr.le
  set Q : ℝ := Real.sqrt (∑ i ∈ Finset.range t.dims, ((dd i : ℚ) : ℝ) ^ 2) with hQ
  have Q0 : 0 ≤ Q := Real.sqrt_nonneg _
  have hQ' : Q ≤ R + 2 * ε := by
    have := mul_le_mul_of_nonneg_right m2 er
    linarith
  have hd2r : Real.sqrt (d2 : ℝ) ≤ (1 + 5 / 2 * u) * Q := by
    rw [Real.sqrt_le_left (mul_nonneg (by linarith) Q0)]
    have h1 : (1 + u) ^ (t.dims + 1) ≤ 1 + 5 * u := by
      refine le_trans (pow_le_pow_right₀ (by linarith) (by omega : t.dims + 1 ≤ 4)) ?_
      exact (pow_le_lin hu h.small).1
    have h2 : d2 ≤ (1 + 5 * u) * ∑ i ∈ Finset.range t.dims, dd i ^ 2 :=
      q2.trans (mul_le_mul_of_nonneg_right h1 (Finset.sum_nonneg fun i _ => sq_nonneg _))
    have h3 : (d2 : ℝ) ≤ (1 + 5 * u) * ∑ i ∈ Finset.range t.dims, ((dd i : ℚ) : ℝ) ^ 2 := by
      have : ((d2 : ℚ) : ℝ) ≤ (((1 + 5 * u) * ∑ i ∈ Finset.range t.dims, dd i ^ 2 : ℚ) : ℝ) :=
        Rat.cast_le.2 h2
      push_cast at this
      exact this
    have h4 : Q ^ 2 = ∑ i ∈ Finset.range t.dims, ((dd i : ℚ) : ℝ) ^ 2 :=
      Real.sq_sqrt (Finset.sum_nonneg fun i _ => sq_nonneg _)
    rw [mul_pow, h4]
    refine h3.trans (mul_le_mul_of_nonneg_right ?_ (Finset.sum_nonneg fun i _ => sq_nonneg _))
    have : (0:ℝ) ≤ (u:ℝ) ^ 2 := sq_nonneg _
    nlinarith
  have hrt1 : (rt d2 : ℝ) ≤ (1 + u) * Real.sqrt d2 := by
    have := (abs_le.1 (hrt d2 q1)).2
    linarith
  have hrt2 : (rt d2 : ℝ) ≤ R + 2 * ε + 54 / 5 * (u * M) := by
    have h1 : (1 + (u:ℝ)) * Real.sqrt d2 ≤ (1 + u) * ((1 + 5 / 2 * u) * Q) :=
      mul_le_mul_of_nonneg_left hd2r (by linarith)
    have h2 : (1 + (u:ℝ)) * ((1 + 5 / 2 * u) * Q) ≤ (1 + 18 / 5 * u) * Q := by
      have : (1 + (u:ℝ)) * ((1 + 5 / 2 * u) * Q) =
        (1 + 7 / 2 * u) * Q + 5 / 2 * u * u * Q := by ring
      rw [this]
      have h5 : 5 / 2 * (u:ℝ) * u * Q ≤ 1 / 10 * u * Q := by
        apply mul_le_mul_of_nonneg_right _ Q0
        nlinarith
      linarith
    have h3 : (1 + 18 / 5 * (u:ℝ)) * Q ≤ (1 + 18 / 5 * u) * (R + 2 * ε) :=
      mul_le_mul_of_nonneg_left hQ' (by linarith)
    have h4 : (u:ℝ) * (R + 2 * ε) ≤ u * (3 * M) := mul_le_mul_of_nonneg_left (by linarith) ur
    linarith
  have umr : (u:ℝ) * M ≤ 1 / 200 * M := mul_le_mul_of_nonneg_right (by linarith) Mr.le
  -- the stick-out term
  have hm' : (rt t.dims : ℝ) ≥ (1 - u) * m := by
    have := (abs_le.1 (hrt (t.dims : ℚ) (Nat.cast_nonneg _))).1
    push_cast at this
    linarith
  have rtd0 : (0:ℚ) ≤ rt t.dims := by
    have : (0:ℝ) ≤ (rt t.dims : ℝ) := le_trans (mul_nonneg (by linarith) m0) hm'
    exact_mod_cast this
  have hs1 := h.pos_ge (mul_nonneg rtd0 st'0.le) le_rfl
  have Nr : (0:ℝ) ≤ (N:ℝ) := by exact_mod_cast hN0
  have hs2 : m * st - 25 / 4 * (u * N) ≤ (s' : ℝ) := by
    have h1 : (((1 - u) * (rt t.dims * st') : ℚ) : ℝ) ≤ (s' : ℝ) := Rat.cast_le.2 hs1
    push_cast at h1
    have h2 : (st:ℝ) - 17 / 8 * (u * N) ≤ st' := by
      have : ((st - 17 / 8 * (u * N) : ℚ) : ℝ) ≤ (st' : ℝ) :=
        Rat.cast_le.2 (by linarith [(abs_le.1 hst).1])
      push_cast at this
      exact this
    have str : (0:ℝ) ≤ (st':ℝ) := by exact_mod_cast st'0.le
    have st0r : (0:ℝ) ≤ (st:ℝ) := by exact_mod_cast st0.le
    have stNr : (st:ℝ) ≤ N / 2 := by
      have : ((st : ℚ) : ℝ) ≤ ((N / 2 : ℚ) : ℝ) := Rat.cast_le.2 stN
      push_cast at this; exact this
    have h3 : (1 - (u:ℝ)) * (((1 - u) * m) * st') ≤ (1 - u) * (rt t.dims * st') :=
      mul_le_mul_of_nonneg_left (mul_le_mul_of_nonneg_right hm' str) (by linarith)
    have h4 : (1 - 2 * (u:ℝ)) * (m * st') ≤ (1 - u) * (((1 - u) * m) * st') := by
      have : (1 - (u:ℝ)) * (((1 - u) * m) * st') = (1 - 2 * u) * (m * st') + u ^ 2 * (m * st') := by
        ring
      rw [this]
      have : 0 ≤ (u:ℝ) ^ 2 * (m * st') := by positivity
      linarith
    have h5 : (1 - 2 * (u:ℝ)) * (m * (st - 17 / 8 * (u * N))) ≤ (1 - 2 * u) * (m * st') :=
      mul_le_mul_of_nonneg_left (mul_le_mul_of_nonneg_left h2 m0) (by linarith)
    have h6 : (1 - 2 * (u:ℝ)) * (m * (st - 17 / 8 * (u * N))) =
      m * st - 2 * (u * (m * st)) - 17 / 8 * (m * (u * N)) + 17 / 4 * (u * (m * (u * N))) := by ring
    have unr : (0:ℝ) ≤ u * N := mul_nonneg ur Nr
    have h7 : (m:ℝ) * st ≤ 2 * (N / 2) := mul_le_mul m2 stNr st0r (by norm_num)
    have h8 := mul_le_mul_of_nonneg_left h7 ur
    have h9 : m * ((u:ℝ) * N) ≤ 2 * (u * N) := mul_le_mul_of_nonneg_right m2 unr
    have h10 : 0 ≤ (u:ℝ) * (m * (u * N)) := mul_nonneg ur (mul_nonneg m0 unr)
    linarith
  -- collect
  have yr : (y : ℝ) = rt d2 - s' := by rw [hy]; push_cast; ring
  have s'0 : (0:ℝ) ≤ (s':ℝ) := by
    have : 0 ≤ s' := le_trans (mul_nonneg (by linarith [h.small]) (mul_nonneg rtd0 st'0.le)) hs1
    exact_mod_cast this
  have y1 : (y : ℝ) ≤ 25 / 8 * M := by
    rw [yr]; linarith
  have x5r : (t.needF fl eps (t.level b) : ℝ) ≤ y + 21 / 10 * u * y - rb' := by
    have : ((t.needF fl eps (t.level b) : ℚ) : ℝ) ≤ ((y + 21 / 10 * u * y - rb' : ℚ) : ℝ) :=
      Rat.cast_le.2 x5
    push_cast at this ⊢
    exact this
  have n1r : (((2 - 8 * eps) * rb : ℚ) : ℝ) - 4 * (u * M) ≤ (t.needF fl eps (t.level b) : ℝ) := by
    have : (((2 - 8 * eps) * rb - 4 * (u * M) : ℚ) : ℝ) ≤ ((t.needF fl eps (t.level b) : ℚ) : ℝ) :=
      Rat.cast_le.2 (by linarith [(abs_le.1 n1).1])
    push_cast at this ⊢
    exact this
  have hrr : (rb : ℝ) - 1 / 2 * (u * M) ≤ rb' := by
    have : ((rb - 1 / 2 * (u * M) : ℚ) : ℝ) ≤ ((rb' : ℚ) : ℝ) := by
      apply Rat.cast_le.2
      have := mul_le_mul_of_nonneg_left rbM hu
      linarith [(abs_le.1 hr).1]
    push_cast at this
    exact this
  have uy : (u:ℝ) * y ≤ u * (25 / 8 * M) := mul_le_mul_of_nonneg_left y1 ur
  have etol : ((sepTol t σ u M : ℚ) : ℝ) = (20 * (t.nlevels : ℝ) + 80) * (u * N) := by
    rw [show sepTol t σ u M = (20 * t.nlevels + 80) * (u * N) by rw [sepTol, hN]; ring]
    push_cast
    ring
  have eε : (ε : ℝ) = (9 * (t.nlevels : ℝ) + 7) * (u * M) := by
    rw [hε]; push_cast; ring
  have huMNr : (u:ℝ) * M ≤ u * N := by
    have : ((u * M : ℚ) : ℝ) ≤ ((u * N : ℚ) : ℝ) := Rat.cast_le.2 huMN
    push_cast at this; exact this
  have hLr : (1:ℝ) ≤ (t.nlevels : ℝ) := by exact_mod_cast hL
  have umr0 : (0:ℝ) ≤ u * M := mul_nonneg ur Mr.le
  have hLuM : (t.nlevels : ℝ) * (u * M) ≤ t.nlevels * (u * N) :=
    mul_le_mul_of_nonneg_left huMNr (by linarith)
  have hLuN : (0:ℝ) ≤ t.nlevels * (u * N) := mul_nonneg (by linarith) (umr0.trans huMNr)
  have hG : (((2 - 8 * eps) * rb : ℚ) : ℝ) - ((sepTol t σ u M : ℚ) : ℝ) ≤ R - m * st - rb := by
    rw [etol]
    rw [eε] at hrt2
    rw [yr] at x5r uy
    linarith
  have e : (((2 - 8 * eps) * rb - sepTol t σ u M : ℚ) : ℝ) =
      (((2 - 8 * eps) * rb : ℚ) : ℝ) - ((sepTol t σ u M : ℚ) : ℝ) := Rat.cast_sub _ _
  rw [e]
  exact hG

end Boxtree
