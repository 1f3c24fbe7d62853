import Verif.Spec.AreaF
import Verif.Lemmas.AreaQuery
import Verif.Lemmas.DeviceTests

/-! Area queries in floating point arithmetic. -/

set_option linter.unusedVariables false

namespace Boxtree
open BoxTree Build Area

variable {t : BoxTree} {fl hf : ℚ → ℚ} {c0 bmin : Nat → ℚ} {u M : ℚ}

/-! ### peer lists -/

theorem dfs_congr {α : Type} (hw : t.WF) (v v' : Nat → Nat → List α × Bool) (h : Nat) :
    ∀ k b, b < t.nboxes → (∀ j c, c < t.nboxes → c ≠ 0 → t.level c + k = t.level b + j + 1 →
      v j c = v' j c) → dfs t v h k b = dfs t v' h k b := by
  induction h with
  | zero => intro k b _ _; rfl
  | succ h ih =>
    intro k b hb hv
    rw [dfs_succ, dfs_succ]
    apply List.flatMap_congr
    intro m hm
    rw [List.mem_range] at hm
    unfold dfsChild
    by_cases hc : t.child m b = 0
    · simp [hc]
    · have hlt := hw.child_lt m hm b hb
      have hlc := hw.level_child hm hb hc
      simp only [if_neg hc]
      rw [hv k _ hlt hc (by omega), ih (k + 1) _ hlt]
      intro j c h1 h2 h3
      exact hv j c h1 h2 (by omega)

theorem walk_congr {α : Type} (hw : t.WF) (v v' : Nat → Nat → List α × Bool) {b : Nat}
    (hb : b < t.nboxes) (h : ∀ j c, c < t.nboxes → c ≠ 0 → t.level c = t.level b + j + 1 →
      v j c = v' j c) : walk t v b = walk t v' b := by
  rw [walk_eq_dfs v hw hb, walk_eq_dfs v' hw hb]
  exact dfs_congr hw v v' _ 0 b hb (fun j c h1 h2 h3 => h j c h1 h2 (by omega))

theorem foldl_congr_mem {α β : Type} (l : List α) (f g : β → α → β)
    (h : ∀ x ∈ l, ∀ a, f a x = g a x) : ∀ a, l.foldl f a = l.foldl g a := by
  induction l with
  | nil => intro a; rfl
  | cons x l ih =>
    intro a
    rw [List.foldl_cons, List.foldl_cons, h x (by simp)]
    exact ih (fun y hy => h y (by simp [hy])) _

/-- The peer kernel only depends on what the adjacency test says about boxes and their levels. -/
theorem peerKernel_congr (hw : t.WF) (adj : AdjTest)
    (h : ∀ a b, a < t.nboxes → b < t.nboxes → (adj a (t.level a) b (t.level b) = true ↔ t.nws 1 a b))
    {b : Nat} (hb : b < t.nboxes) : peerKernel t b adj = peerKernel t b := by
  unfold peerKernel
  by_cases h0 : b = 0
  · rw [if_pos h0, if_pos h0]
  rw [if_neg h0, if_neg h0]
  apply walk_congr hw _ _ hw.nboxes_pos
  intro j c hc hc0 hl
  rw [hw.level_root] at hl
  have e : ∀ x, x < t.nboxes → adj b (t.level b) x (t.level x) =
      t.adjOver (t.center b) (t.level b) (t.center x) (t.level x) := by
    intro x hx
    rw [Bool.eq_iff_iff, h b x hb hx, adjOver_iff]
  have e1 := e c hc
  rw [hl, show 0 + j + 1 = j + 1 by omega] at e1
  have e2 : mustBePeer t b j c adj = mustBePeer t b j c := by
    unfold mustBePeer
    apply foldl_congr_mem
    intro m hm a
    rw [List.mem_range] at hm
    by_cases hcm : t.child m c = 0
    · simp [hcm]
    · have e3 := e _ (hw.child_lt m hm c hc)
      rw [hw.level_child hm hc hcm, hl, show 0 + j + 1 + 1 = j + 2 by omega] at e3
      simp only [e3]
  unfold peerVisit
  beta_reduce
  rw [e1, e2]

theorem peerLists_rounded (h : RoundedArea t fl hf c0 bmin u M) :
    peerLists t (adjacentF t fl c0) = peerLists t := by
  unfold peerLists
  congr 1
  apply List.map_congr_left
  intro b hb
  exact peerKernel_congr h.wf _ (fun a b ha hb =>
    adjF_iff h.rounds h.wf h.dims le_rfl h.fine le_rfl ha hb) (List.mem_range.1 hb)

/-! ### guiding box -/

namespace RoundedArea
variable (h : RoundedArea t fl hf c0 bmin u M)
include h

theorem radF_eq : t.radF fl = t.rad := by
  funext l
  exact h.halves (l + 1)

theorem M_pos : 0 < M := h.fine.nonneg h.wf h.dims

theorem uM : 0 ≤ u * M := mul_nonneg h.rounds.u_nonneg h.M_pos.le

theorem ext_le : t.rootExtent ≤ M := by
  have := h.fine.size 0 h.dims
  have := abs_nonneg (t.center 0 0)
  linarith

theorem u_le : 200000 * u ≤ 1 := by
  have h1 := h.stretch
  have h2 := h.ext_le
  have h3 := h.M_pos
  by_contra hc
  push Not at hc
  have := mul_lt_mul_of_pos_right hc h3
  linarith

theorem bounds {i : Nat} (hi : i < t.dims) :
    -M ≤ bmin i ∧ bmin i + t.rootExtent ≤ M := by
  have h1 := h.fine.size i hi
  have h2 := h.wf.ext_pos
  rw [h.bmin i hi]
  unfold lo
  rw [h.wf.level_root]
  have : t.rad 0 = t.rootExtent / 2 := rad_zero t
  have h3 := le_abs_self (t.center 0 i)
  have h4 := neg_abs_le (t.center 0 i)
  constructor <;> linarith

theorem quot_err : |fl (hf (t.rootExtent / hf (1 + hf stretchFactor))) -
    t.rootExtent / (1 + stretchFactor)| ≤ 7 * u * t.rootExtent := by
  have he := h.wf.ext_pos
  have hu := h.rounds.u_nonneg
  have hu1 := h.u_le
  have s0 : stretchFactor = 1 / 10000 := rfl
  have e1 := h.host.err stretchFactor
  rw [abs_of_pos (a := stretchFactor) (by rw [s0]; norm_num)] at e1
  have e2 : |hf (1 + hf stretchFactor) - (1 + stretchFactor)| ≤ 2 * u := by
    have := h.host.near (x' := 1 + hf stretchFactor) (x := 1 + stretchFactor)
      (e := u * stretchFactor) (B := 1 + stretchFactor)
      (by rw [add_sub_add_left_eq_sub]; exact e1)
      (by rw [abs_of_pos (by rw [s0]; norm_num)])
    refine this.trans ?_
    rw [s0]
    nlinarith
  set q' := hf (1 + hf stretchFactor) with hq'
  set q := 1 + stretchFactor with hq
  have hq1 : q = 10001 / 10000 := by rw [hq, s0]; norm_num
  have e2' := abs_le.1 e2
  have hq'1 : 1 ≤ q' := by rw [hq1] at e2'; linarith [e2'.1]
  have e3 : |t.rootExtent / q' - t.rootExtent / q| ≤ 3 * u * t.rootExtent := by
    have e : t.rootExtent / q' - t.rootExtent / q = t.rootExtent * (q - q') / (q * q') := by
      have : q ≠ 0 := by rw [hq1]; norm_num
      have : q' ≠ 0 := by linarith
      field_simp
    have hqq : 0 < q * q' := by rw [hq1]; linarith
    rw [e, abs_div, abs_mul, abs_of_pos he, abs_of_pos hqq, div_le_iff₀ hqq]
    rw [abs_sub_comm] at e2
    have h1 : t.rootExtent * |q - q'| ≤ t.rootExtent * (2 * u) :=
      mul_le_mul_of_nonneg_left e2 he.le
    have h2 : 1 ≤ q * q' := by rw [hq1]; linarith
    have h3 : 0 ≤ 3 * u * t.rootExtent := by positivity
    have h4 : 3 * u * t.rootExtent * 1 ≤ 3 * u * t.rootExtent * (q * q') :=
      mul_le_mul_of_nonneg_left h2 h3
    have h5 : 0 ≤ u * t.rootExtent := by positivity
    linarith
  have hB : |t.rootExtent / q| ≤ t.rootExtent := by
    rw [abs_of_pos (by rw [hq1]; positivity), div_le_iff₀ (by rw [hq1]; norm_num), hq1]
    linarith
  have e4 := h.host.near e3 hB
  have huE : 0 ≤ u * t.rootExtent := by positivity
  have huu : u * (u * t.rootExtent) ≤ 1 / 8 * (u * t.rootExtent) :=
    mul_le_mul_of_nonneg_right h.rounds.small huE
  have e5 : |hf (t.rootExtent / q') - t.rootExtent / q| ≤ 5 * u * t.rootExtent := by
    refine e4.trans ?_
    have : 3 * u * t.rootExtent + u * (t.rootExtent + 3 * u * t.rootExtent) =
      4 * (u * t.rootExtent) + 3 * (u * (u * t.rootExtent)) := by ring
    linarith
  refine (h.rounds.near e5 hB).trans ?_
  have : 5 * u * t.rootExtent + u * (t.rootExtent + 5 * u * t.rootExtent) =
      6 * (u * t.rootExtent) + 5 * (u * (u * t.rootExtent)) := by ring
  linarith

theorem bboxMaxF_err {i : Nat} (hi : i < t.dims) :
    |bboxMaxF t fl hf bmin i - bboxMax t bmin i| ≤ 9 * (u * M) := by
  have he := h.wf.ext_pos
  have hu := h.rounds.u_nonneg
  have hq := h.quot_err
  obtain ⟨b1, b2⟩ := h.bounds hi
  have hE := h.ext_le
  unfold bboxMaxF bboxMax
  set e := fl (hf (t.rootExtent / hf (1 + hf stretchFactor)))
  have hs : 0 ≤ t.rootExtent / (1 + stretchFactor) ∧
      t.rootExtent / (1 + stretchFactor) ≤ t.rootExtent := by
    unfold stretchFactor
    refine ⟨by positivity, ?_⟩
    rw [div_le_iff₀ (by norm_num)]; linarith
  have := h.rounds.near (x' := bmin i + e) (x := bmin i + t.rootExtent / (1 + stretchFactor))
    (e := 7 * u * t.rootExtent) (B := M) (by rw [add_sub_add_left_eq_sub]; exact hq)
    (by rw [abs_le]; constructor <;> linarith [hs.1, hs.2])
  refine this.trans ?_
  have h1 : u * t.rootExtent ≤ u * M := mul_le_mul_of_nonneg_left hE hu
  have h2 : u * (u * t.rootExtent) ≤ 1 / 8 * (u * t.rootExtent) :=
    mul_le_mul_of_nonneg_right h.rounds.small (by positivity)
  have h3 : 7 * u * t.rootExtent + u * (M + 7 * u * t.rootExtent) =
    7 * (u * t.rootExtent) + u * M + 7 * (u * (u * t.rootExtent)) := by ring
  linarith [h.uM]

/-- The rounded upper end of the bounding box. -/
theorem bboxMaxF_bounds {i : Nat} (hi : i < t.dims) :
    bmin i ≤ bboxMaxF t fl hf bmin i ∧
      bboxMaxF t fl hf bmin i ≤ bmin i + (1 - 1 / 20000) * t.rootExtent := by
  have h1 := abs_le.1 (h.bboxMaxF_err hi)
  have h2 := h.stretch
  have he := h.wf.ext_pos
  have h3 : bboxMax t bmin i = bmin i + 10000 / 10001 * t.rootExtent := by
    unfold bboxMax stretchFactor
    field_simp
    ring
  rw [h3] at h1
  have h4 : 200000 * u * M = 200000 * (u * M) := by ring
  constructor <;> linarith [h1.1, h1.2]

theorem clampF_bounds {i : Nat} (hi : i < t.dims) (x : Nat → ℚ) :
    bmin i ≤ clampF t fl hf bmin x i ∧
      clampF t fl hf bmin x i ≤ bmin i + (1 - 1 / 20000) * t.rootExtent := by
  obtain ⟨h1, h2⟩ := h.bboxMaxF_bounds hi
  unfold clampF
  exact ⟨le_min h1 (le_max_left _ _), (min_le_left _ _).trans h2⟩

omit h in
theorem clampF_mono {x y : Nat → ℚ} {i : Nat} (hxy : x i ≤ y i) :
    clampF t fl hf bmin x i ≤ clampF t fl hf bmin y i := by
  unfold clampF
  exact min_le_min_left _ (max_le_max_left _ hxy)

/-- Rounding a point before clamping moves the clamped point by at most two roundings. -/
theorem clampF_fl {i : Nat} (hi : i < t.dims) (x : Nat → ℚ) :
    |clampF t fl hf bmin (fun j => fl (x j)) i - clampF t fl hf bmin x i| ≤ 2 * (u * M) := by
  obtain ⟨h1, h2⟩ := h.bboxMaxF_bounds hi
  obtain ⟨b1, b2⟩ := h.bounds hi
  have he := h.wf.ext_pos
  have hM := h.M_pos
  have hu := h.rounds.u_nonneg
  have huM := h.uM
  have herr := h.rounds.err (x i)
  have hsm := h.rounds.small
  have hux : u * |x i| ≤ 1 / 8 * |x i| := mul_le_mul_of_nonneg_right hsm (abs_nonneg _)
  unfold clampF
  rcases le_or_gt |x i| (2 * M) with hx | hx
  · have h3 : u * |x i| ≤ u * (2 * M) := mul_le_mul_of_nonneg_left hx hu
    refine (abs_min_sub_min_le_max _ _ _ _).trans (max_le (by simp; linarith) ?_)
    refine (abs_max_sub_max_le_max _ _ _ _).trans (max_le (by simp; linarith) ?_)
    linarith
  · have hd := abs_le.1 (herr.trans hux)
    have e : min (bboxMaxF t fl hf bmin i) (max (bmin i) (fl (x i))) =
        min (bboxMaxF t fl hf bmin i) (max (bmin i) (x i)) := by
      rcases le_or_gt 0 (x i) with h0 | h0
      · rw [abs_of_nonneg h0] at hx hd
        rw [min_eq_left (le_max_of_le_right (by linarith)),
          min_eq_left (le_max_of_le_right (by linarith))]
      · rw [abs_of_neg h0] at hx hd
        rw [max_eq_left (by linarith), max_eq_left (by linarith)]
    rw [e, sub_self, abs_zero]
    linarith

theorem clampF_ball (ball : Ball) {y : Nat → ℚ} {i : Nat} (hi : i < t.dims)
    (hy : |y i - ball.center i| ≤ ball.radius) :
    |clampF t fl hf bmin y i - clampF t fl hf bmin ball.center i| ≤
      queryRadiusF t fl hf bmin ball + 3 * (u * M) := by
  obtain ⟨-, h2⟩ := foldl_foldl_max_ge (fun mnr i =>
    |fl (clampF t fl hf bmin (fun j => fl (ball.center j + cornerOffset t mnr ball.radius j)) i
        - clampF t fl hf bmin ball.center i)|) (List.range t.nch) (List.range t.dims) 0
  have hu := h.rounds.u_nonneg
  have hE := h.ext_le
  have he := h.wf.ext_pos
  have corner : ∀ mnr, mnr < t.nch →
      |clampF t fl hf bmin (fun j => ball.center j + cornerOffset t mnr ball.radius j) i
        - clampF t fl hf bmin ball.center i| ≤ queryRadiusF t fl hf bmin ball + 3 * (u * M) := by
    intro mnr hm
    have h3 := h2 mnr (List.mem_range.2 hm) i (List.mem_range.2 hi)
    change _ ≤ queryRadiusF t fl hf bmin ball at h3
    have h4 := h.clampF_fl hi (fun j => ball.center j + cornerOffset t mnr ball.radius j)
    obtain ⟨p1, p2⟩ := h.clampF_bounds hi ball.center
    obtain ⟨q1, q2⟩ := h.clampF_bounds hi
      (fun j => fl (ball.center j + cornerOffset t mnr ball.radius j))
    set a := clampF t fl hf bmin (fun j => fl (ball.center j + cornerOffset t mnr ball.radius j)) i
    set a' := clampF t fl hf bmin (fun j => ball.center j + cornerOffset t mnr ball.radius j) i
    set q := clampF t fl hf bmin ball.center i
    have h5 := h.rounds.err (a - q)
    have h6 : |a - q| ≤ M := by rw [abs_le]; constructor <;> linarith
    have h7 : u * |a - q| ≤ u * M := mul_le_mul_of_nonneg_left h6 hu
    have h8 : |a - q| ≤ |fl (a - q)| + |fl (a - q) - (a - q)| := by
      have := abs_sub_abs_le_abs_sub (a - q) (fl (a - q))
      rw [abs_sub_comm (a - q) (fl (a - q))] at this
      linarith
    have h9 := abs_sub_le a' a q
    rw [abs_sub_comm a' a] at h9
    linarith
  have h0 : (0:Nat) < t.nch := nch_pos t
  have k1 := corner 0 h0
  have k2 := corner (2 ^ t.dims - 1) (by unfold nch at *; omega)
  rw [abs_le] at *
  have h3 := clampF_mono (fl := fl) (hf := hf) (bmin := bmin) (t := t) (x := fun j => ball.center j + cornerOffset t 0 ball.radius j)
    (y := y) (i := i) (by simp only [cornerOffset_lo]; linarith)
  have h4 := clampF_mono (fl := fl) (hf := hf) (bmin := bmin) (t := t) (x := y)
    (y := fun j => ball.center j + cornerOffset t (2 ^ t.dims - 1) ball.radius j) (i := i)
    (by simp only [cornerOffset_hi t _ hi]; linarith)
  constructor <;> linarith

end RoundedArea

/-- The point whose Morton numbers the device computes exactly. -/
def shadow (t : BoxTree) (fl : ℚ → ℚ) (bmin x : Nat → ℚ) (i : Nat) : ℚ :=
  bmin i + fl (fl (x i - bmin i) / t.rootExtent) * t.rootExtent

namespace RoundedArea
variable (h : RoundedArea t fl hf c0 bmin u M)
include h

theorem queryMortonF_eq (x : Nat → ℚ) (l : Nat) :
    queryMortonF t fl bmin x l = queryMorton t bmin (shadow t fl bmin x) l := by
  unfold queryMortonF queryMorton
  apply foldl_congr_mem
  intro i _ a
  have he := h.wf.ext_pos
  have : (shadow t fl bmin x i - bmin i) / t.rootExtent = fl (fl (x i - bmin i) / t.rootExtent) := by
    unfold shadow; field_simp; ring
  simp only [this, h.rounds.scale]

theorem shadow_near {x : Nat → ℚ} {i : Nat} (hi : i < t.dims) (h1 : bmin i ≤ x i)
    (h2 : x i ≤ bmin i + (1 - 1 / 20000) * t.rootExtent) :
    bmin i ≤ shadow t fl bmin x i ∧ shadow t fl bmin x i < bmin i + t.rootExtent ∧
      |shadow t fl bmin x i - x i| ≤ 3 * (u * M) := by
  have he := h.wf.ext_pos
  have hu := h.rounds.u_nonneg
  have hu1 := h.u_le
  have hE := h.ext_le
  unfold shadow
  set d := x i - bmin i with hd
  have hd0 : 0 ≤ d := by linarith
  have e1 := h.rounds.err d
  rw [abs_of_nonneg hd0] at e1
  have e2 : |fl d / t.rootExtent - d / t.rootExtent| ≤ u * (d / t.rootExtent) := by
    rw [← sub_div, abs_div, abs_of_pos he, ← mul_div_assoc]
    exact div_le_div_of_nonneg_right e1 he.le
  have hq0 : 0 ≤ d / t.rootExtent := div_nonneg hd0 he.le
  have e3 := h.rounds.near e2 (abs_of_nonneg hq0).le
  set s := fl (fl d / t.rootExtent)
  set q := d / t.rootExtent with hq
  have hdq : d = q * t.rootExtent := by rw [hq]; field_simp
  have hq1 : q ≤ 1 - 1 / 20000 := by
    rw [hq, div_le_iff₀ he]; linarith
  have e4 : |s - q| ≤ 3 * u * q := by
    refine e3.trans ?_
    have : u * (u * q) ≤ 1 / 8 * (u * q) :=
      mul_le_mul_of_nonneg_right h.rounds.small (mul_nonneg hu hq0)
    have huq : 0 ≤ u * q := mul_nonneg hu hq0
    have e : u * q + u * (q + u * q) = 2 * (u * q) + u * (u * q) := by ring
    rw [e]; linarith
  have e5 : 3 * u * q ≤ 3 * u := by
    have : 3 * u * q ≤ 3 * u * 1 := mul_le_mul_of_nonneg_left (by linarith) (by linarith)
    linarith
  have e6 : 3 * u * q ≤ q := by
    have : 3 * u * q ≤ 1 * q := mul_le_mul_of_nonneg_right (by linarith) hq0
    linarith
  have e7 := abs_le.1 e4
  have hs0 : 0 ≤ s := by linarith [e7.1]
  have hs1 : s < 1 := by linarith [e7.2]
  refine ⟨by have := mul_nonneg hs0 he.le; linarith, ?_, ?_⟩
  · have := mul_lt_mul_of_pos_right hs1 he; linarith
  · have e : bmin i + s * t.rootExtent - x i = (s - q) * t.rootExtent := by
      have : x i = bmin i + q * t.rootExtent := by rw [← hdq]; linarith
      rw [this]; ring
    rw [e, abs_mul, abs_of_pos he]
    have h8 : |s - q| * t.rootExtent ≤ 3 * u * t.rootExtent :=
      mul_le_mul_of_nonneg_right (e4.trans e5) he.le
    have h9 : u * t.rootExtent ≤ u * M := mul_le_mul_of_nonneg_left hE hu
    linarith

theorem shadow_inCell (x : Nat → ℚ) :
    t.InCell 0 (shadow t fl bmin (clampF t fl hf bmin x)) := by
  intro i hi
  obtain ⟨c1, c2⟩ := h.clampF_bounds hi x
  obtain ⟨s1, s2, -⟩ := h.shadow_near hi c1 c2
  have : t.center 0 i - t.rad (t.level 0) = bmin i := by rw [h.bmin i hi]; rfl
  rw [this]
  refine ⟨s1, ?_⟩
  have e : t.center 0 i + t.rad (t.level 0) = bmin i + t.rootExtent := by
    rw [← this, h.wf.level_root, rad_zero]; ring
  rw [e]; exact s2

theorem guidingBoxF_spec (ball : Ball) :
    guidingBoxF t fl hf bmin ball < t.nboxes ∧
    t.InCell (guidingBoxF t fl hf bmin ball)
      (shadow t fl bmin (clampF t fl hf bmin ball.center)) ∧
    (guidingBoxF t fl hf bmin ball = 0 ∨
      queryRadiusF t fl hf bmin ball ≤ t.rad (t.level (guidingBoxF t fl hf bmin ball))) := by
  unfold guidingBoxF
  simp only []
  have hm : queryMortonF t fl bmin (clampF t fl hf bmin ball.center) =
      queryMorton t bmin (shadow t fl bmin (clampF t fl hf bmin ball.center)) := by
    funext l; exact h.queryMortonF_eq _ l
  rw [h.radF_eq, hm]
  split
  · rename_i hq
    have h0 := h.wf.nboxes_pos
    have hr := h.wf.rad_pos 0
    obtain ⟨g, hg, h1, h2, h3⟩ := guidingLoop_spec h.wf h.bmin (queryRadiusF t fl hf bmin ball)
      (t.nlevels + 1) 0 h0 (by omega) (h.shadow_inCell ball.center)
      (by rw [h.wf.level_root]; linarith)
    rw [h.wf.level_root] at hg
    unfold guidingLoop at hg
    rw [hg]
    exact ⟨h1, h2, Or.inr h3⟩
  · exact ⟨h.wf.nboxes_pos, h.shadow_inCell _, Or.inl rfl⟩

/-- A leaf that meets the ball lies below (or is) a peer of the rounded guiding box. -/
theorem exists_peer (hocc : t.LeavesNear (20 * (u * M))) {ball : Ball} {b : Nat}
    (hb : b < t.nboxes) (hl : t.IsLeaf b) (hm : t.MeetsBall b ball.center ball.radius) :
    ∃ q, t.IsPeer (guidingBoxF t fl hf bmin ball) q ∧ t.IsAncOrSelf q b := by
  have hw := h.wf
  obtain ⟨hg, hin, hrad⟩ := h.guidingBoxF_spec ball
  set g := guidingBoxF t fl hf bmin ball
  rcases hrad with h0 | hrad
  · refine ⟨0, ?_, by rw [IsAncOrSelf, hw.level_root]; exact ⟨Nat.zero_le _, hw.ancAt_zero hb⟩⟩
    rw [h0, hw.isPeer_iff hw.nboxes_pos]
    exact ⟨hw.nboxes_pos, hw.nws_self le_rfl, le_rfl, Or.inl rfl⟩
  set l := min (t.level b) (t.level g) with hldef
  have hlb : l ≤ t.level b := min_le_left _ _
  have hlg : l ≤ t.level g := min_le_right _ _
  have hla := hw.level_ancAt hb hlb
  refine ⟨t.ancAt b l, ?_, by rw [IsAncOrSelf, hla]; exact ⟨hlb, rfl⟩⟩
  rw [hw.isPeer_iff hg, hla]
  refine ⟨hw.ancAt_lt hb l, ?_, hlg, ?_⟩
  · obtain ⟨y, hy⟩ := hm
    obtain ⟨x, hx⟩ := hocc b hb hl
    unfold nws
    rw [linf_le_iff]
    have hrg := hw.rad_pos (t.level g)
    have hra := hw.rad_pos l
    rw [hla, min_eq_left (hw.rad_anti hlg)]
    refine ⟨by push_cast; linarith, fun i hi => ?_⟩
    obtain ⟨⟨hy1, hy2⟩, hy3⟩ := hy i hi
    obtain ⟨⟨hx1, hx2⟩, hx3⟩ := hx i hi
    have hcl := h.clampF_ball ball hi hy3
    obtain ⟨hc1, hc2⟩ := hin i hi
    obtain ⟨hanc1, hanc2⟩ := hw.lo_hi_anc (l := l) hb hi
    obtain ⟨hz1, hz2⟩ := hw.lo_hi_anc (l := 0) hb hi
    rw [hw.ancAt_zero hb] at hz1 hz2
    obtain ⟨cb1, cb2⟩ := h.clampF_bounds hi ball.center
    obtain ⟨-, -, hsh⟩ := h.shadow_near hi cb1 cb2
    have hbm := abs_le.1 (h.bboxMaxF_err hi)
    have huM := h.uM
    have hin1 : t.lo b i - 49 * (u * M) ≤ clampF t fl hf bmin y i ∧
        clampF t fl hf bmin y i ≤ t.hi b i := by
      have hbx : t.lo b i - 40 * (u * M) ≤ bboxMax t bmin i := by
        unfold bboxMax stretchFactor
        rw [h.bmin i hi]
        linarith
      unfold clampF
      rw [h.bmin i hi]
      have hmx : max (t.lo 0 i) (y i) = y i := max_eq_right (by linarith)
      rw [hmx]
      constructor
      · exact le_min (by linarith [hbm.1]) (by linarith)
      · exact (min_le_right _ _).trans hy2
    unfold BoxTree.lo at hanc1 hin1
    unfold BoxTree.hi at hanc2 hin1
    rw [hla] at hanc1 hanc2
    -- boxes on the grid either touch or are far apart
    have hap := hw.touch_or_apart (n := 1) le_rfl hg (hw.ancAt_lt hb l) i hi
    rw [hla, min_eq_left (hw.rad_anti hlg)] at hap
    have hfine := h.fine.fine
    have hrl : t.rad (t.nlevels - 1) ≤ t.rad (t.level g) :=
      hw.rad_anti (by have := hw.level_lt g hg; omega)
    have e : 5 * (4 * (t.nlevels : ℚ) + (1 : Nat) + 16) * u * M =
      20 * (t.nlevels * (u * M)) + 85 * (u * M) := by push_cast; ring
    rw [e] at hfine
    have hL : 0 ≤ (t.nlevels : ℚ) * (u * M) := mul_nonneg (Nat.cast_nonneg _) huM
    rcases hap with hap | hap
    · refine hap.trans ?_
      linarith
    · exfalso
      have hcon : |t.center g i - t.center (t.ancAt b l) i| ≤
          2 * t.rad (t.level g) + t.rad l + 55 * (u * M) := by
        rw [abs_le] at hcl hsh ⊢
        constructor <;> linarith [hin1.1, hin1.2, hcl.1, hcl.2, hsh.1, hsh.2]
      push_cast at hap
      linarith
  · rcases Nat.lt_or_ge (t.level b) (t.level g) with h | h
    · right
      intro m hm hne
      have : l = t.level b := by omega
      rw [this, ancAt_self] at hne
      exact absurd (hl m hm) hne
    · left; omega

/-! ### overlap of ball and box -/

omit h in
theorem meets_dist {b : Nat} {c : Nat → ℚ} {r : ℚ} (hm : t.MeetsBall b c r) {i : Nat}
    (hi : i < t.dims) : |c i - t.center b i| ≤ t.rad (t.level b) + r := by
  obtain ⟨y, hy⟩ := hm
  obtain ⟨⟨h1, h2⟩, h3⟩ := hy i hi
  unfold BoxTree.lo at h1
  unfold BoxTree.hi at h2
  rw [abs_le] at *
  constructor <;> linarith [h3.1, h3.2]

theorem stored_err {b : Nat} (hb : b < t.nboxes) {i : Nat} (hi : i < t.dims) (c : Nat → ℚ) :
    |(c i - t.storedCenter fl c0 b i) - (c i - t.center b i)| ≤ (3 * t.nlevels + 2) * (u * M) := by
  have h1 := storedCenter_err h.rounds h.wf h.dims h.fine hb hi
  have h2 := (h.fine.err_le h.rounds h.wf h.dims (h.wf.level_lt b hb)).1
  rw [sub_sub_sub_cancel_left, abs_sub_comm]
  refine h1.trans (h2.trans (le_of_eq ?_))
  ring

theorem rad_le_M (l : Nat) : t.rad l ≤ M / 2 := by
  have h1 := rad_le_zero h.wf l
  have h2 := h.ext_le
  linarith

/-- A box that the rounded test finds meets a slightly larger ball. -/
theorem meets_of_overlapsF {ball : Ball} (hr : 0 ≤ ball.radius) {b : Nat} (hb : b < t.nboxes)
    (ho : ballOverlapsF t fl c0 ball b = true) :
    t.MeetsBall b ball.center (ball.radius + ballTol t u M ball.radius) := by
  have hu := h.rounds.u_nonneg
  have hsm := h.rounds.small
  have huM := h.uM
  have hR := h.wf.rad_pos (t.level b)
  have hRM := h.rad_le_M (t.level b)
  have htol : ballTol t u M ball.radius =
      3 * (t.nlevels * (u * M)) + 5 * (u * M) + 3 * (u * ball.radius) := by unfold ballTol; ring
  have hL : 0 ≤ (t.nlevels : ℚ) * (u * M) := mul_nonneg (Nat.cast_nonneg _) huM
  have hur : 0 ≤ u * ball.radius := mul_nonneg hu hr
  refine (ballOverlaps_iff h.wf (ball := ⟨ball.center, ball.radius + ballTol t u M ball.radius⟩)
    (by simp only []; linarith) b).1 ?_
  unfold ballOverlapsF at ho
  simp only [decide_eq_true_eq] at ho
  rw [linfF_le_iff, h.radF_eq] at ho
  unfold ballOverlaps
  simp only [decide_eq_true_eq]
  rw [linf_le_iff]
  refine ⟨by linarith, fun i hi => ?_⟩
  have h1 := ho.2 i hi
  have h2 := h.rounds.pos_le (x := t.rad (t.level b) + ball.radius) (by linarith) le_rfl
  have h3 := h.stored_err hb hi ball.center
  set v := ball.center i - t.storedCenter fl c0 b i
  have h4 := h.rounds.err v
  have h5 : |v| ≤ |fl v| + |fl v - v| := by
    have := abs_sub_abs_le_abs_sub v (fl v)
    rw [abs_sub_comm v (fl v)] at this
    linarith
  have h6 : |v| ≤ (1 + 3 * u) * (t.rad (t.level b) + ball.radius) := by
    have h7 : (1 - u) * |v| ≤ (1 + u) * (t.rad (t.level b) + ball.radius) := by linarith
    have h8 : (1 + u) ≤ (1 - u) * (1 + 3 * u) := by nlinarith
    have h9 : (1 - u) * |v| ≤ (1 - u) * ((1 + 3 * u) * (t.rad (t.level b) + ball.radius)) := by
      refine h7.trans ?_
      rw [← mul_assoc]
      exact mul_le_mul_of_nonneg_right h8 (by linarith)
    exact le_of_mul_le_mul_left h9 (by linarith)
  have h10 : u * t.rad (t.level b) ≤ u * (M / 2) := mul_le_mul_of_nonneg_left hRM hu
  have h11 : |ball.center i - t.center b i| ≤ |v| + (3 * t.nlevels + 2) * (u * M) := by
    have := abs_sub_abs_le_abs_sub (ball.center i - t.center b i) v
    rw [abs_sub_comm _ v] at this
    linarith
  rw [htol]
  have h12 : (1 + 3 * u) * (t.rad (t.level b) + ball.radius) =
    t.rad (t.level b) + ball.radius + 3 * (u * t.rad (t.level b)) + 3 * (u * ball.radius) := by ring
  have h13 : (3 * (t.nlevels : ℚ) + 2) * (u * M) = 3 * (t.nlevels * (u * M)) + 2 * (u * M) := by ring
  linarith

/-- A box that meets a slightly smaller ball is found by the rounded test. -/
theorem overlapsF_of_meets {ball : Ball} (hr : 0 ≤ ball.radius) {b : Nat} (hb : b < t.nboxes)
    (hm : t.MeetsBall b ball.center (ball.radius - ballTol t u M ball.radius)) :
    ballOverlapsF t fl c0 ball b = true := by
  have hu := h.rounds.u_nonneg
  have hsm := h.rounds.small
  have huM := h.uM
  have hR := h.wf.rad_pos (t.level b)
  have hRM := h.rad_le_M (t.level b)
  have htol : ballTol t u M ball.radius =
      3 * (t.nlevels * (u * M)) + 5 * (u * M) + 3 * (u * ball.radius) := by unfold ballTol; ring
  have hL : 0 ≤ (t.nlevels : ℚ) * (u * M) := mul_nonneg (Nat.cast_nonneg _) huM
  have hur : 0 ≤ u * ball.radius := mul_nonneg hu hr
  unfold ballOverlapsF
  simp only [decide_eq_true_eq]
  rw [linfF_le_iff, h.radF_eq]
  have h2 := h.rounds.pos_ge (x := t.rad (t.level b) + ball.radius)
    (y := t.rad (t.level b) + ball.radius) (by linarith) le_rfl
  have h20 : 0 ≤ (1 - u) * (t.rad (t.level b) + ball.radius) :=
    mul_nonneg (by linarith) (by linarith)
  refine ⟨by linarith, fun i hi => ?_⟩
  have h3 := h.stored_err hb hi ball.center
  have h0 := meets_dist hm hi
  set v := ball.center i - t.storedCenter fl c0 b i
  have h4 := h.rounds.err v
  have h5 : |fl v| ≤ |v| + |fl v - v| := by
    have := abs_sub_abs_le_abs_sub (fl v) v
    linarith
  have h11 : |v| ≤ |ball.center i - t.center b i| + (3 * t.nlevels + 2) * (u * M) := by
    have := abs_sub_abs_le_abs_sub v (ball.center i - t.center b i)
    linarith
  have h13 : (3 * (t.nlevels : ℚ) + 2) * (u * M) = 3 * (t.nlevels * (u * M)) + 2 * (u * M) := by ring
  have h10 : u * t.rad (t.level b) ≤ u * (M / 2) := mul_le_mul_of_nonneg_left hRM hu
  have h14 : |v| ≤ t.rad (t.level b) + ball.radius - 3 * (u * M) - 3 * (u * ball.radius) := by
    rw [htol] at h0; linarith
  have h15 : u * |v| ≤ u * (t.rad (t.level b) + ball.radius) :=
    mul_le_mul_of_nonneg_left (by linarith) hu
  have h16 : u * (t.rad (t.level b) + ball.radius) = u * t.rad (t.level b) + u * ball.radius := by
    ring
  have h17 : (1 - u) * (t.rad (t.level b) + ball.radius) =
    t.rad (t.level b) + ball.radius - u * (t.rad (t.level b) + ball.radius) := by ring
  linarith

/-- The rounded distance to the stored center of a box near the ball. -/
theorem distF_err {ball : Ball} (hr : 0 ≤ ball.radius) {b : Nat} (hb : b < t.nboxes)
    (hm : t.MeetsBall b ball.center (ball.radius + ballTol t u M ball.radius)) {i : Nat}
    (hi : i < t.dims) :
    |(|fl (ball.center i - t.storedCenter fl c0 b i)| - |ball.center i - t.center b i|)| ≤
      ballTol t u M ball.radius := by
  have hu := h.rounds.u_nonneg
  have hsm := h.u_le
  have huM := h.uM
  have hRM := h.rad_le_M (t.level b)
  have htol : ballTol t u M ball.radius =
      3 * (t.nlevels * (u * M)) + 5 * (u * M) + 3 * (u * ball.radius) := by unfold ballTol; ring
  have hL : 0 ≤ (t.nlevels : ℚ) * (u * M) := mul_nonneg (Nat.cast_nonneg _) huM
  have hur : 0 ≤ u * ball.radius := mul_nonneg hu hr
  have h3 := h.stored_err hb hi ball.center
  have h0 := meets_dist hm hi
  refine (abs_abs_sub_abs_le _ _).trans ?_
  refine (h.rounds.near h3 h0).trans ?_
  have h13 : (3 * (t.nlevels : ℚ) + 2) * (u * M) = 3 * (t.nlevels * (u * M)) + 2 * (u * M) := by ring
  have hM := h.M_pos
  have hfine := (h.fine.err_le h.rounds h.wf h.dims (h.wf.level_lt b hb)).2
  have e : 5 * (4 * (t.nlevels : ℚ) + (1 : Nat) + 16) * u * M =
      20 * (t.nlevels * (u * M)) + 85 * (u * M) := by push_cast; ring
  rw [e] at hfine
  have h18 : u * ball.radius ≤ 1 / 200000 * ball.radius :=
    mul_le_mul_of_nonneg_right (by linarith) hr
  have h19 : t.rad (t.level b) + (ball.radius + ballTol t u M ball.radius) +
      (3 * t.nlevels + 2) * (u * M) ≤ M + 2 * ball.radius := by
    rw [htol, h13]; linarith
  have h20 := mul_le_mul_of_nonneg_left h19 hu
  have h21 : u * (M + 2 * ball.radius) = u * M + 2 * (u * ball.radius) := by ring
  rw [htol] at h20 ⊢
  linarith

end RoundedArea

theorem BoxTree.meets_mono {b : Nat} {c : Nat → ℚ} {r r' : ℚ} (hr : r ≤ r')
    (hm : t.MeetsBall b c r) : t.MeetsBall b c r' := by
  obtain ⟨y, hy⟩ := hm
  exact ⟨y, fun i hi => ⟨(hy i hi).1, (hy i hi).2.trans hr⟩⟩

theorem linfF_nonneg (t : BoxTree) (fl : ℚ → ℚ) (x y : Nat → ℚ) : 0 ≤ t.linfF fl x y :=
  ((linfF_le_iff x y _).1 le_rfl).1

theorem linfF_attained (t : BoxTree) (fl : ℚ → ℚ) (x y : Nat → ℚ) :
    t.linfF fl x y = 0 ∨ ∃ i, i < t.dims ∧ t.linfF fl x y = |fl (x i - y i)| := by
  rcases (linfF_nonneg t fl x y).lt_or_eq with h | h
  · right
    obtain ⟨i, hi, h1⟩ := (le_linfF_iff x y h).1 le_rfl
    exact ⟨i, hi, le_antisymm h1 (((linfF_le_iff x y _).1 le_rfl).2 i hi)⟩
  · exact Or.inl h.symm

end Boxtree
