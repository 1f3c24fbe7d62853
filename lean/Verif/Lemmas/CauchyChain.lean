import Verif.Lemmas.CauchyError
import Verif.Lemmas.Separation
import Mathlib.Analysis.Complex.Norm

/-!
# Errors of chains of translations with the Cauchy library
-/

namespace Boxtree.FmmLib
open Boxtree Series BoxTree

theorem norm_toC_le {x y : Nat → ℚ} {e : ℚ} (h : ∀ a, a < 2 → |x a - y a| ≤ e) :
    ‖toC x - toC y‖ ≤ √2 * e := by
  have h0 : |(x 0 : ℝ) - y 0| ≤ e := by exact_mod_cast h 0 (by omega)
  have h1 : |(x 1 : ℝ) - y 1| ≤ e := by exact_mod_cast h 1 (by omega)
  exact (Complex.norm_le_sqrt_two_mul_max _).trans
    (mul_le_mul_of_nonneg_left (max_le h0 h1) (Real.sqrt_nonneg _))

theorem le_norm_toC {x y : Nat → ℚ} {d : ℚ} {a : Nat} (ha : a < 2) (h : d ≤ |x a - y a|) :
    (d : ℝ) ≤ ‖toC x - toC y‖ := by
  have h' : (d : ℝ) ≤ |(x a : ℝ) - y a| := by exact_mod_cast h
  refine h'.trans ?_
  have : a = 0 ∨ a = 1 := by omega
  rcases this with rfl | rfl
  · exact Complex.abs_re_le_norm (toC x - toC y)
  · exact Complex.abs_im_le_norm (toC x - toC y)

variable {A W D : Type} {inp : TravInput} {q : Particles} {w : Wrangler A D} {src : Nat → Src W D}
  {x : Nat → Nat → ℚ} {angle : Nat → Nat → A} {ε θ : ℚ} {s : ℝ} {p : Nat}

theorem levelToRscale_ne {t : BoxTree} (hw : t.WF) (hd : t.dims = 2) (hf : w.rscaleFactor ≠ 0) (l : Nat) :
    ((levelToRscale t w l : ℚ) : ℂ) ≠ 0 := by
  have h : levelToRscale t w l ≠ 0 := by
    unfold levelToRscale
    have h1 : t.rootExtent * (1 / 2 ^ l) * w.rscaleFactor ≠ 0 :=
      mul_ne_zero (mul_ne_zero hw.ext_pos.ne' (by positivity)) hf
    rw [if_neg (by omega)]
    split
    · exact one_ne_zero
    · exact h1
  exact_mod_cast h

/-- What the bound on the error of a chain needs of tree, particles and wrangler. -/
structure Setting (inp : TravInput) (q : Particles) (w : Wrangler A D) (src : Nat → Src W D)
    (x : Nat → Nat → ℚ) (ε θ : ℚ) (s : ℝ) (p : Nat) : Prop where
  wf : inp.tree.WF
  dims : inp.tree.dims = 2
  nAway : 1 ≤ inp.nAway
  factor : w.rscaleFactor ≠ 0
  order : ∀ l, p ≤ w.order l
  held : HeldNear inp.tree q src x ε
  eps0 : 0 ≤ ε
  eps : ∀ b, b < inp.tree.nboxes → ε ≤ θ * inp.tree.rad (inp.tree.level b)
  theta : θ ≤ 1
  sep : √2 * (1 + θ) ≤ 2 * s
  s1 : s < 1

/-- Radius of the disk around a box that holds its particles. -/
noncomputable def diskOf (t : BoxTree) (ε : ℚ) (b : Nat) : ℝ := √2 * ((t.rad (t.level b) + ε : ℚ) : ℝ)

theorem Setting.theta0 (S : Setting inp q w src x ε θ s p) {b : Nat} (hb : b < inp.tree.nboxes) : 0 ≤ θ := by
  have h1 := S.eps b hb
  have h2 := S.wf.rad_pos (inp.tree.level b)
  by_contra h
  push Not at h
  have := mul_neg_of_neg_of_pos h h2
  linarith [S.eps0]

theorem Setting.s0 (S : Setting inp q w src x ε θ s p) {b : Nat} (hb : b < inp.tree.nboxes) : 0 ≤ s := by
  have h1 : (0 : ℝ) ≤ θ := by exact_mod_cast S.theta0 hb
  have h2 := S.sep
  have : 0 ≤ √2 * (1 + (θ : ℝ)) := mul_nonneg (Real.sqrt_nonneg _) (by linarith)
  linarith

theorem Setting.disk0 (S : Setting inp q w src x ε θ s p) (b : Nat) : 0 ≤ diskOf inp.tree ε b := by
  have h2 := S.wf.rad_pos (inp.tree.level b)
  refine mul_nonneg (Real.sqrt_nonneg _) ?_
  exact_mod_cast add_nonneg h2.le S.eps0

/-- Disks are small against two radii. -/
theorem Setting.disk_le (S : Setting inp q w src x ε θ s p) {b : Nat} (hb : b < inp.tree.nboxes) :
    diskOf inp.tree ε b ≤ s * (2 * (inp.tree.rad (inp.tree.level b) : ℝ)) := by
  have h1 : (ε : ℝ) ≤ θ * inp.tree.rad (inp.tree.level b) := by exact_mod_cast S.eps b hb
  have h2 : (0 : ℝ) < inp.tree.rad (inp.tree.level b) := by exact_mod_cast S.wf.rad_pos (inp.tree.level b)
  unfold diskOf
  push_cast
  calc √2 * ((inp.tree.rad (inp.tree.level b) : ℝ) + ε)
      ≤ √2 * ((1 + θ) * inp.tree.rad (inp.tree.level b)) :=
        mul_le_mul_of_nonneg_left (by linarith) (Real.sqrt_nonneg _)
    _ = √2 * (1 + θ) * inp.tree.rad (inp.tree.level b) := by ring
    _ ≤ 2 * s * inp.tree.rad (inp.tree.level b) := mul_le_mul_of_nonneg_right S.sep h2.le
    _ = _ := by ring

theorem Setting.disk_parent (S : Setting inp q w src x ε θ s p) {c : Nat} (hc : c < inp.tree.nboxes)
    (h0 : c ≠ 0) :
    ‖toC (inp.tree.center c) - toC (inp.tree.center (inp.tree.parent c))‖ ≤
      √2 * (inp.tree.rad (inp.tree.level c) : ℝ) ∧
    diskOf inp.tree ε c + √2 * (inp.tree.rad (inp.tree.level c) : ℝ) =
      diskOf inp.tree ε (inp.tree.parent c) := by
  refine ⟨norm_toC_le fun a ha => (S.wf.child_offset hc h0 (S.dims ▸ ha)).1.le, ?_⟩
  have := (S.wf.child_offset hc h0 (a := 0) (by rw [S.dims]; omega)).2
  unfold diskOf
  rw [this]
  push_cast
  ring

/-- Particles of a box are in its disk. -/
theorem Setting.source_disk (S : Setting inp q w src x ε θ s p) {b j : Nat} (hb : b < inp.tree.nboxes)
    (hs : inp.tree.isSource b = true) (hj : j ∈ sourcesOf q b) :
    ‖toC (src j).pos - toC (inp.tree.center b)‖ ≤ diskOf inp.tree ε b :=
  norm_toC_le fun a ha => S.held.source b hb hs j hj a (S.dims ▸ ha)

theorem Setting.target_disk (S : Setting inp q w src x ε θ s p) {b i : Nat} (hb : b < inp.tree.nboxes)
    (hq : i < q.ntargets) (ht : TargetIn q b i) :
    ‖toC (x i) - toC (inp.tree.center b)‖ ≤ diskOf inp.tree ε b :=
  norm_toC_le fun a ha => S.held.target b hb i hq ht a (S.dims ▸ ha)

/-- A point that is three radii away from a center, up to `ε`, is far against the disk. -/
theorem Setting.far (S : Setting inp q w src x ε θ s p) {b a : Nat} (hb : b < inp.tree.nboxes) (ha : a < 2)
    {z : Nat → ℚ} (h : 3 * inp.tree.rad (inp.tree.level b) - ε ≤ |z a - inp.tree.center b a|) :
    toC z - toC (inp.tree.center b) ≠ 0 ∧
      diskOf inp.tree ε b ≤ s * ‖toC z - toC (inp.tree.center b)‖ := by
  have hr := S.wf.rad_pos (inp.tree.level b)
  have h1 : 2 * inp.tree.rad (inp.tree.level b) ≤ |z a - inp.tree.center b a| := by
    have h2 := S.eps b hb
    have := mul_le_mul_of_nonneg_right S.theta hr.le
    linarith
  have h2 := le_norm_toC ha h1
  have h3 : (0 : ℝ) < inp.tree.rad (inp.tree.level b) := by exact_mod_cast hr
  push_cast at h2
  refine ⟨fun e => ?_, (S.disk_le hb).trans (mul_le_mul_of_nonneg_left h2 (S.s0 hb))⟩
  rw [e, norm_zero] at h2
  linarith

section
variable {src : Nat → Src ℂ D}

theorem mpChain_isMP (S : Setting inp q w src x ε θ s p) {j b : Nat} {v : List ℂ}
    (h : MPChain inp q (cauchyLib A D) w src j b v) :
    b < inp.tree.nboxes ∧ ‖toC (src j).pos - toC (inp.tree.center b)‖ ≤ diskOf inp.tree ε b ∧
      IsMP (src j).weight (toC (src j).pos) (toC (inp.tree.center b)) p (diskOf inp.tree ε b)
        (levelToRscale inp.tree w (inp.tree.level b) : ℚ) v := by
  induction h with
  | form b hb hs hj =>
    refine ⟨hb, S.source_disk hb hs hj, ?_⟩
    have := isMP_form (q := (src j).weight) (levelToRscale_ne S.wf S.dims S.factor (inp.tree.level b))
      (S.order (inp.tree.level b)) (S.source_disk hb hs hj)
    unfold cauchyLib
    simpa only [List.map_cons, List.map_nil, List.sum_cons, List.sum_nil, add_zero] using this
  | up c v hc h0 _ ih =>
    obtain ⟨_, i2, i3⟩ := ih
    obtain ⟨d1, d2⟩ := S.disk_parent hc h0
    have hl : inp.tree.level (inp.tree.parent c) = inp.tree.level c - 1 := by
      have := S.wf.level_parent c hc h0; omega
    refine ⟨S.wf.parent_lt c hc, ?_, ?_⟩
    · rw [← d2]
      calc _ = ‖(toC (src j).pos - toC (inp.tree.center c)) +
            (toC (inp.tree.center c) - toC (inp.tree.center (inp.tree.parent c)))‖ := by
              rw [sub_add_sub_cancel]
        _ ≤ _ := (norm_add_le _ _).trans (add_le_add i2 d1)
    · rw [← d2, hl]
      exact isMP_shift i3 (S.disk0 c) (levelToRscale_ne S.wf S.dims S.factor _) (S.order _) d1

theorem locChain_isLoc (S : Setting inp q w src x ε θ s p) {j b : Nat} {u : List ℂ}
    (h : LOCChain inp q (cauchyLib A D) w src angle j b u) :
    b < inp.tree.nboxes ∧
      IsLoc (src j).weight (toC (src j).pos) (toC (inp.tree.center b)) p s (diskOf inp.tree ε b)
        (levelToRscale inp.tree w (inp.tree.level b) : ℚ) u := by
  induction h with
  | m2l b sb rot v hb hs hl hsep _ _ hv =>
    obtain ⟨_, i2, i3⟩ := mpChain_isMP S hv
    refine ⟨hb, ?_⟩
    obtain ⟨a, ha, hfar⟩ := S.wf.far_same S.nAway hb hs hl hsep
    have hr := S.wf.rad_pos (inp.tree.level b)
    have h4 : 4 * inp.tree.rad (inp.tree.level b) ≤ |inp.tree.center b a - inp.tree.center sb a| := by
      have h5 : (1 : ℚ) ≤ inp.nAway := by exact_mod_cast S.nAway
      have := mul_le_mul_of_nonneg_right h5 hr.le
      linarith
    have h5 := le_norm_toC (S.dims ▸ ha) h4
    have h6 : (0 : ℝ) < inp.tree.rad (inp.tree.level b) := by exact_mod_cast hr
    push_cast at h5
    rw [hl] at i3
    refine isLoc_convert i3 i2 (S.disk0 b) (fun e => ?_) ?_ S.s1 (S.order _)
      (levelToRscale_ne S.wf S.dims S.factor _)
    · rw [e, norm_zero] at h5
      linarith
    · have h7 := S.disk_le hb
      have h8 : diskOf inp.tree ε sb = diskOf inp.tree ε b := by unfold diskOf; rw [hl]
      rw [h8]
      have := mul_le_mul_of_nonneg_left h5 (S.s0 hb)
      linarith
  | form b sb hb hs hsb hl _ _ hsep _ _ hj =>
    refine ⟨hb, ?_⟩
    obtain ⟨a, ha, hfar⟩ := S.wf.far_finer hs hb hl (fun h => hsep (touch_comm.1 h))
    obtain ⟨f1, f2⟩ := S.far hb (S.dims ▸ ha) (hfar _ ε (S.held.source sb hs hsb j hj a ha))
    have g1 : toC (inp.tree.center b) - toC (src j).pos ≠ 0 := fun e => f1 (by rw [← neg_sub, e, neg_zero])
    rw [norm_sub_rev] at f2
    have := isLoc_form (q := (src j).weight) (S.disk0 b) g1 f2 S.s1 (S.order (inp.tree.level b))
      (levelToRscale_ne S.wf S.dims S.factor (inp.tree.level b))
    unfold cauchyLib
    simpa only [List.map_cons, List.map_nil, List.sum_cons, List.sum_nil, add_zero] using this
  | down b v hb h0 _ ih =>
    obtain ⟨_, i3⟩ := ih
    obtain ⟨d1, d2⟩ := S.disk_parent hb h0
    have hl : inp.tree.level (inp.tree.parent b) = inp.tree.level b - 1 := by
      have := S.wf.level_parent b hb h0; omega
    rw [hl] at i3
    exact ⟨hb, isLoc_shift i3 (S.disk0 b) (levelToRscale_ne S.wf S.dims S.factor _) (S.order _)
      (by linarith)⟩

/-- Every chain of translations from one source to one target is accurate. -/
theorem chain_error (S : Setting inp q w src x ε θ s p) (hs : 0 ≤ s) {i j : Nat} {z : ℂ}
    (hq : i < q.ntargets) (h : Chain inp q (cauchyLib A D) w src x angle i j z) :
    ‖z - (src j).weight / (toC (x i) - toC (src j).pos)‖ ≤
      2 * (1 + s) * tail s (p + 1) * (‖(src j).weight‖ / ‖toC (x i) - toC (src j).pos‖) := by
  cases h with
  | direct =>
    unfold cauchyLib
    simp only [List.map_cons, List.map_nil, List.sum_cons, List.sum_nil, add_zero, sub_self, norm_zero]
    have := tail_nonneg hs S.s1 (p + 1)
    positivity
  | mp b sb v hb _ ht hsb hl _ _ hsep _ _ hv =>
    obtain ⟨_, i2, i3⟩ := mpChain_isMP S hv
    obtain ⟨a, ha, hfar⟩ := S.wf.far_finer hb hsb hl.le hsep
    obtain ⟨f1, f2⟩ := S.far hsb (S.dims ▸ ha) (hfar _ ε (S.held.target b hb i hq ht a ha))
    exact isMP_eval i3 i2 f1 f2 S.s1
  | loc b v hb _ ht hv =>
    obtain ⟨_, i3⟩ := locChain_isLoc S hv
    exact isLoc_eval i3 (S.target_disk hb hq ht)

end

end Boxtree.FmmLib
