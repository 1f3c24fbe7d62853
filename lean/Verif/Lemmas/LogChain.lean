import Verif.Lemmas.LogError
import Verif.Lemmas.CauchyChain

/-!
# Errors of chains of translations with the library for charges
-/

namespace Boxtree.FmmLib
open Boxtree Series BoxTree

variable {A D : Type}

theorem log_linear (t : BoxTree) (w : Wrangler A D) (hd : t.dims = 2)
    (hk : w.kernel = .laplace) : Linear t w (logLib A D) := by
  have hs : ∀ l, w.size t l = w.order l + 1 := by
    intro l
    unfold Wrangler.size expnSize
    rw [if_pos hd, hk]
  refine ⟨?_, ?_, ?_, ?_, ?_, ?_, ?_, ?_, ?_, ?_⟩
  · intro l r s c
    rw [hs]
    simp only [logLib, List.map_cons, List.map_nil, List.sum_cons, List.sum_nil, add_zero]
    exact (vsum_tab _ _ _).symm
  · intro l r s c; rw [hs]; exact length_tab _ _
  · intro l r s c
    rw [hs]
    simp only [logLib, List.map_cons, List.map_nil, List.sum_cons, List.sum_nil, add_zero]
    exact (vsum_tab _ _ _).symm
  · intro l r s c; rw [hs]; exact length_tab _ _
  · intro l l' r c r' c' rad
    rw [hs, hs]
    exact linMap_add _ _ _
  · intro l rot r c r' c' rad
    rw [hs]
    exact linMap_add _ _ _
  · intro l l' r c r' c' rad
    rw [hs, hs]
    exact linMap_add _ _ _
  · intro l r c x
    exact linEval_add _ _
  · intro l r c x
    exact linEval_add _ _
  · intro s x
    simp [logLib]

variable {inp : TravInput} {q : Particles} {w : Wrangler A D} {src : Nat → Src ℝ D}
  {x : Nat → Nat → ℚ} {angle : Nat → Nat → A} {ε θ : ℚ} {s : ℝ} {p : Nat}

theorem log_mpChain (S : Setting inp q w src x ε θ s p) {j b : Nat} {v : List ℂ}
    (h : MPChain inp q (logLib A D) w src j b v) :
    b < inp.tree.nboxes ∧ ‖toC (src j).pos - toC (inp.tree.center b)‖ ≤ diskOf inp.tree ε b ∧
      IsMP (-(src j).weight : ℝ) (toC (src j).pos) (toC (inp.tree.center b)) p (diskOf inp.tree ε b)
        (levelToRscale inp.tree w (inp.tree.level b) : ℚ) (dcoef v) := by
  induction h with
  | form b hb hs hj =>
    refine ⟨hb, S.source_disk hb hs hj, ?_⟩
    have := log_form (q := (src j).weight) (levelToRscale_ne S.wf S.dims S.factor (inp.tree.level b))
      (S.order (inp.tree.level b)) (S.source_disk hb hs hj)
    unfold logLib
    simpa only [List.map_cons, List.map_nil, List.sum_cons, List.sum_nil, add_zero] using this
  | up c v hc h0 _ ih =>
    obtain ⟨_, i2, i3⟩ := ih
    obtain ⟨d1, d2⟩ := S.disk_parent hc h0
    have hl : inp.tree.level (inp.tree.parent c) = inp.tree.level c - 1 := by
      have := S.wf.level_parent c hc h0; omega
    refine ⟨S.wf.parent_lt c hc, ?_, ?_⟩
    · rw [← d2]
      calc _ = ‖(toC (src j).pos - toC (inp.tree.center c)) +
            (toC (inp.tree.center c) - toC (inp.tree.center (inp.tree.parent c)))‖ := by
              rw [sub_add_sub_cancel]
        _ ≤ _ := (norm_add_le _ _).trans (add_le_add i2 d1)
    · rw [← d2, hl]
      exact log_up i3 (S.disk0 c) (levelToRscale_ne S.wf S.dims S.factor _) (S.order _) d1

theorem log_locChain (S : Setting inp q w src x ε θ s p) {j b : Nat} {u : List ℂ}
    (h : LOCChain inp q (logLib A D) w src angle j b u) :
    b < inp.tree.nboxes ∧
      IsRe (logField (src j).weight (toC (src j).pos)) (toC (inp.tree.center b)) p
        (|(src j).weight| * (tail s (p + 1) / (p + 1))) (diskOf inp.tree ε b)
        (levelToRscale inp.tree w (inp.tree.level b) : ℚ) u := by
  induction h with
  | m2l b sb rot v hb hs hl hsep _ _ hv =>
    obtain ⟨_, i2, i3⟩ := log_mpChain S hv
    refine ⟨hb, ?_⟩
    obtain ⟨a, ha, hfar⟩ := S.wf.far_same S.nAway hb hs hl hsep
    have hr := S.wf.rad_pos (inp.tree.level b)
    have h4 : 4 * inp.tree.rad (inp.tree.level b) ≤ |inp.tree.center b a - inp.tree.center sb a| := by
      have h5 : (1 : ℚ) ≤ inp.nAway := by exact_mod_cast S.nAway
      have := mul_le_mul_of_nonneg_right h5 hr.le
      linarith
    have h5 := le_norm_toC (S.dims ▸ ha) h4
    have h6 : (0 : ℝ) < inp.tree.rad (inp.tree.level b) := by exact_mod_cast hr
    push_cast at h5
    rw [hl] at i3
    refine log_convert i3 i2 (S.disk0 b) (fun e => ?_) ?_ S.s1 (S.order _)
      (levelToRscale_ne S.wf S.dims S.factor _)
    · rw [e, norm_zero] at h5
      linarith
    · have h7 := S.disk_le hb
      have h8 : diskOf inp.tree ε sb = diskOf inp.tree ε b := by unfold diskOf; rw [hl]
      rw [h8]
      have := mul_le_mul_of_nonneg_left h5 (S.s0 hb)
      linarith
  | form b sb hb hs hsb hl _ _ hsep _ _ hj =>
    refine ⟨hb, ?_⟩
    obtain ⟨a, ha, hfar⟩ := S.wf.far_finer hs hb hl (fun h => hsep (touch_comm.1 h))
    obtain ⟨f1, f2⟩ := S.far hb (S.dims ▸ ha) (hfar _ ε (S.held.source sb hs hsb j hj a ha))
    have g1 : toC (inp.tree.center b) - toC (src j).pos ≠ 0 := fun e => f1 (by rw [← neg_sub, e, neg_zero])
    rw [norm_sub_rev] at f2
    have := log_formta (q := (src j).weight) (S.disk0 b) g1 f2 S.s1 (S.order (inp.tree.level b))
      (levelToRscale_ne S.wf S.dims S.factor (inp.tree.level b))
    unfold logLib
    simpa only [List.map_cons, List.map_nil, List.sum_cons, List.sum_nil, add_zero] using this
  | down b v hb h0 _ ih =>
    obtain ⟨_, i3⟩ := ih
    obtain ⟨d1, d2⟩ := S.disk_parent hb h0
    have hl : inp.tree.level (inp.tree.parent b) = inp.tree.level b - 1 := by
      have := S.wf.level_parent b hb h0; omega
    rw [hl] at i3
    exact ⟨hb, log_down i3 (S.disk0 b) (levelToRscale_ne S.wf S.dims S.factor _) (S.order _)
      (by linarith)⟩

/-- Every chain of translations from one source to one target is accurate. -/
theorem log_chain_error (S : Setting inp q w src x ε θ s p) (hs : 0 ≤ s) {i j : Nat} {z : ℂ}
    (hq : i < q.ntargets) (h : Chain inp q (logLib A D) w src x angle i j z) :
    |z.re - (src j).weight * Real.log ‖toC (x i) - toC (src j).pos‖| ≤
      2 * (|(src j).weight| * (tail s (p + 1) / (p + 1))) := by
  cases h with
  | direct =>
    have e : ((logLib A D).direct [src j] (x i)).re =
        (src j).weight * Real.log ‖toC (x i) - toC (src j).pos‖ := by
      unfold logLib lnC
      simp only [List.map_cons, List.map_nil, List.sum_cons, List.sum_nil, add_zero]
      rw [← Complex.ofReal_mul, Complex.ofReal_re]
    rw [e, sub_self, abs_zero]
    have := tail_nonneg hs S.s1 (p + 1)
    positivity
  | mp b sb v hb _ ht hsb hl _ _ hsep _ _ hv =>
    obtain ⟨_, i2, i3⟩ := log_mpChain S hv
    obtain ⟨a, ha, hfar⟩ := S.wf.far_finer hb hsb hl.le hsep
    obtain ⟨f1, f2⟩ := S.far hsb (S.dims ▸ ha) (hfar _ ε (S.held.target b hb i hq ht a ha))
    exact log_mpeval i3 i2 f1 f2 S.s1
  | loc b v hb _ ht hv =>
    obtain ⟨_, i3⟩ := log_locChain S hv
    exact log_taeval i3 (S.target_disk hb hq ht)

end Boxtree.FmmLib
