import Verif.Lemmas.LogChain
import Verif.Props.ConvergenceDist

/-!
# C84: the FMM for charges in two dimensions converges geometrically with the expansion order

For the kernel `-1 / (2 π) log |y - x|` with real strengths and the textbook expansions: whatever the
tree, the potential differs from the sum over all sources by at most a constant times
`(√2/2)^(p + 1) / (p + 1)` times the sum of the absolute values of the charges.
-/

namespace Boxtree.FmmLib
open Boxtree BoxTree Series

variable {A D : Type}

/-- Errors of chains add up. -/
theorem log_sum_error {n : Nat} {c : Nat → ℂ} {K : Nat → ℝ} {weights : Nat → ℝ} {B : ℝ}
    (h : ∀ j, j < n → |(c j).re - weights j * K j| ≤ 2 * (|weights j| * B)) :
    ‖((-1 / (2 * Real.pi) * (∑ j ∈ Finset.range n, c j).re : ℝ) : ℂ) -
        ((-1 / (2 * Real.pi) * ∑ j ∈ Finset.range n, weights j * K j : ℝ) : ℂ)‖ ≤
      B / Real.pi * ∑ j ∈ Finset.range n, |weights j| := by
  rw [← Complex.ofReal_sub, ← mul_sub, Complex.norm_real, Real.norm_eq_abs, abs_mul, Complex.re_sum,
    ← Finset.sum_sub_distrib]
  have hpi := Real.pi_pos
  have h1 : |(-1 : ℝ) / (2 * Real.pi)| = 1 / (2 * Real.pi) := by
    rw [abs_div, abs_neg, abs_one, abs_of_pos (by positivity)]
  have h2 : |∑ j ∈ Finset.range n, ((c j).re - weights j * K j)| ≤
      ∑ j ∈ Finset.range n, 2 * (|weights j| * B) :=
    (Finset.abs_sum_le_sum_abs _ _).trans
      (Finset.sum_le_sum fun j hj => h j (Finset.mem_range.1 hj))
  rw [h1]
  refine (mul_le_mul_of_nonneg_left h2 (by positivity)).trans (le_of_eq ?_)
  rw [← Finset.mul_sum, ← Finset.sum_mul]
  field_simp

/-- **C84**, for a tree and a traversal.  Particles may lie outside of their boxes by `ε`, which is at
most `θ` times the radius of every box; `s` is the ratio of convergence. -/
theorem C84_traversal (inp : TravInput) (trav : Traversal) (ok : inp.OK) (hlev : inp.tree.LevelsOK)
    (h : buildTraversal inp = .ok trav) (hm : inp.srcMask = none) (hm' : inp.srcParentMask = none)
    (hdim : inp.tree.dims = 2) (q : Particles) (hq : q.OK inp.tree) (w : Wrangler A D)
    (hk : w.kernel = .laplace) (hf : w.rscaleFactor ≠ 0) (p : Nat) (hp : ∀ l, p ≤ w.order l)
    (src : Nat → Src ℝ D) (x : Nat → Nat → ℚ) (angle : Nat → Nat → A)
    (weights : Nat → ℝ) (hH : Holds q w weights src x) (hrot : RotationOK trav w angle)
    (ε θ : ℚ) (hheld : HeldNear inp.tree q src x ε) (h0 : 0 ≤ ε)
    (hε : ∀ b, b < inp.tree.nboxes → ε ≤ θ * inp.tree.rad (inp.tree.level b)) (hθ : θ ≤ 1)
    (s : ℝ) (hs0 : 0 ≤ s) (hs : √2 * (1 + θ) ≤ 2 * s) (hs1 : s < 1) :
    ∃ pot, drive inp.tree q (logLib A D) w trav weights = .ok pot ∧
      ∀ i, i < q.ntargets →
        ‖pot i - ((-1 / (2 * Real.pi) * ∑ j ∈ Finset.range q.nsources,
            weights j * Real.log ‖toC (x i) - toC (src j).pos‖ : ℝ) : ℂ)‖ ≤
          s ^ (p + 1) / ((1 - s) * Real.pi * (p + 1)) *
            ∑ j ∈ Finset.range q.nsources, |weights j| := by
  obtain ⟨pot, h1, h2⟩ := C60_chain_decomposition inp trav ok hlev h hm hm' (Or.inl hdim) q hq
    (logLib A D) w (log_linear _ w hdim hk) src x angle weights hH hrot
  have S : Setting inp q w src x ε θ s p :=
    ⟨ok.wf, hdim, ok.nAway_pos, hf, hp, hheld, h0, hε, hθ, hs, hs1⟩
  refine ⟨pot, h1, fun i hi => ?_⟩
  obtain ⟨c, h3, h4⟩ := h2 i hi
  have e : pot i = ((-1 / (2 * Real.pi) * (∑ j ∈ Finset.range q.nsources, c j).re : ℝ) : ℂ) := h4
  rw [e]
  refine (log_sum_error (B := tail s (p + 1) / (p + 1)) fun j hj => ?_).trans (le_of_eq ?_)
  · have := log_chain_error S hs0 hi (h3 j hj)
    rwa [hH.weight j hj] at this
  · unfold tail
    rw [div_div, div_div]
    congr 2
    ring

namespace Ex

/-- All hypotheses of `C84_traversal` hold together on a tree with list 2 interactions, for every
order and all charges. -/
example (p : Nat) (weights : Nat → ℝ) : ∃ trav pot, buildTraversal quadInput = .ok trav ∧
    drive quad quadParticles (logLib ℚ ℚ) { quadWrangler with order := fun _ => p } trav weights
      = .ok pot ∧
    ∀ i, i < 16 → ‖pot i - ((-1 / (2 * Real.pi) * ∑ j ∈ Finset.range 16,
      weights j * Real.log ‖toC (quad.center (20 - i)) - toC (quad.center (20 - j))‖ : ℝ) : ℂ)‖ ≤
        (4 / 5) ^ (p + 1) / ((1 - 4 / 5) * Real.pi * (p + 1)) * ∑ j ∈ Finset.range 16, |weights j| := by
  obtain ⟨trav, htrav⟩ : ∃ trav, buildTraversal quadInput = .ok trav := ⟨_, rfl⟩
  have hsq : √2 ≤ 142 / 100 := by
    rw [Real.sqrt_le_left (by norm_num)]; norm_num
  have hsrc : ∀ b, b < 21 → ∀ j ∈ sourcesOf quadParticles b, ∀ a, a < 2 →
      |quad.center (20 - j) a - quad.center b a| ≤ quad.rad (quad.level b) + 0 := by decide +kernel
  have htgt : ∀ b, b < 21 → ∀ i, i < 16 → (quadParticles.tgtStart b ≤ quadParticles.sortedTargetIds i ∧
      quadParticles.sortedTargetIds i < quadParticles.tgtStart b + quadParticles.tgtCount b) →
      ∀ a, a < 2 → |quad.center (20 - i) a - quad.center b a| ≤ quad.rad (quad.level b) + 0 := by
    decide +kernel
  have := C84_traversal quadInput trav quadInput_ok quad_levels htrav rfl rfl rfl
    quadParticles quadParticles_ok { quadWrangler with order := fun _ => p } rfl
    (by norm_num [quadWrangler]) p (fun _ => le_rfl)
    (fun j => ⟨quad.center (20 - j), weights j, none⟩) (fun i => quad.center (20 - i))
    (fun _ _ => 0) weights ⟨?_, fun _ _ => rfl, fun _ _ => rfl, ?_⟩ (by intro _ _ h; cases h)
    0 0 ⟨fun b hb _ => hsrc b hb, htgt⟩ le_rfl (fun b _ => by rw [zero_mul]) (by norm_num)
    (4 / 5) (by norm_num) (by push_cast; linarith) (by norm_num)
  · obtain ⟨pot, h1, h2⟩ := this
    exact ⟨trav, pot, htrav, h1, h2⟩
  · intro j hj
    have hj' : j < 16 := hj
    funext i
    change quad.center (j + 5) i = quad.center (20 - (15 - j)) i
    rw [show 20 - (15 - j) = j + 5 by omega]
  · intro i hi
    have hi' : i < 16 := hi
    funext k
    change quad.center (15 - i + 5) k = quad.center (20 - i) k
    rw [show 15 - i + 5 = 20 - i by omega]

end Ex

end Boxtree.FmmLib

namespace Boxtree.Build
open BoxTree Boxtree.Dist Boxtree.FmmLib Series

variable {A D : Type}

/-- The potential of the user's charges at target `i` of the user. -/
noncomputable def chargePotential (c : Call) (ns : Nat) (weights : Nat → ℝ) (i : Nat) : ℝ :=
  -1 / (2 * Real.pi) *
    ∑ j ∈ Finset.range ns, weights j * Real.log ‖toC (userTgt c i) - toC fun a => c.src a j‖

/-- Sum of the absolute values of the charges. -/
noncomputable def totalCharge (ns : Nat) (weights : Nat → ℝ) : ℝ := ∑ j ∈ Finset.range ns, |weights j|

theorem totalCharge_nonneg (ns : Nat) (weights : Nat → ℝ) : 0 ≤ totalCharge ns weights :=
  Finset.sum_nonneg fun _ _ => abs_nonneg _

/-- A documented call in two dimensions whose particles are near their boxes. -/
theorem charge_error (c : Call) (ns nt : Nat) (dtype : String) (hd : c.Documented ns nt dtype)
    (hw : c.SomeWeight)
    (hr : c.args.kind = "adaptive-level-restricted" →
      c.args.sourceRadii = none ∧ c.args.targetRadii = none)
    (hdim : c.args.particles.length = 2)
    (t : Built) (h : c.run = .ok t) (tin : TravInput) (hi : CallTrav c t tin)
    (trav : Traversal) (ht : buildTraversal tin = .ok trav)
    (w : Wrangler A D) (hwr : WranglerFor t w none)
    (hk : w.kernel = .laplace) (hf : w.rscaleFactor ≠ 0) (p : Nat) (hp : ∀ l, p ≤ w.order l)
    (weights : Nat → ℝ) (angle : Nat → Nat → A) (hrot : RotationOK trav w angle)
    (ε θ : ℚ) (h0 : 0 ≤ ε) (hε : ∀ b, b < t.tree.nboxes → ε ≤ θ * t.tree.rad (t.tree.level b))
    (hθ : θ ≤ 1) (s : ℝ) (hs0 : 0 ≤ s) (hs : √2 * (1 + θ) ≤ 2 * s) (hs1 : s < 1)
    (hnear : ∀ b, b < t.tree.nboxes →
      (∀ i ∈ span t.particles.srcStart t.particles.srcCumul b,
        NearBox t.tree (fun _ => ε) b fun a => t.sources a i) ∧
      (∀ i ∈ span t.particles.tgtStart t.particles.tgtCumul b,
        NearBox t.tree (fun _ => ε) b fun a => t.targets a i)) :
    ∃ pot, drive t.tree t.particles.toParticles (logLib A D) w trav weights = .ok pot ∧
      ∀ i, i < (if c.args.targets = none then ns else nt) →
        ‖pot i - (chargePotential c ns weights i : ℂ)‖ ≤
          s ^ (p + 1) / ((1 - s) * Real.pi * (p + 1)) * totalCharge ns weights := by
  obtain ⟨g1, g2, g3, g4, g5, g6, g7⟩ :=
    documented_call_holds c ns nt dtype hd hw hr (Or.inl hdim) t h tin hi w none hwr weights
  obtain ⟨e, hheld⟩ := call_held c ns nt dtype hd hw hr hdim t h tin hi w none hwr weights ε hnear
  obtain ⟨pot, p1, p2⟩ := C84_traversal tin trav g1 g2 ht hi.noMask hi.noParentMask e
    t.particles.toParticles g4 w hk hf p hp _ _ angle weights g5 hrot ε θ hheld h0
    (by rw [hi.tree]; exact hε) hθ s hs0 hs hs1
  rw [hi.tree] at p1
  refine ⟨pot, p1, fun i hlt => ?_⟩
  have := p2 i (by show i < t.particles.ntargets; rw [g7]; exact hlt)
  have e2 : t.particles.toParticles.nsources = ns := g6
  rw [e2] at this
  exact this

/-- Bound of the constant. -/
theorem rate_le {s K : ℝ} (hs0 : 0 ≤ s) (hs1 : s < 1) (hK0 : 0 ≤ K) (hK : 1 ≤ K * ((1 - s) * 3.14)) (p : Nat) :
    s ^ (p + 1) / ((1 - s) * Real.pi * (p + 1)) ≤ K * s ^ (p + 1) / (p + 1) := by
  have hpi := Real.pi_gt_d2
  have h1 : 0 < 1 - s := by linarith
  have h2 : (0 : ℝ) < p + 1 := by positivity
  have h3 : 0 < (1 - s) * Real.pi := mul_pos h1 (by linarith)
  have h4 : 1 ≤ K * ((1 - s) * Real.pi) :=
    hK.trans (mul_le_mul_of_nonneg_left (mul_le_mul_of_nonneg_left hpi.le h1.le) hK0)
  rw [← div_div]
  refine div_le_div_of_nonneg_right ?_ h2.le
  rw [div_le_iff₀ h3]
  calc s ^ (p + 1) = 1 * s ^ (p + 1) := (one_mul _).symm
    _ ≤ K * ((1 - s) * Real.pi) * s ^ (p + 1) := mul_le_mul_of_nonneg_right h4 (by positivity)
    _ = _ := by ring

theorem rate_exact (p : Nat) :
    (√2 / 2) ^ (p + 1) / ((1 - √2 / 2) * Real.pi * (p + 1)) ≤ 11 / 10 * (√2 / 2) ^ (p + 1) / (p + 1) := by
  have hsq : √2 ≤ 1415 / 1000 := by
    rw [Real.sqrt_le_left (by norm_num)]; norm_num
  exact rate_le (by positivity) (by linarith) (by norm_num) (by linarith) p

/-- **C84.** From the user's arrays to potentials, in exact arithmetic: with expansions of order at
least `p` the potential of `drive_fmm` at every target, in the user's order, differs from the potential
of the user's charges by at most `1.1 (√2/2)^(p + 1) / (p + 1)` times the sum of the absolute values of
the charges, whatever the tree and the number of translations.

Partial: without `kind="adaptive-level-restricted"` together with radii
(`C20_restricted_extent_loses_particles`). -/
theorem C84_fmm_converges_partial (c : Call) (ns nt : Nat) (dtype : String)
    (hd : c.Documented ns nt dtype) (hw : c.SomeWeight)
    (hr : c.args.kind = "adaptive-level-restricted" →
      c.args.sourceRadii = none ∧ c.args.targetRadii = none)
    (hdim : c.args.particles.length = 2) (hx : c.arith = .exact)
    (t : Built) (h : c.run = .ok t) (tin : TravInput) (hi : CallTrav c t tin)
    (trav : Traversal) (ht : buildTraversal tin = .ok trav)
    (w : Wrangler A D) (hwr : WranglerFor t w none)
    (hk : w.kernel = .laplace) (hf : w.rscaleFactor ≠ 0) (p : Nat) (hp : ∀ l, p ≤ w.order l)
    (weights : Nat → ℝ) (angle : Nat → Nat → A) (hrot : RotationOK trav w angle) :
    ∃ pot, drive t.tree t.particles.toParticles (logLib A D) w trav weights = .ok pot ∧
      ∀ i, i < (if c.args.targets = none then ns else nt) →
        ‖pot i - (chargePotential c ns weights i : ℂ)‖ ≤
          11 / 10 * (√2 / 2) ^ (p + 1) / (p + 1) * totalCharge ns weights := by
  have hsq : √2 ≤ 1415 / 1000 := by
    rw [Real.sqrt_le_left (by norm_num)]; norm_num
  obtain ⟨pot, p1, p2⟩ := charge_error c ns nt dtype hd hw hr hdim t h tin hi trav ht w hwr hk hf p
    hp weights angle hrot 0 0 le_rfl (fun b _ => by rw [zero_mul]) (by norm_num) (√2 / 2) (by positivity)
    (by push_cast; linarith) (by linarith)
    (exact_near c ns nt dtype hd hw hx t h)
  exact ⟨pot, p1, fun i hlt => (p2 i hlt).trans
    (mul_le_mul_of_nonneg_right (rate_exact p) (totalCharge_nonneg _ _))⟩

/-- **C84**, any accuracy: for every `δ` there is an order from which on every documented call in two
dimensions gives all potentials with an error of at most `δ` times the sum of the absolute values of the
charges.  The order depends neither on the particles nor on the tree. -/
theorem C84_any_accuracy_partial (δ : ℝ) (hδ : 0 < δ) :
    ∃ p₀ : Nat, ∀ (c : Call) (ns nt : Nat) (dtype : String),
      c.Documented ns nt dtype → c.SomeWeight →
      (c.args.kind = "adaptive-level-restricted" →
        c.args.sourceRadii = none ∧ c.args.targetRadii = none) →
      c.args.particles.length = 2 → c.arith = .exact →
      ∀ (t : Built), c.run = .ok t → ∀ (tin : TravInput), CallTrav c t tin →
      ∀ (trav : Traversal), buildTraversal tin = .ok trav →
      ∀ (w : Wrangler A D), WranglerFor t w none →
      w.kernel = .laplace → w.rscaleFactor ≠ 0 → (∀ l, p₀ ≤ w.order l) →
      ∀ (weights : Nat → ℝ) (angle : Nat → Nat → A), RotationOK trav w angle →
      ∃ pot, drive t.tree t.particles.toParticles (logLib A D) w trav weights = .ok pot ∧
        ∀ i, i < (if c.args.targets = none then ns else nt) →
          ‖pot i - (chargePotential c ns weights i : ℂ)‖ ≤ δ * totalCharge ns weights := by
  have hsq : √2 ≤ 1415 / 1000 := by
    rw [Real.sqrt_le_left (by norm_num)]; norm_num
  obtain ⟨n, hn⟩ := exists_pow_lt_of_lt_one (show 0 < δ / 2 by positivity)
    (show √2 / 2 < 1 by linarith)
  refine ⟨n, fun c ns nt dtype hd hw hr hdim hx t h tin hi trav ht w hwr hk hf hp weights angle
    hrot => ?_⟩
  obtain ⟨pot, p1, p2⟩ := C84_fmm_converges_partial c ns nt dtype hd hw hr hdim hx t h tin hi trav ht w
    hwr hk hf n hp weights angle hrot
  refine ⟨pot, p1, fun i hlt => (p2 i hlt).trans ?_⟩
  refine mul_le_mul_of_nonneg_right ?_ (totalCharge_nonneg _ _)
  have h1 : (√2 / 2) ^ (n + 1) ≤ (√2 / 2) ^ n :=
    pow_le_pow_of_le_one (by positivity) (by linarith) (by omega)
  have h2 : 11 / 10 * (√2 / 2) ^ (n + 1) / ((n : ℝ) + 1) ≤ 11 / 10 * (√2 / 2) ^ (n + 1) :=
    div_le_self (by positivity) (by linarith [(Nat.cast_nonneg n : (0 : ℝ) ≤ n)])
  linarith

/-- **C84**, with floating point arithmetic in the tree builder: `u` is the unit roundoff, all
coordinates are at most `B`, the particles spread over a distance `W` and no box is so small that
rounding matters. -/
theorem C84_rounded_partial (c : Call) (ns nt : Nat) (dtype : String)
    (hd : c.Documented ns nt dtype) (hw : c.SomeWeight)
    (hr : c.args.kind = "adaptive-level-restricted" →
      c.args.sourceRadii = none ∧ c.args.targetRadii = none)
    (hdim : c.args.particles.length = 2) (fl rt : ℚ → ℚ) (u B W : ℚ) (hfl : Rounds fl u)
    (hx : c.arith = .rounded fl rt) (hbox : c.bbox = none)
    (hB : ∀ a < c.args.particles.length, ∀ p < ns + nt, |c.coord ns a p| + c.rad ns p ≤ B)
    (hW : ∃ a < c.args.particles.length, ∃ p < ns + nt, ∃ q < ns + nt,
      W ≤ c.coord ns a p - c.coord ns a q)
    (hW0 : 0 < W) (hres : 400000 * u * B ≤ W)
    (t : Built) (h : c.run = .ok t)
    (hsmall : ∀ b, b < t.tree.nboxes → 128 * u * B ≤ t.tree.rad (t.tree.level b))
    (tin : TravInput) (hi : CallTrav c t tin)
    (trav : Traversal) (ht : buildTraversal tin = .ok trav)
    (w : Wrangler A D) (hwr : WranglerFor t w none)
    (hk : w.kernel = .laplace) (hf : w.rscaleFactor ≠ 0) (p : Nat) (hp : ∀ l, p ≤ w.order l)
    (weights : Nat → ℝ) (angle : Nat → Nat → A) (hrot : RotationOK trav w angle) :
    ∃ pot, drive t.tree t.particles.toParticles (logLib A D) w trav weights = .ok pot ∧
      ∀ i, i < (if c.args.targets = none then ns else nt) →
        ‖pot i - (chargePotential c ns weights i : ℂ)‖ ≤
          8 / 5 * (4 / 5) ^ (p + 1) / (p + 1) * totalCharge ns weights := by
  have hsq : √2 ≤ 142 / 100 := by
    rw [Real.sqrt_le_left (by norm_num)]; norm_num
  have hu := hfl.nonneg_u
  have hB0 : 0 ≤ B := by
    obtain ⟨a, ha, p, hp, q, hq, hpq⟩ := hW
    have h1 := hB a ha p hp
    have h2 := hB a ha q hq
    have h3 := abs_sub (c.coord ns a p) (c.coord ns a q)
    have h4 := le_abs_self (c.coord ns a p - c.coord ns a q)
    have h5 := hd.radius_nonneg p hp
    have h6 := hd.radius_nonneg q hq
    linarith
  obtain ⟨pot, p1, p2⟩ := charge_error c ns nt dtype hd hw hr hdim t h tin hi trav ht w hwr hk hf p
    hp weights angle hrot (16 * u * B) (1 / 8) (by positivity)
    (fun b hb => by linarith [hsmall b hb]) (by norm_num) (4 / 5) (by norm_num)
    (by push_cast; linarith) (by norm_num)
    (fun b hb => C64_call_partial c ns nt dtype hd hw fl rt u B W hfl hx hbox hB hW hW0 hres t h b hb)
  exact ⟨pot, p1, fun i hlt => (p2 i hlt).trans (mul_le_mul_of_nonneg_right
    (rate_le (by norm_num) (by norm_num) (by norm_num) (by norm_num) p) (totalCharge_nonneg _ _))⟩

/-- **C84 (distributed).** The distributed FMM converges at the same rate as the one on a single
process, however the boxes are distributed over ranks and in whatever order the ranks progress and
messages arrive.

Partial: without radii for the kinds other than `"adaptive"` (C20, C55) and without `skip_prune`
(C57). -/
theorem C84_distributed_partial (c : Call)
    (ns nt : Nat) (dtype : String) (hd : c.Documented ns nt dtype) (hw : c.SomeWeight)
    (hp : c.skipPrune = false)
    (hr : c.args.kind ≠ "adaptive" → c.args.sourceRadii = none ∧ c.args.targetRadii = none)
    (hdim : c.args.particles.length = 2) (hx : c.arith = .exact)
    (t : Built) (h : c.run = .ok t) (tin : TravInput) (hi : CallTrav c t tin)
    (hmin : tin.targetsHaveExtent = true → tin.minNsources.getD 0 = 0)
    (trav : Traversal) (ht : buildTraversal tin = .ok trav) (cost : Nat → ℚ) (size : Nat)
    (h0 : 0 < size) (parts : List (List Nat))
    (hparts : partitionWork t.tree cost size = .ok (parts.map some))
    (w : Wrangler A D) (dip : Nat → Option (Nat → D))
    (hwr : DistWranglerFor (worldOf t tin trav size parts) t w none dip)
    (hk : w.kernel = .laplace) (hf : w.rscaleFactor ≠ 0) (p : Nat) (hord : ∀ l, p ≤ w.order l)
    (weights : Nat → ℝ) (angle : Nat → Nat → A)
    (rot : Nat → Option (List ℤ × List A)) :
    ∃ travs : Nat → Traversal,
      (∀ r, r < size →
        buildTraversal ((worldOf t tin trav size parts).localInput r) = .ok (travs r)) ∧
      ((∀ r, r < size → RotationOK (travs r)
          (rankWrangler (worldOf t tin trav size parts) w dip rot r) angle) →
        ∀ (rendezvous : Bool) (n : Nat) (σ : NetState ℂ),
          Steps rendezvous (distSetup (worldOf t tin trav size parts) w) n
            (distStart (worldOf t tin trav size parts) (logLib A D) w dip rot travs weights) σ →
          (∀ τ, ¬ Step rendezvous (distSetup (worldOf t tin trav size parts) w) σ τ) →
            ∀ junk : Nat → ℂ, ∃ pot,
              distResult (worldOf t tin trav size parts) (logLib A D) w dip rot travs weights
                (fun r => (σ.ranks r).data.mp) junk = .ok pot ∧
              ∀ i, i < (if c.args.targets = none then ns else nt) →
                ‖pot i - (chargePotential c ns weights i : ℂ)‖ ≤
                  11 / 10 * (√2 / 2) ^ (p + 1) / (p + 1) * totalCharge ns weights) := by
  have hsq : √2 ≤ 1415 / 1000 := by
    rw [Real.sqrt_le_left (by norm_num)]; norm_num
  obtain ⟨g1, g2, g3, g4, g5⟩ := documented_call_world c ns nt dtype hd hw hp hr (Or.inl hdim) t h tin hi
    hmin trav ht cost size h0 parts hparts w none dip hwr weights
  obtain ⟨e, hheld⟩ := call_held c ns nt dtype hd hw (fun hk => hr (by rw [hk]; decide)) hdim t h tin hi
    { w with dipoleVec := none, dipolesAlreadyReordered := false } none
    ⟨hwr.sources, hwr.targets, rfl, rfl⟩ weights 0 (exact_near c ns nt dtype hd hw hx t h)
  have S : Setting tin t.particles.toParticles w (userSrc c weights none) (userTgt c) 0 0 (√2 / 2) p :=
    ⟨g1.ok.wf, e, hi.nAway, hf, hord, hheld, le_rfl, fun b _ => by rw [zero_mul], by norm_num,
      by push_cast; linarith, by linarith⟩
  choose travs htr using C40_local_traversals_build _ g1
  refine ⟨travs, fun r _ => htr r, fun hrot rv n σ hrun hmax junk => ?_⟩
  have hfin : ∀ r, r < (worldOf t tin trav size parts).size → (σ.ranks r).finished :=
    fun r hr => C36_maximal_runs_finish (distSetup (worldOf t tin trav size parts) w) _ _ _ rv n σ
      hrun hmax r hr
  obtain ⟨pot, h1, h2⟩ := C62_distributed_respects (worldOf t tin trav size parts) g1 travs
    (fun r _ => htr r) (Or.inl e) (logLib A D) w dip rot weights _ _ angle _ _ _
    (chain_respects tin g1.ok.wf t.particles.toParticles _ w (log_linear _ w e hk)
      (userSrc c weights none) (userTgt c) angle) g3 hrot rv n σ hrun hfin junk
  refine ⟨pot, h1, fun i hlt => ?_⟩
  have hi' : i < t.particles.toParticles.ntargets := by
    show i < t.particles.ntargets
    rw [g5]; exact hlt
  obtain ⟨z, h3, L, h4, h5, rfl⟩ := h2 i hi'
  obtain ⟨g, hg, hs⟩ := sum_of_perm L _ h4
  have e2 : pot i = ((-1 / (2 * Real.pi) * (∑ j ∈ Finset.range ns, g j).re : ℝ) : ℂ) := by
    rw [h3, hs, ← g4]
    rfl
  rw [e2]
  refine le_trans ?_ (mul_le_mul_of_nonneg_right (rate_exact p) (totalCharge_nonneg ns weights))
  refine (log_sum_error (B := tail (√2 / 2) (p + 1) / (p + 1)) fun j hj => ?_).trans (le_of_eq ?_)
  · exact log_chain_error S (by positivity) hi' (h5 _ (hg j (by
      show j < t.particles.nsources
      rw [g4]; exact hj)))
  · unfold tail totalCharge
    rw [div_div, div_div]
    congr 2
    ring

namespace Ex

/-- All hypotheses of `C84_fmm_converges_partial` hold together, for every order and all charges. -/
example (p : Nat) (weights : Nat → ℝ) (d : Nat → ℚ) : ∃ t trav pot, call.run = .ok t ∧
    buildTraversal (callTrav t) = .ok trav ∧
    drive t.tree t.particles.toParticles (logLib ℚ ℚ)
      { callWrangler t d with order := fun _ => p, dipoleVec := none } trav weights = .ok pot ∧
    ∀ i, i < 3 → ‖pot i - (chargePotential call 3 weights i : ℂ)‖ ≤
      11 / 10 * (√2 / 2) ^ (p + 1) / (p + 1) * totalCharge 3 weights := by
  obtain ⟨t, trav, h1, h2, _⟩ := call_runs
  have hi : CallTrav call t (callTrav t) :=
    ⟨rfl, rfl, le_refl _, le_refl _, by show (1 / 1024 : ℚ) ≤ 1 / 12; norm_num, rfl, rfl, trivial⟩
  obtain ⟨pot, p1, p2⟩ := C84_fmm_converges_partial call 3 0 _ call_documented (Or.inl (by decide))
    (fun _ => ⟨rfl, rfl⟩) rfl rfl t h1 _ hi trav h2
    { callWrangler t d with order := fun _ => p, dipoleVec := none }
    ⟨fun _ _ => rfl, fun _ _ => rfl, rfl, rfl⟩ rfl (by norm_num [callWrangler]) p (fun _ => le_rfl)
    weights (fun _ _ => 0) (by intro _ _ h; cases h)
  exact ⟨t, trav, pot, h1, h2, p1, p2⟩

/-- All hypotheses of `C84_rounded_partial` hold together, in double precision. -/
example (p : Nat) (weights : Nat → ℝ) (d : Nat → ℚ) : ∃ t trav pot, callF.run = .ok t ∧
    buildTraversal (callTrav t) = .ok trav ∧
    drive t.tree t.particles.toParticles (logLib ℚ ℚ)
      { callWrangler t d with order := fun _ => p, dipoleVec := none } trav weights = .ok pot ∧
    ∀ i, i < 3 → ‖pot i - (chargePotential callF 3 weights i : ℂ)‖ ≤
      8 / 5 * (4 / 5) ^ (p + 1) / (p + 1) * totalCharge 3 weights := by
  obtain ⟨t, trav, h1, h2, hb⟩ := callF_runs
  have hi : CallTrav callF t (callTrav t) :=
    ⟨rfl, rfl, le_refl _, le_refl _, by show (1 / 1024 : ℚ) ≤ 1 / 12; norm_num, rfl, rfl, trivial⟩
  obtain ⟨pot, p1, p2⟩ := C84_rounded_partial callF 3 0 _ callF_documented (Or.inl (by decide))
    (fun _ => ⟨rfl, rfl⟩) rfl (roundTo 53) (rootTo 53) (1 / 2 ^ 53) 4 3 (roundTo_rounds (by decide)) rfl rfl
    (by decide +kernel) ⟨0, by decide, 2, by decide, 0, by decide, by decide +kernel⟩ (by norm_num)
    (by norm_num) t h1 hb _ hi trav h2 { callWrangler t d with order := fun _ => p, dipoleVec := none }
    ⟨fun _ _ => rfl, fun _ _ => rfl, rfl, rfl⟩ rfl (by norm_num [callWrangler]) p (fun _ => le_rfl)
    weights (fun _ _ => 0) (by intro _ _ h; cases h)
  exact ⟨t, trav, pot, h1, h2, p1, p2⟩

/-- The hypotheses of `C84_distributed_partial` hold together, on two ranks. -/
example (p : Nat) (weights : Nat → ℝ) (junk : Nat → ℂ) : ∃ t trav V w dip travs n σ pot,
    call.run = .ok t ∧
    buildTraversal (callTrav t) = .ok trav ∧
    V = worldOf t (callTrav t) trav 2 [[0, 3, 2], [1]] ∧
    DistWranglerFor V t w none dip ∧
    Steps true (distSetup V w) n
      (distStart V (logLib ℚ ℚ) w dip (fun _ => none) travs weights) σ ∧
    distResult V (logLib ℚ ℚ) w dip (fun _ => none) travs weights
      (fun r => (σ.ranks r).data.mp) junk = .ok pot ∧
    ∀ i, i < 3 → ‖pot i - (chargePotential call 3 weights i : ℂ)‖ ≤
      11 / 10 * (√2 / 2) ^ (p + 1) / (p + 1) * totalCharge 3 weights := by
  obtain ⟨t, trav, h1, h2, h3, _⟩ := call_distributes
  have hi : CallTrav call t (callTrav t) :=
    ⟨rfl, rfl, le_refl _, le_refl _, by show (1 / 1024 : ℚ) ≤ 1 / 12; norm_num, rfl, rfl, trivial⟩
  have hsw : call.SomeWeight := Or.inl (by decide)
  let V := worldOf t (callTrav t) trav 2 [[0, 3, 2], [1]]
  let w : Wrangler ℚ ℚ := { distCallWrangler t with order := fun _ => p }
  let dip : Nat → Option (Nat → ℚ) := fun _ => none
  have hwr : DistWranglerFor V t w none dip :=
    ⟨fun _ _ => rfl, fun _ _ => rfl, fun _ _ => rfl, fun _ => rfl⟩
  obtain ⟨travs, _, hres⟩ := C84_distributed_partial call 3 0 _ call_documented hsw rfl
    (fun _ => ⟨rfl, rfl⟩) rfl rfl t h1 (callTrav t) hi (fun h => by cases h) trav h2
    (fun _ => 1) 2 (by decide) _ h3 w dip hwr rfl
    (by norm_num [w, distCallWrangler, callWrangler]) p (fun _ => le_rfl) weights (fun _ _ => 0)
    (fun _ => none)
  obtain ⟨n, σ, hrun, hmax⟩ := C57_maximal_run_exists (distSetup V w)
    (fun r => viewOf w V.inp.tree (rankMpoles V (logLib ℚ ℚ) w dip (fun _ => none) travs weights r))
    _ _ true
  obtain ⟨pot, p1, p2⟩ := hres (by intro _ _ _ _ h; cases h) true n σ hrun hmax junk
  exact ⟨t, trav, V, w, dip, travs, n, σ, pot, h1, h2, rfl, hwr, hrun, p1, p2⟩

end Ex

end Boxtree.Build
