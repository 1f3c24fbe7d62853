import Verif.Lemmas.CauchyChain
import Verif.Props.FmmLibBuilt
import Verif.Props.Rounding

/-!
# C80: the FMM converges geometrically with the expansion order

For the kernel `w / (y - x)` of the complex plane and truncated series as expansions: whatever the tree,
the potential differs from the sum over all sources by at most `18 (4/5)^(p + 1)` times the sum of the
absolute values of the contributions, if all expansions have at least order `p`.
-/

namespace Boxtree.FmmLib
open Boxtree BoxTree Series

variable {A D : Type}

/-- **C80**, for a tree and a traversal.  Particles may lie outside of their boxes by `ε`, which is at
most `θ` times the radius of every box; `s` is the ratio of convergence. -/
theorem C80_traversal (inp : TravInput) (trav : Traversal) (ok : inp.OK) (hlev : inp.tree.LevelsOK)
    (h : buildTraversal inp = .ok trav) (hm : inp.srcMask = none) (hm' : inp.srcParentMask = none)
    (hdim : inp.tree.dims = 2) (q : Particles) (hq : q.OK inp.tree) (w : Wrangler A D)
    (hk : w.kernel = .laplace) (hf : w.rscaleFactor ≠ 0) (p : Nat) (hp : ∀ l, p ≤ w.order l)
    (src : Nat → Src ℂ D) (x : Nat → Nat → ℚ) (angle : Nat → Nat → A)
    (weights : Nat → ℂ) (hH : Holds q w weights src x) (hrot : RotationOK trav w angle)
    (ε θ : ℚ) (hheld : HeldNear inp.tree q src x ε) (h0 : 0 ≤ ε)
    (hε : ∀ b, b < inp.tree.nboxes → ε ≤ θ * inp.tree.rad (inp.tree.level b)) (hθ : θ ≤ 1)
    (s : ℝ) (hs0 : 0 ≤ s) (hs : √2 * (1 + θ) ≤ 2 * s) (hs1 : s < 1) :
    ∃ pot, drive inp.tree q (cauchyLib A D) w trav weights = .ok pot ∧
      ∀ i, i < q.ntargets →
        ‖pot i - ∑ j ∈ Finset.range q.nsources, weights j / (toC (x i) - toC (src j).pos)‖ ≤
          2 * (1 + s) / (1 - s) * s ^ (p + 1) *
            ∑ j ∈ Finset.range q.nsources, ‖weights j‖ / ‖toC (x i) - toC (src j).pos‖ := by
  obtain ⟨pot, h1, h2⟩ := C60_chain_decomposition inp trav ok hlev h hm hm' (Or.inl hdim) q hq
    (cauchyLib A D) w (cauchy_linear _ w hdim hk) src x angle weights hH hrot
  have S : Setting inp q w src x ε θ s p :=
    ⟨ok.wf, hdim, ok.nAway_pos, hf, hp, hheld, h0, hε, hθ, hs, hs1⟩
  refine ⟨pot, h1, fun i hi => ?_⟩
  obtain ⟨c, h3, h4⟩ := h2 i hi
  have e : pot i = ∑ j ∈ Finset.range q.nsources, c j := h4
  rw [e, ← Finset.sum_sub_distrib, Finset.mul_sum]
  refine (norm_sum_le _ _).trans (Finset.sum_le_sum fun j hj => ?_)
  have hj := Finset.mem_range.1 hj
  have := chain_error S hs0 hi (h3 j hj)
  rw [hH.weight j hj] at this
  refine this.trans (le_of_eq ?_)
  unfold tail
  ring

namespace Ex

/-- All hypotheses of `C80_traversal` hold together on a tree with list 2 interactions, for every
order and all strengths. -/
example (p : Nat) (weights : Nat → ℂ) : ∃ trav pot, buildTraversal quadInput = .ok trav ∧
    drive quad quadParticles (cauchyLib ℚ ℚ) { quadWrangler with order := fun _ => p } trav weights
      = .ok pot ∧
    ∀ i, i < 16 → ‖pot i - ∑ j ∈ Finset.range 16,
      weights j / (toC (quad.center (20 - i)) - toC (quad.center (20 - j)))‖ ≤
        2 * (1 + 4 / 5) / (1 - 4 / 5) * (4 / 5) ^ (p + 1) * ∑ j ∈ Finset.range 16,
          ‖weights j‖ / ‖toC (quad.center (20 - i)) - toC (quad.center (20 - j))‖ := by
  obtain ⟨trav, htrav⟩ : ∃ trav, buildTraversal quadInput = .ok trav := ⟨_, rfl⟩
  have hsq : √2 ≤ 142 / 100 := by
    rw [Real.sqrt_le_left (by norm_num)]; norm_num
  have hsrc : ∀ b, b < 21 → ∀ j ∈ sourcesOf quadParticles b, ∀ a, a < 2 →
      |quad.center (20 - j) a - quad.center b a| ≤ quad.rad (quad.level b) + 0 := by decide +kernel
  have htgt : ∀ b, b < 21 → ∀ i, i < 16 → (quadParticles.tgtStart b ≤ quadParticles.sortedTargetIds i ∧
      quadParticles.sortedTargetIds i < quadParticles.tgtStart b + quadParticles.tgtCount b) →
      ∀ a, a < 2 → |quad.center (20 - i) a - quad.center b a| ≤ quad.rad (quad.level b) + 0 := by
    decide +kernel
  have := C80_traversal quadInput trav quadInput_ok quad_levels htrav rfl rfl rfl
    quadParticles quadParticles_ok { quadWrangler with order := fun _ => p } rfl
    (by norm_num [quadWrangler]) p (fun _ => le_rfl)
    (fun j => ⟨quad.center (20 - j), weights j, none⟩) (fun i => quad.center (20 - i))
    (fun _ _ => 0) weights ⟨?_, fun _ _ => rfl, fun _ _ => rfl, ?_⟩ (by intro _ _ h; cases h)
    0 0 ⟨fun b hb _ => hsrc b hb, htgt⟩ le_rfl (fun b _ => by rw [zero_mul]) (by norm_num)
    (4 / 5) (by norm_num) (by push_cast; linarith) (by norm_num)
  · obtain ⟨pot, h1, h2⟩ := this
    exact ⟨trav, pot, htrav, h1, h2⟩
  · intro j hj
    have hj' : j < 16 := hj
    funext i
    change quad.center (j + 5) i = quad.center (20 - (15 - j)) i
    rw [show 20 - (15 - j) = j + 5 by omega]
  · intro i hi
    have hi' : i < 16 := hi
    funext k
    change quad.center (15 - i + 5) k = quad.center (20 - i) k
    rw [show 15 - i + 5 = 20 - i by omega]

end Ex

end Boxtree.FmmLib

namespace Boxtree.Build
open BoxTree Boxtree.FmmLib

variable {A D : Type}

/-- Sum of the absolute values of the contributions of all sources at target `i` of the user. -/
noncomputable def strength (c : Call) (ns : Nat) (weights : Nat → ℂ) (i : Nat) : ℝ :=
  ∑ j ∈ Finset.range ns, ‖weights j‖ / ‖toC (userTgt c i) - toC fun a => c.src a j‖

/-- The potential at target `i` of the user. -/
noncomputable def potential (c : Call) (ns : Nat) (weights : Nat → ℂ) (i : Nat) : ℂ :=
  ∑ j ∈ Finset.range ns, weights j / (toC (userTgt c i) - toC fun a => c.src a j)

/-- Particles that lie in the boxes that hold them, in user order. -/
theorem heldNear_of_call {t : Built} {tin : TravInput} {w : Wrangler A D} {dipoles : Option (Nat → D)}
    {W : Type} {weights : Nat → W} {src : Nat → Src W D} {x : Nat → Nat → ℚ} {ε : ℚ}
    (ht : tin.tree = t.tree) (hwr : WranglerFor t w dipoles)
    (hq : t.particles.toParticles.OK tin.tree) (hH : Holds t.particles.toParticles w weights src x)
    (hn : NestedRanges t.tree t.particles.nsources t.particles.srcStart t.particles.srcCount
      t.particles.srcCumul ∧
      NestedRanges t.tree t.particles.ntargets t.particles.tgtStart t.particles.tgtCount
      t.particles.tgtCumul)
    (hnear : ∀ b, b < t.tree.nboxes →
      (∀ i ∈ span t.particles.srcStart t.particles.srcCumul b,
        NearBox t.tree (fun _ => ε) b fun a => t.sources a i) ∧
      (∀ i ∈ span t.particles.tgtStart t.particles.tgtCumul b,
        NearBox t.tree (fun _ => ε) b fun a => t.targets a i)) :
    HeldNear tin.tree t.particles.toParticles src x ε := by
  rw [ht] at hq ⊢
  constructor
  · intro b hb hs j hj a ha
    unfold sourcesOf at hj
    obtain ⟨k, hk, rfl⟩ := List.mem_map.1 hj
    have hk := List.mem_range.1 hk
    have hlt := hq.src_le b hb hs
    have hp := hH.pos (t.particles.toParticles.srcStart b + k) (by omega)
    rw [← hp, hwr.sources]
    have hmem : t.particles.srcStart b + k ∈ span t.particles.srcStart t.particles.srcCumul b := by
      rw [hn.1.nested b hb, List.mem_append]
      left
      unfold span
      rw [List.mem_range'_1]
      exact ⟨by omega, Nat.add_lt_add_left hk _⟩
    have := (hnear b hb).1 _ hmem a ha
    rw [abs_le]
    exact ⟨by linarith [this.1], by linarith [this.2]⟩
  · intro b hb i hi hin a ha
    rw [← hH.target i hi, hwr.targets]
    have hmem : t.particles.sortedTargetIds i ∈ span t.particles.tgtStart t.particles.tgtCumul b := by
      rw [hn.2.nested b hb, List.mem_append]
      left
      unfold span
      rw [List.mem_range'_1]
      exact hin
    have := (hnear b hb).2 _ hmem a ha
    rw [abs_le]
    exact ⟨by linarith [this.1], by linarith [this.2]⟩

/-- The particles of a documented call are near the boxes that hold them, in user order. -/
theorem call_held (c : Call) (ns nt : Nat) (dtype : String) (hd : c.Documented ns nt dtype)
    (hw : c.SomeWeight)
    (hr : c.args.kind = "adaptive-level-restricted" →
      c.args.sourceRadii = none ∧ c.args.targetRadii = none)
    (hdim : c.args.particles.length = 2)
    (t : Built) (h : c.run = .ok t) (tin : TravInput) (hi : CallTrav c t tin)
    (w : Wrangler A D) (dipoles : Option (Nat → D)) (hwr : WranglerFor t w dipoles)
    {W : Type} (weights : Nat → W) (ε : ℚ)
    (hnear : ∀ b, b < t.tree.nboxes →
      (∀ i ∈ span t.particles.srcStart t.particles.srcCumul b,
        NearBox t.tree (fun _ => ε) b fun a => t.sources a i) ∧
      (∀ i ∈ span t.particles.tgtStart t.particles.tgtCumul b,
        NearBox t.tree (fun _ => ε) b fun a => t.targets a i)) :
    tin.tree.dims = 2 ∧
      HeldNear tin.tree t.particles.toParticles (userSrc c weights dipoles) (userTgt c) ε := by
  obtain ⟨g1, g2, g3, g4, g5, g6, g7⟩ :=
    documented_call_holds c ns nt dtype hd hw hr (Or.inl hdim) t h tin hi w dipoles hwr weights
  obtain ⟨inp, h1, ok, _, hin⟩ := C56_documented_call c ns nt dtype hd hw
  rw [h1] at h
  have hreg : inp.Regular := by
    by_cases hl : inp.levelRestrict = true
    · obtain ⟨r1, r2⟩ := hr (hin.levelRestrict.1 hl)
      right
      unfold Input.haveExtent
      rw [hin.sourcesHaveExtent, hin.targetsHaveExtent, r1, r2]
      rfl
    · left
      simpa using hl
  exact ⟨by rw [hi.tree, (C52_built_tree_wf inp ok t h).2.2.2.1, hin.dims, hdim],
    heldNear_of_call hi.tree hwr g4 g5 (C20_nested_ranges_partial inp ok hreg t h) hnear⟩

/-- In exact arithmetic particles are in their boxes. -/
theorem exact_near (c : Call) (ns nt : Nat) (dtype : String) (hd : c.Documented ns nt dtype)
    (hw : c.SomeWeight) (hx : c.arith = .exact) (t : Built) (h : c.run = .ok t) (b : Nat)
    (hb : b < t.tree.nboxes) :
    (∀ i ∈ span t.particles.srcStart t.particles.srcCumul b,
      NearBox t.tree (fun _ => 0) b fun a => t.sources a i) ∧
    (∀ i ∈ span t.particles.tgtStart t.particles.tgtCumul b,
      NearBox t.tree (fun _ => 0) b fun a => t.targets a i) := by
  obtain ⟨inp, h1, ok, _, hin⟩ := C56_documented_call c ns nt dtype hd hw
  rw [h1] at h
  have hin' := C21_particles_in_box_partial inp
    (C56_placed c ns nt dtype hd (by rw [hx]; rfl) inp ok hin) (by rw [hin.arith, hx]) t h b hb
  refine ⟨fun i hi a ha => ?_, fun i hi a ha => ?_⟩
  · have := hin'.1 i hi a ha
    exact ⟨by linarith [this.1], by linarith [this.2]⟩
  · have := hin'.2 i hi a ha
    exact ⟨by linarith [this.1], by linarith [this.2]⟩

/-- A documented call in two dimensions whose particles are near their boxes. -/
theorem call_error (c : Call) (ns nt : Nat) (dtype : String) (hd : c.Documented ns nt dtype)
    (hw : c.SomeWeight)
    (hr : c.args.kind = "adaptive-level-restricted" →
      c.args.sourceRadii = none ∧ c.args.targetRadii = none)
    (hdim : c.args.particles.length = 2)
    (t : Built) (h : c.run = .ok t) (tin : TravInput) (hi : CallTrav c t tin)
    (trav : Traversal) (ht : buildTraversal tin = .ok trav)
    (w : Wrangler A D) (dipoles : Option (Nat → D)) (hwr : WranglerFor t w dipoles)
    (hk : w.kernel = .laplace) (hf : w.rscaleFactor ≠ 0) (p : Nat) (hp : ∀ l, p ≤ w.order l)
    (weights : Nat → ℂ) (angle : Nat → Nat → A) (hrot : RotationOK trav w angle)
    (ε θ : ℚ) (h0 : 0 ≤ ε) (hε : ∀ b, b < t.tree.nboxes → ε ≤ θ * t.tree.rad (t.tree.level b))
    (hθ : θ ≤ 1) (s : ℝ) (hs0 : 0 ≤ s) (hs : √2 * (1 + θ) ≤ 2 * s) (hs1 : s < 1)
    (hnear : ∀ b, b < t.tree.nboxes →
      (∀ i ∈ span t.particles.srcStart t.particles.srcCumul b,
        NearBox t.tree (fun _ => ε) b fun a => t.sources a i) ∧
      (∀ i ∈ span t.particles.tgtStart t.particles.tgtCumul b,
        NearBox t.tree (fun _ => ε) b fun a => t.targets a i)) :
    ∃ pot, drive t.tree t.particles.toParticles (cauchyLib A D) w trav weights = .ok pot ∧
      ∀ i, i < (if c.args.targets = none then ns else nt) →
        ‖pot i - potential c ns weights i‖ ≤
          2 * (1 + s) / (1 - s) * s ^ (p + 1) * strength c ns weights i := by
  obtain ⟨g1, g2, g3, g4, g5, g6, g7⟩ :=
    documented_call_holds c ns nt dtype hd hw hr (Or.inl hdim) t h tin hi w dipoles hwr weights
  obtain ⟨e, hheld⟩ := call_held c ns nt dtype hd hw hr hdim t h tin hi w dipoles hwr weights ε hnear
  obtain ⟨pot, p1, p2⟩ := C80_traversal tin trav g1 g2 ht hi.noMask hi.noParentMask e
    t.particles.toParticles g4 w hk hf p hp _ _ angle weights g5 hrot ε θ hheld h0
    (by rw [hi.tree]; exact hε) hθ s hs0 hs hs1
  rw [hi.tree] at p1
  refine ⟨pot, p1, fun i hlt => ?_⟩
  have := p2 i (by show i < t.particles.ntargets; rw [g7]; exact hlt)
  have e2 : t.particles.toParticles.nsources = ns := g6
  rw [e2] at this
  exact this

/-- **C80.** From the user's arrays to potentials, in exact arithmetic: with expansions of order at
least `p` the potential of `drive_fmm` at every target, in the user's order, differs from the sum over
the user's sources by at most `12 (√2/2)^(p + 1)` times the sum of the absolute values of the
contributions, whatever the tree and the number of translations.

Partial: without `kind="adaptive-level-restricted"` together with radii
(`C20_restricted_extent_loses_particles`). -/
theorem C80_fmm_converges_partial (c : Call) (ns nt : Nat) (dtype : String)
    (hd : c.Documented ns nt dtype) (hw : c.SomeWeight)
    (hr : c.args.kind = "adaptive-level-restricted" →
      c.args.sourceRadii = none ∧ c.args.targetRadii = none)
    (hdim : c.args.particles.length = 2) (hx : c.arith = .exact)
    (t : Built) (h : c.run = .ok t) (tin : TravInput) (hi : CallTrav c t tin)
    (trav : Traversal) (ht : buildTraversal tin = .ok trav)
    (w : Wrangler A D) (dipoles : Option (Nat → D)) (hwr : WranglerFor t w dipoles)
    (hk : w.kernel = .laplace) (hf : w.rscaleFactor ≠ 0) (p : Nat) (hp : ∀ l, p ≤ w.order l)
    (weights : Nat → ℂ) (angle : Nat → Nat → A) (hrot : RotationOK trav w angle) :
    ∃ pot, drive t.tree t.particles.toParticles (cauchyLib A D) w trav weights = .ok pot ∧
      ∀ i, i < (if c.args.targets = none then ns else nt) →
        ‖pot i - potential c ns weights i‖ ≤
          12 * (√2 / 2) ^ (p + 1) * strength c ns weights i := by
  have hsq : √2 ≤ 1415 / 1000 := by
    rw [Real.sqrt_le_left (by norm_num)]; norm_num
  obtain ⟨pot, p1, p2⟩ := call_error c ns nt dtype hd hw hr hdim t h tin hi trav ht w dipoles hwr hk hf p
    hp weights angle hrot 0 0 le_rfl (fun b _ => by rw [zero_mul]) (by norm_num) (√2 / 2) (by positivity)
    (by push_cast; linarith) (by linarith)
    (exact_near c ns nt dtype hd hw hx t h)
  refine ⟨pot, p1, fun i hlt => (p2 i hlt).trans ?_⟩
  have hst : 0 ≤ strength c ns weights i := Finset.sum_nonneg fun j _ => by positivity
  refine mul_le_mul_of_nonneg_right (mul_le_mul_of_nonneg_right ?_ (by positivity)) hst
  rw [div_le_iff₀ (by linarith)]
  linarith

/-- **C80**, any accuracy: for every `δ` there is an order from which on every documented call in two
dimensions gives all potentials with an error of at most `δ` times the sum of the absolute values of the
contributions.  The order depends neither on the particles nor on the tree. -/
theorem C80_any_accuracy_partial (δ : ℝ) (hδ : 0 < δ) :
    ∃ p₀ : Nat, ∀ (c : Call) (ns nt : Nat) (dtype : String),
      c.Documented ns nt dtype → c.SomeWeight →
      (c.args.kind = "adaptive-level-restricted" →
        c.args.sourceRadii = none ∧ c.args.targetRadii = none) →
      c.args.particles.length = 2 → c.arith = .exact →
      ∀ (t : Built), c.run = .ok t → ∀ (tin : TravInput), CallTrav c t tin →
      ∀ (trav : Traversal), buildTraversal tin = .ok trav →
      ∀ (w : Wrangler A D) (dipoles : Option (Nat → D)), WranglerFor t w dipoles →
      w.kernel = .laplace → w.rscaleFactor ≠ 0 → (∀ l, p₀ ≤ w.order l) →
      ∀ (weights : Nat → ℂ) (angle : Nat → Nat → A), RotationOK trav w angle →
      ∃ pot, drive t.tree t.particles.toParticles (cauchyLib A D) w trav weights = .ok pot ∧
        ∀ i, i < (if c.args.targets = none then ns else nt) →
          ‖pot i - potential c ns weights i‖ ≤ δ * strength c ns weights i := by
  have hsq : √2 ≤ 1415 / 1000 := by
    rw [Real.sqrt_le_left (by norm_num)]; norm_num
  obtain ⟨n, hn⟩ := exists_pow_lt_of_lt_one (show 0 < δ / 12 by positivity)
    (show √2 / 2 < 1 by linarith)
  refine ⟨n, fun c ns nt dtype hd hw hr hdim hx t h tin hi trav ht w dipoles hwr hk hf hp weights angle
    hrot => ?_⟩
  obtain ⟨pot, p1, p2⟩ := C80_fmm_converges_partial c ns nt dtype hd hw hr hdim hx t h tin hi trav ht w
    dipoles hwr hk hf n hp weights angle hrot
  refine ⟨pot, p1, fun i hlt => (p2 i hlt).trans ?_⟩
  have hst : 0 ≤ strength c ns weights i := Finset.sum_nonneg fun j _ => by positivity
  refine mul_le_mul_of_nonneg_right ?_ hst
  have h1 : (√2 / 2) ^ (n + 1) ≤ (√2 / 2) ^ n :=
    pow_le_pow_of_le_one (by positivity) (by linarith) (by omega)
  linarith

/-- **C80**, with floating point arithmetic in the tree builder: `u` is the unit roundoff, all
coordinates are at most `B`, the particles spread over a distance `W` and no box is so small that
rounding matters.  The potential is accurate to `18 (4/5)^(p + 1)`. -/
theorem C80_rounded_partial (c : Call) (ns nt : Nat) (dtype : String)
    (hd : c.Documented ns nt dtype) (hw : c.SomeWeight)
    (hr : c.args.kind = "adaptive-level-restricted" →
      c.args.sourceRadii = none ∧ c.args.targetRadii = none)
    (hdim : c.args.particles.length = 2) (fl rt : ℚ → ℚ) (u B W : ℚ) (hfl : Rounds fl u)
    (hx : c.arith = .rounded fl rt) (hbox : c.bbox = none)
    (hB : ∀ a < c.args.particles.length, ∀ p < ns + nt, |c.coord ns a p| + c.rad ns p ≤ B)
    (hW : ∃ a < c.args.particles.length, ∃ p < ns + nt, ∃ q < ns + nt,
      W ≤ c.coord ns a p - c.coord ns a q)
    (hW0 : 0 < W) (hres : 400000 * u * B ≤ W)
    (t : Built) (h : c.run = .ok t)
    (hsmall : ∀ b, b < t.tree.nboxes → 128 * u * B ≤ t.tree.rad (t.tree.level b))
    (tin : TravInput) (hi : CallTrav c t tin)
    (trav : Traversal) (ht : buildTraversal tin = .ok trav)
    (w : Wrangler A D) (dipoles : Option (Nat → D)) (hwr : WranglerFor t w dipoles)
    (hk : w.kernel = .laplace) (hf : w.rscaleFactor ≠ 0) (p : Nat) (hp : ∀ l, p ≤ w.order l)
    (weights : Nat → ℂ) (angle : Nat → Nat → A) (hrot : RotationOK trav w angle) :
    ∃ pot, drive t.tree t.particles.toParticles (cauchyLib A D) w trav weights = .ok pot ∧
      ∀ i, i < (if c.args.targets = none then ns else nt) →
        ‖pot i - potential c ns weights i‖ ≤
          18 * (4 / 5) ^ (p + 1) * strength c ns weights i := by
  have hsq : √2 ≤ 142 / 100 := by
    rw [Real.sqrt_le_left (by norm_num)]; norm_num
  have hu := hfl.nonneg_u
  have hB0 : 0 ≤ B := by
    obtain ⟨a, ha, p, hp, q, hq, hpq⟩ := hW
    have h1 := hB a ha p hp
    have h2 := hB a ha q hq
    have h3 := abs_sub (c.coord ns a p) (c.coord ns a q)
    have h4 := le_abs_self (c.coord ns a p - c.coord ns a q)
    have h5 := hd.radius_nonneg p hp
    have h6 := hd.radius_nonneg q hq
    linarith
  obtain ⟨pot, p1, p2⟩ := call_error c ns nt dtype hd hw hr hdim t h tin hi trav ht w dipoles hwr hk hf p
    hp weights angle hrot (16 * u * B) (1 / 8) (by positivity)
    (fun b hb => by linarith [hsmall b hb]) (by norm_num) (4 / 5) (by norm_num)
    (by push_cast; linarith) (by norm_num)
    (fun b hb => C64_call_partial c ns nt dtype hd hw fl rt u B W hfl hx hbox hB hW hW0 hres t h b hb)
  refine ⟨pot, p1, fun i hlt => (p2 i hlt).trans (le_of_eq ?_)⟩
  norm_num

namespace Ex

/-- All hypotheses of `C80_fmm_converges_partial` hold together, for every order and all strengths. -/
example (p : Nat) (weights : Nat → ℂ) (d : Nat → ℚ) : ∃ t trav pot, call.run = .ok t ∧
    buildTraversal (callTrav t) = .ok trav ∧
    drive t.tree t.particles.toParticles (cauchyLib ℚ ℚ) { callWrangler t d with order := fun _ => p }
      trav weights = .ok pot ∧
    ∀ i, i < 3 → ‖pot i - potential call 3 weights i‖ ≤
      12 * (√2 / 2) ^ (p + 1) * strength call 3 weights i := by
  obtain ⟨t, trav, h1, h2, _⟩ := call_runs
  have hi : CallTrav call t (callTrav t) :=
    ⟨rfl, rfl, le_refl _, le_refl _, by show (1 / 1024 : ℚ) ≤ 1 / 12; norm_num, rfl, rfl, trivial⟩
  obtain ⟨pot, p1, p2⟩ := C80_fmm_converges_partial call 3 0 _ call_documented (Or.inl (by decide))
    (fun _ => ⟨rfl, rfl⟩) rfl rfl t h1 _ hi trav h2 { callWrangler t d with order := fun _ => p } (some d)
    ⟨fun _ _ => rfl, fun _ _ => rfl, rfl, rfl⟩ rfl (by norm_num [callWrangler]) p (fun _ => le_rfl)
    weights (fun _ _ => 0) (by intro _ _ h; cases h)
  exact ⟨t, trav, pot, h1, h2, p1, p2⟩

theorem callF_runs : ∃ t trav, callF.run = .ok t ∧ buildTraversal (callTrav t) = .ok trav ∧
    ∀ b, b < t.tree.nboxes → 128 * (1 / 2 ^ 53) * 4 ≤ t.tree.rad (t.tree.level b) := by
  have h : look callF.run (fun t => match buildTraversal (callTrav t) with
      | .ok _ => [decide (∀ b, b < t.tree.nboxes →
          128 * (1 / 2 ^ 53) * 4 ≤ t.tree.rad (t.tree.level b))]
      | .error _ => []) = [true] := by decide +kernel
  unfold look at h
  split at h
  · rename_i t ht
    simp only at h
    split at h
    · rename_i trav htrav
      simp only [List.cons.injEq, and_true, decide_eq_true_eq] at h
      exact ⟨t, trav, ht, htrav, h⟩
    · cases h
  · cases h

/-- All hypotheses of `C80_rounded_partial` hold together, in double precision. -/
example (p : Nat) (weights : Nat → ℂ) (d : Nat → ℚ) : ∃ t trav pot, callF.run = .ok t ∧
    buildTraversal (callTrav t) = .ok trav ∧
    drive t.tree t.particles.toParticles (cauchyLib ℚ ℚ) { callWrangler t d with order := fun _ => p }
      trav weights = .ok pot ∧
    ∀ i, i < 3 → ‖pot i - potential callF 3 weights i‖ ≤
      18 * (4 / 5) ^ (p + 1) * strength callF 3 weights i := by
  obtain ⟨t, trav, h1, h2, hb⟩ := callF_runs
  have hi : CallTrav callF t (callTrav t) :=
    ⟨rfl, rfl, le_refl _, le_refl _, by show (1 / 1024 : ℚ) ≤ 1 / 12; norm_num, rfl, rfl, trivial⟩
  obtain ⟨pot, p1, p2⟩ := C80_rounded_partial callF 3 0 _ callF_documented (Or.inl (by decide))
    (fun _ => ⟨rfl, rfl⟩) rfl (roundTo 53) (rootTo 53) (1 / 2 ^ 53) 4 3 (roundTo_rounds (by decide)) rfl rfl
    (by decide +kernel) ⟨0, by decide, 2, by decide, 0, by decide, by decide +kernel⟩ (by norm_num)
    (by norm_num) t h1 hb _ hi trav h2 { callWrangler t d with order := fun _ => p } (some d)
    ⟨fun _ _ => rfl, fun _ _ => rfl, rfl, rfl⟩ rfl (by norm_num [callWrangler]) p (fun _ => le_rfl)
    weights (fun _ _ => 0) (by intro _ _ h; cases h)
  exact ⟨t, trav, pot, h1, h2, p1, p2⟩

end Ex

end Boxtree.Build
