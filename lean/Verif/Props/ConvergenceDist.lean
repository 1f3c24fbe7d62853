import Verif.Props.Convergence
import Verif.Props.DistFmmLibBuilt

/-!
# C80 on many ranks
-/

namespace Boxtree.Build
open BoxTree Boxtree.Dist Boxtree.FmmLib Series

variable {A D : Type}

/-- **C80 (distributed).** The distributed FMM converges at the same rate as the one on a single
process, however the boxes are distributed over ranks and in whatever order the ranks progress and
messages arrive: at every target of the user the error is at most `12 (√2/2)^(p + 1)` times the sum of
the absolute values of the contributions.

Partial: without radii for the kinds other than `"adaptive"` (C20, C55) and without `skip_prune`
(C57). -/
theorem C80_distributed_partial (c : Call)
    (ns nt : Nat) (dtype : String) (hd : c.Documented ns nt dtype) (hw : c.SomeWeight)
    (hp : c.skipPrune = false)
    (hr : c.args.kind ≠ "adaptive" → c.args.sourceRadii = none ∧ c.args.targetRadii = none)
    (hdim : c.args.particles.length = 2) (hx : c.arith = .exact)
    (t : Built) (h : c.run = .ok t) (tin : TravInput) (hi : CallTrav c t tin)
    (hmin : tin.targetsHaveExtent = true → tin.minNsources.getD 0 = 0)
    (trav : Traversal) (ht : buildTraversal tin = .ok trav) (cost : Nat → ℚ) (size : Nat)
    (h0 : 0 < size) (parts : List (List Nat))
    (hparts : partitionWork t.tree cost size = .ok (parts.map some))
    (w : Wrangler A D) (dipoles : Option (Nat → D)) (dip : Nat → Option (Nat → D))
    (hwr : DistWranglerFor (worldOf t tin trav size parts) t w dipoles dip)
    (hk : w.kernel = .laplace) (hf : w.rscaleFactor ≠ 0) (p : Nat) (hord : ∀ l, p ≤ w.order l)
    (weights : Nat → ℂ) (angle : Nat → Nat → A)
    (rot : Nat → Option (List ℤ × List A)) :
    ∃ travs : Nat → Traversal,
      (∀ r, r < size →
        buildTraversal ((worldOf t tin trav size parts).localInput r) = .ok (travs r)) ∧
      ((∀ r, r < size → RotationOK (travs r)
          (rankWrangler (worldOf t tin trav size parts) w dip rot r) angle) →
        ∀ (rendezvous : Bool) (n : Nat) (σ : NetState ℂ),
          Steps rendezvous (distSetup (worldOf t tin trav size parts) w) n
            (distStart (worldOf t tin trav size parts) (cauchyLib A D) w dip rot travs weights) σ →
          (∀ τ, ¬ Step rendezvous (distSetup (worldOf t tin trav size parts) w) σ τ) →
            ∀ junk : Nat → ℂ, ∃ pot,
              distResult (worldOf t tin trav size parts) (cauchyLib A D) w dip rot travs weights
                (fun r => (σ.ranks r).data.mp) junk = .ok pot ∧
              ∀ i, i < (if c.args.targets = none then ns else nt) →
                ‖pot i - potential c ns weights i‖ ≤
                  12 * (√2 / 2) ^ (p + 1) * strength c ns weights i) := by
  have hsq : √2 ≤ 1415 / 1000 := by
    rw [Real.sqrt_le_left (by norm_num)]; norm_num
  obtain ⟨g1, g2, g3, g4, g5⟩ := documented_call_world c ns nt dtype hd hw hp hr (Or.inl hdim) t h tin hi
    hmin trav ht cost size h0 parts hparts w dipoles dip hwr weights
  obtain ⟨e, hheld⟩ := call_held c ns nt dtype hd hw (fun hk => hr (by rw [hk]; decide)) hdim t h tin hi
    { w with dipoleVec := dipoles, dipolesAlreadyReordered := false } dipoles
    ⟨hwr.sources, hwr.targets, rfl, rfl⟩ weights 0 (exact_near c ns nt dtype hd hw hx t h)
  have S : Setting tin t.particles.toParticles w (userSrc c weights dipoles) (userTgt c) 0 0 (√2 / 2) p :=
    ⟨g1.ok.wf, e, hi.nAway, hf, hord, hheld, le_rfl, fun b _ => by rw [zero_mul], by norm_num,
      by push_cast; linarith, by linarith⟩
  choose travs htr using C40_local_traversals_build _ g1
  refine ⟨travs, fun r _ => htr r, fun hrot rv n σ hrun hmax junk => ?_⟩
  have hfin : ∀ r, r < (worldOf t tin trav size parts).size → (σ.ranks r).finished :=
    fun r hr => C36_maximal_runs_finish (distSetup (worldOf t tin trav size parts) w) _ _ _ rv n σ
      hrun hmax r hr
  obtain ⟨pot, h1, h2⟩ := C62_distributed_respects (worldOf t tin trav size parts) g1 travs
    (fun r _ => htr r) (Or.inl e) (cauchyLib A D) w dip rot weights _ _ angle _ _ _
    (chain_respects tin g1.ok.wf t.particles.toParticles _ w (cauchy_linear _ w e hk)
      (userSrc c weights dipoles) (userTgt c) angle) g3 hrot rv n σ hrun hfin junk
  refine ⟨pot, h1, fun i hlt => ?_⟩
  have hi' : i < t.particles.toParticles.ntargets := by
    show i < t.particles.ntargets
    rw [g5]; exact hlt
  obtain ⟨z, h3, L, h4, h5, rfl⟩ := h2 i hi'
  obtain ⟨g, hg, hs⟩ := sum_of_perm L _ h4
  have e2 : pot i = ∑ j ∈ Finset.range ns, g j := by
    rw [h3, hs, ← g4]
    rfl
  rw [e2, potential, strength, ← Finset.sum_sub_distrib, Finset.mul_sum]
  refine (norm_sum_le _ _).trans (Finset.sum_le_sum fun j hj => ?_)
  have hj := Finset.mem_range.1 hj
  refine (chain_error S (by positivity) hi' (h5 _ (hg j (by
    show j < t.particles.nsources
    rw [g4]; exact hj)))).trans ?_
  refine mul_le_mul_of_nonneg_right ?_ (by positivity)
  unfold tail
  rw [mul_div_assoc', div_le_iff₀ (by linarith), mul_assoc, mul_assoc, mul_comm ((√2 / 2) ^ (p + 1)),
    ← mul_assoc, ← mul_assoc]
  exact mul_le_mul_of_nonneg_right (by linarith) (by positivity)

namespace Ex

/-- The hypotheses of `C80_distributed_partial` hold together, on two ranks. -/
example (p : Nat) (weights : Nat → ℂ) (d : Nat → ℚ) (junk : Nat → ℂ) : ∃ t trav V w dip travs n σ pot,
    call.run = .ok t ∧
    buildTraversal (callTrav t) = .ok trav ∧
    V = worldOf t (callTrav t) trav 2 [[0, 3, 2], [1]] ∧
    DistWranglerFor V t w (some d) dip ∧
    Steps true (distSetup V w) n
      (distStart V (cauchyLib ℚ ℚ) w dip (fun _ => none) travs weights) σ ∧
    distResult V (cauchyLib ℚ ℚ) w dip (fun _ => none) travs weights
      (fun r => (σ.ranks r).data.mp) junk = .ok pot ∧
    ∀ i, i < 3 → ‖pot i - potential call 3 weights i‖ ≤
      12 * (√2 / 2) ^ (p + 1) * strength call 3 weights i := by
  obtain ⟨t, trav, h1, h2, h3, _⟩ := call_distributes
  have hi : CallTrav call t (callTrav t) :=
    ⟨rfl, rfl, le_refl _, le_refl _, by show (1 / 1024 : ℚ) ≤ 1 / 12; norm_num, rfl, rfl, trivial⟩
  have hsw : call.SomeWeight := Or.inl (by decide)
  let V := worldOf t (callTrav t) trav 2 [[0, 3, 2], [1]]
  let w : Wrangler ℚ ℚ := { distCallWrangler t with order := fun _ => p }
  let dip : Nat → Option (Nat → ℚ) := fun r => some fun k =>
    d (t.particles.userSourceIds ((V.localTree r).sources.particleIdx.getD k 0))
  have hwr : DistWranglerFor V t w (some d) dip :=
    ⟨fun _ _ => rfl, fun _ _ => rfl, fun _ _ => rfl, fun _ => rfl⟩
  obtain ⟨travs, _, hres⟩ := C80_distributed_partial call 3 0 _ call_documented hsw rfl
    (fun _ => ⟨rfl, rfl⟩) rfl rfl t h1 (callTrav t) hi (fun h => by cases h) trav h2
    (fun _ => 1) 2 (by decide) _ h3 w (some d) dip hwr rfl
    (by norm_num [w, distCallWrangler, callWrangler]) p (fun _ => le_rfl) weights (fun _ _ => 0)
    (fun _ => none)
  obtain ⟨n, σ, hrun, hmax⟩ := C57_maximal_run_exists (distSetup V w)
    (fun r => viewOf w V.inp.tree (rankMpoles V (cauchyLib ℚ ℚ) w dip (fun _ => none) travs weights r))
    _ _ true
  obtain ⟨pot, p1, p2⟩ := hres (by intro _ _ _ _ h; cases h) true n σ hrun hmax junk
  exact ⟨t, trav, V, w, dip, travs, n, σ, pot, h1, h2, rfl, hwr, hrun, p1, p2⟩

end Ex

end Boxtree.Build
