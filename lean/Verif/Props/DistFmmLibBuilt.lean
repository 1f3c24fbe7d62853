import Verif.Props.DistFmmLib
import Verif.Props.DistBuilt
import Verif.Props.FmmLibBuilt

/-!
# C63: from the arguments of the tree builder to potentials on many ranks
-/

namespace Boxtree.Build
open BoxTree Boxtree.Dist Boxtree.FmmLib

variable {A W D C P : Type}

/-- The wranglers of the ranks are made for the tree `t`: `w` holds the coordinates of the tree, and
the dipole vectors of a rank are those of its sources in the order of the local tree. -/
structure DistWranglerFor (V : World) (t : Built) (w : Wrangler A D) (dirs : Option (Nat → D))
    (dip : Nat → Option (Nat → D)) : Prop where
  sources : ∀ j a, w.sources j a = t.sources a j
  targets : ∀ j a, w.targets j a = t.targets a j
  dipoles : ∀ r, r < V.size → dip r = dirs.map fun d k =>
    d (t.particles.userSourceIds ((V.localTree r).sources.particleIdx.getD k 0))
  reordered : dirs.isSome = true → w.dipolesAlreadyReordered = true

/-- What C62 asks holds for everything that comes out of a documented call and `partition_work`. -/
theorem documented_call_world (c : Call) (ns nt : Nat) (dtype : String)
    (hd : c.Documented ns nt dtype) (hw : c.SomeWeight) (hp : c.skipPrune = false)
    (hr : c.args.kind ≠ "adaptive" → c.args.sourceRadii = none ∧ c.args.targetRadii = none)
    (hdim : c.args.particles.length = 2 ∨ c.args.particles.length = 3)
    (t : Built) (h : c.run = .ok t) (tin : TravInput) (hi : CallTrav c t tin)
    (hmin : tin.targetsHaveExtent = true → tin.minNsources.getD 0 = 0)
    (trav : Traversal) (ht : buildTraversal tin = .ok trav) (cost : Nat → ℚ) (size : Nat)
    (h0 : 0 < size) (parts : List (List Nat))
    (hparts : partitionWork t.tree cost size = .ok (parts.map some))
    (w : Wrangler A D) (dipoles : Option (Nat → D)) (dip : Nat → Option (Nat → D))
    (hwr : DistWranglerFor (worldOf t tin trav size parts) t w dipoles dip)
    (weights : Nat → W) :
    (worldOf t tin trav size parts).OK ∧ tin.tree.dims = c.args.particles.length ∧
    DistHolds (worldOf t tin trav size parts) w dip weights (userSrc c weights dipoles)
      (userTgt c) ∧
    t.particles.nsources = ns ∧
    t.particles.ntargets = if c.args.targets = none then ns else nt := by
  have hh := documented_call_holds c ns nt dtype hd hw (fun hk => hr (by rw [hk]; decide)) hdim t h
    tin hi { w with dipoleVec := dipoles, dipolesAlreadyReordered := false } dipoles
    ⟨hwr.sources, hwr.targets, rfl, rfl⟩ weights
  obtain ⟨inp, h1, ok, _, hin⟩ :=
    C56_documented_call c ns nt dtype hd hw
  rw [h1] at h
  have hext : c.args.kind ≠ "adaptive" → inp.haveExtent = false := by
    intro hk
    obtain ⟨r1, r2⟩ := hr hk
    unfold Input.haveExtent
    rw [hin.sourcesHaveExtent, hin.targetsHaveExtent, r1, r2]
    rfl
  have hreg : inp.Regular := by
    by_cases hl : inp.levelRestrict = true
    · exact Or.inr (hext (by rw [hin.levelRestrict.1 hl]; decide))
    · left
      simpa using hl
  have ha : inp.adaptive = true ∨ inp.haveExtent = false := by
    by_cases hl : inp.adaptive = false
    · exact Or.inr (hext (by rw [hin.adaptive.1 hl]; decide))
    · left
      simpa using hl
  have hT : TravOf inp t tin :=
    ⟨hi.tree, by rw [hi.sourcesAreTargets, hin.sourcesAreTargets], hi.nAway, hi.stickOut, hi.eps, hi.noMask,
      hi.noParentMask, hi.tests⟩
  refine ⟨worldOf_ok ok hreg (hin.prune.trans hp) ha h hT hmin ht h0 hparts, ?_, ?_, hh.2.2.2.2.2.1,
    hh.2.2.2.2.2.2⟩
  · rw [hi.tree, (C52_built_tree_wf inp ok t h).2.2.2.1, hin.dims]
  · have hH := hh.2.2.2.2.1
    refine ⟨hH.pos, hH.weight, ?_, ?_, hH.target⟩
    · intro r hr k hk
      rw [hwr.dipoles r hr]
      cases dipoles <;> rfl
    · intro r hr hs
      apply hwr.reordered
      rw [hwr.dipoles r hr] at hs
      simpa using hs

/-- **C63.** From the user's arrays to potentials on many ranks: the tree is built from documented
arguments in two or three dimensions, its boxes are distributed with `partition_work` for any cost
estimate, every rank makes its local tree, traversal and `pyfmmlib` wrangler, and the library is
exact.  Then every run of the distributed FMM, for every order of progress and messages, comes to an
end, and the root returns, at every target of the user and in the user's order, the scaled sum over
the user's sources of the potential of the source.

Partial: without radii for the kinds other than `"adaptive"` (C20, C55) and without `skip_prune`
(C57), where the claim is false. -/
theorem C63_distributed_potentials_partial [AddCommMonoid C] [AddCommMonoid P] (c : Call)
    (ns nt : Nat) (dtype : String) (hd : c.Documented ns nt dtype) (hw : c.SomeWeight)
    (hp : c.skipPrune = false)
    (hr : c.args.kind ≠ "adaptive" → c.args.sourceRadii = none ∧ c.args.targetRadii = none)
    (hdim : c.args.particles.length = 2 ∨ c.args.particles.length = 3)
    (t : Built) (h : c.run = .ok t) (tin : TravInput) (hi : CallTrav c t tin)
    (hmin : tin.targetsHaveExtent = true → tin.minNsources.getD 0 = 0)
    (trav : Traversal) (ht : buildTraversal tin = .ok trav) (cost : Nat → ℚ) (size : Nat)
    (h0 : 0 < size) (parts : List (List Nat))
    (hparts : partitionWork t.tree cost size = .ok (parts.map some))
    (w : Wrangler A D) (dipoles : Option (Nat → D)) (dip : Nat → Option (Nat → D))
    (hwr : DistWranglerFor (worldOf t tin trav size parts) t w dipoles dip)
    (weights : Nat → W) (R : Lib A W D C P) (angle : Nat → Nat → A)
    (K : Src W D → (Nat → ℚ) → P) (MP LOC : Nat → List C → Multiset Nat → Prop)
    (hE : Exact tin t.particles.toParticles R w (userSrc c weights dipoles) (userTgt c) angle
      (fun i j => K (userSrc c weights dipoles j) (userTgt c i)) MP LOC)
    (rot : Nat → Option (List ℤ × List A)) :
    ∃ travs : Nat → Traversal,
      (∀ r, r < size →
        buildTraversal ((worldOf t tin trav size parts).localInput r) = .ok (travs r)) ∧
      ((∀ r, r < size → RotationOK (travs r)
          (rankWrangler (worldOf t tin trav size parts) w dip rot r) angle) →
        ∀ (rendezvous : Bool) (n : Nat) (σ : NetState C),
          Steps rendezvous (distSetup (worldOf t tin trav size parts) w) n
            (distStart (worldOf t tin trav size parts) R w dip rot travs weights) σ →
          n ≤ size * (4 * size + 3) ∧
          ((∀ τ, ¬ Step rendezvous (distSetup (worldOf t tin trav size parts) w) σ τ) →
            ∀ junk : Nat → P, ∃ pot,
              distResult (worldOf t tin trav size parts) R w dip rot travs weights
                (fun r => (σ.ranks r).data.mp) junk = .ok pot ∧
              ∀ i, i < (if c.args.targets = none then ns else nt) →
                pot i = R.scale w.kernel c.args.particles.length
                  (∑ j ∈ Finset.range ns, K (userSrc c weights dipoles j) (userTgt c i)))) := by
  obtain ⟨g1, g2, g3, g4, g5⟩ := documented_call_world c ns nt dtype hd hw hp hr hdim t h tin hi hmin
    trav ht cost size h0 parts hparts w dipoles dip hwr weights
  choose travs htr using C40_local_traversals_build _ g1
  refine ⟨travs, fun r _ => htr r, fun hrot rv n σ hrun => ⟨?_, fun hmax junk => ?_⟩⟩
  · exact C36_terminates (distSetup (worldOf t tin trav size parts) w) _ _ _ rv n σ hrun
  · have hfin : ∀ r, r < (worldOf t tin trav size parts).size → (σ.ranks r).finished :=
      fun r hr => C36_maximal_runs_finish (distSetup (worldOf t tin trav size parts) w) _ _ _ rv n σ
        hrun hmax r hr
    obtain ⟨pot, p1, p2, -⟩ := C62_distributed_exact (worldOf t tin trav size parts) g1 travs
      (fun r _ => htr r) (by show tin.tree.dims = 2 ∨ tin.tree.dims = 3; rw [g2]; exact hdim)
      R w dip rot weights _ _ angle _ MP LOC hE g3 hrot rv n σ hrun hfin junk
    refine ⟨pot, p1, fun i hlt => ?_⟩
    have := p2 i (by show i < t.particles.ntargets; rw [g5]; exact hlt)
    rw [this]
    show R.scale _ tin.tree.dims (∑ j ∈ Finset.range t.particles.nsources, _) = _
    rw [g2, g4]

/-- **C63 (error bound).** The same with a library that is linear but has errors: at every target of
the user the result is within the sum of the errors of the chains of translations of the sum over
the user's sources.  Partial as above. -/
theorem C63_distributed_error_partial [AddCommMonoid C] [AddCommGroup P] [LinearOrder P]
    [IsOrderedAddMonoid P] (c : Call)
    (ns nt : Nat) (dtype : String) (hd : c.Documented ns nt dtype) (hw : c.SomeWeight)
    (hp : c.skipPrune = false)
    (hr : c.args.kind ≠ "adaptive" → c.args.sourceRadii = none ∧ c.args.targetRadii = none)
    (hdim : c.args.particles.length = 2 ∨ c.args.particles.length = 3)
    (t : Built) (h : c.run = .ok t) (tin : TravInput) (hi : CallTrav c t tin)
    (hmin : tin.targetsHaveExtent = true → tin.minNsources.getD 0 = 0)
    (trav : Traversal) (ht : buildTraversal tin = .ok trav) (cost : Nat → ℚ) (size : Nat)
    (h0 : 0 < size) (parts : List (List Nat))
    (hparts : partitionWork t.tree cost size = .ok (parts.map some))
    (w : Wrangler A D) (dipoles : Option (Nat → D)) (dip : Nat → Option (Nat → D))
    (hwr : DistWranglerFor (worldOf t tin trav size parts) t w dipoles dip)
    (weights : Nat → W) (R : Lib A W D C P) (hR : Linear tin.tree w R) (angle : Nat → Nat → A)
    (K : Src W D → (Nat → ℚ) → P) (ε : Nat → Nat → P)
    (hacc : ∀ i j p, i < (if c.args.targets = none then ns else nt) → j < ns →
      Chain tin t.particles.toParticles R w (userSrc c weights dipoles) (userTgt c) angle i j p →
      |p - K (userSrc c weights dipoles j) (userTgt c i)| ≤ ε i j)
    (rot : Nat → Option (List ℤ × List A)) :
    ∃ travs : Nat → Traversal,
      (∀ r, r < size →
        buildTraversal ((worldOf t tin trav size parts).localInput r) = .ok (travs r)) ∧
      ((∀ r, r < size → RotationOK (travs r)
          (rankWrangler (worldOf t tin trav size parts) w dip rot r) angle) →
        ∀ (rendezvous : Bool) (n : Nat) (σ : NetState C),
          Steps rendezvous (distSetup (worldOf t tin trav size parts) w) n
            (distStart (worldOf t tin trav size parts) R w dip rot travs weights) σ →
          (∀ τ, ¬ Step rendezvous (distSetup (worldOf t tin trav size parts) w) σ τ) →
            ∀ junk : Nat → P, ∃ pot,
              distResult (worldOf t tin trav size parts) R w dip rot travs weights
                (fun r => (σ.ranks r).data.mp) junk = .ok pot ∧
              ∀ i, i < (if c.args.targets = none then ns else nt) →
                ∃ p, pot i = R.scale w.kernel c.args.particles.length p ∧
                  |p - ∑ j ∈ Finset.range ns, K (userSrc c weights dipoles j) (userTgt c i)| ≤
                    ∑ j ∈ Finset.range ns, ε i j) := by
  obtain ⟨g1, g2, g3, g4, g5⟩ := documented_call_world c ns nt dtype hd hw hp hr hdim t h tin hi hmin
    trav ht cost size h0 parts hparts w dipoles dip hwr weights
  choose travs htr using C40_local_traversals_build _ g1
  refine ⟨travs, fun r _ => htr r, fun hrot rv n σ hrun hmax junk => ?_⟩
  have hfin : ∀ r, r < (worldOf t tin trav size parts).size → (σ.ranks r).finished :=
    fun r hr => C36_maximal_runs_finish (distSetup (worldOf t tin trav size parts) w) _ _ _ rv n σ
      hrun hmax r hr
  obtain ⟨pot, p1, p2⟩ := C62_error_bound (worldOf t tin trav size parts) g1 travs
    (fun r _ => htr r) (by show tin.tree.dims = 2 ∨ tin.tree.dims = 3; rw [g2]; exact hdim)
    R w hR dip rot weights _ _ angle g3 hrot
    (fun i j => K (userSrc c weights dipoles j) (userTgt c i)) ε
    (fun i j p hi' hj' => hacc i j p
      (by rw [← g5]; exact hi') (by rw [← g4]; exact hj')) rv n σ hrun hfin junk
  refine ⟨pot, p1, fun i hlt => ?_⟩
  obtain ⟨p, q1, q2⟩ := p2 i (by show i < t.particles.ntargets; rw [g5]; exact hlt)
  refine ⟨p, ?_, ?_⟩
  · rw [← g2]; exact q1
  · rw [← g4]; exact q2

namespace Ex

/-- The wrangler of `callWrangler` for many ranks: dipole directions already sorted. -/
def distCallWrangler (t : Built) : Wrangler ℚ ℚ :=
  { callWrangler t (fun _ => 0) with dipoleVec := none, dipolesAlreadyReordered := true }

theorem call_distributes : ∃ t trav, call.run = .ok t ∧ buildTraversal (callTrav t) = .ok trav ∧
    partitionWork t.tree (fun _ => 1) 2 = .ok (List.map some [[0, 3, 2], [1]]) ∧
    ∀ b, b < t.tree.nboxes → FmmLib.Ex.In 0 8 (t.tree.center b 0) := by
  have h : look call.run (fun t => match buildTraversal (callTrav t) with
      | .ok _ => [partitionWork t.tree (fun _ => 1) 2]
      | .error _ => []) = [.ok [some [0, 3, 2], some [1]]] := by decide +kernel
  obtain ⟨t, trav, h1, h2, h3⟩ := call_runs
  refine ⟨t, trav, h1, h2, ?_, h3⟩
  unfold look at h
  rw [h1] at h
  simp only at h
  rw [h2] at h
  simpa using h

/-- All hypotheses of `C63_distributed_potentials_partial` hold together: three sources that are also
the targets, with dipole directions, on two ranks that both have boxes, for all strengths. -/
example (weights d : Nat → ℚ) (junk : Nat → ℚ) : ∃ t trav V w dip travs n σ pot,
    call.run = .ok t ∧
    buildTraversal (callTrav t) = .ok trav ∧
    V = worldOf t (callTrav t) trav 2 [[0, 3, 2], [1]] ∧
    DistWranglerFor V t w (some d) dip ∧
    Steps true (distSetup V w) n
      (distStart V FmmLib.Ex.linLib w dip (fun _ => none) travs weights) σ ∧
    distResult V FmmLib.Ex.linLib w dip (fun _ => none) travs weights
      (fun r => (σ.ranks r).data.mp) junk = .ok pot ∧
    ∀ i, i < 3 → pot i = -∑ j ∈ Finset.range 3,
      weights j * ([1, 2, 4].getD i 0 - [1, 2, 4].getD j 0) := by
  obtain ⟨t, trav, h1, h2, h3, _⟩ := call_distributes
  have hi : CallTrav call t (callTrav t) :=
    ⟨rfl, rfl, le_refl _, le_refl _, by show (1 / 1024 : ℚ) ≤ 1 / 12; norm_num, rfl, rfl, trivial⟩
  have hsw : call.SomeWeight := Or.inl (by decide)
  let V := worldOf t (callTrav t) trav 2 [[0, 3, 2], [1]]
  let dip : Nat → Option (Nat → ℚ) := fun r => some fun k =>
    d (t.particles.userSourceIds ((V.localTree r).sources.particleIdx.getD k 0))
  have hwr : DistWranglerFor V t (distCallWrangler t) (some d) dip :=
    ⟨fun _ _ => rfl, fun _ _ => rfl, fun _ _ => rfl, fun _ => rfl⟩
  obtain ⟨g1, g2, -⟩ := documented_call_world call 3 0 _ call_documented hsw rfl
    (fun _ => ⟨rfl, rfl⟩) (Or.inl rfl) t h1 (callTrav t) hi (fun h => by cases h) trav h2
    (fun _ => 1) 2 (by decide) _ h3 (distCallWrangler t) (some d) dip hwr weights
  obtain ⟨travs, _, hres⟩ := C63_distributed_potentials_partial call 3 0 _ call_documented hsw rfl
    (fun _ => ⟨rfl, rfl⟩) (Or.inl rfl) t h1 (callTrav t) hi (fun h => by cases h) trav h2
    (fun _ => 1) 2 (by decide) _ h3 (distCallWrangler t) (some d) dip hwr weights
    FmmLib.Ex.linLib (fun _ _ => 0) (fun s x => s.weight * (x 0 - s.pos 0)) _ _
    (FmmLib.Ex.linLib_exact (callTrav t) (distCallWrangler t) (userSrc call weights (some d))
      t.particles.toParticles (userTgt call) (fun _ _ => 0) g1.ok.wf g2 rfl
      (fun l => by simp [distCallWrangler, callWrangler])
      (by norm_num [distCallWrangler, callWrangler])) (fun _ => none)
  obtain ⟨n, σ, hrun, hmax⟩ := C57_maximal_run_exists (distSetup V (distCallWrangler t))
    (fun r => viewOf (distCallWrangler t) V.inp.tree (rankMpoles V FmmLib.Ex.linLib
      (distCallWrangler t) dip (fun _ => none) travs weights r)) _ _ true
  obtain ⟨-, hres⟩ := hres (by intro _ _ _ _ h; cases h) true n σ hrun
  obtain ⟨pot, p1, p2⟩ := hres hmax junk
  exact ⟨t, trav, V, _, dip, travs, n, σ, pot, h1, h2, rfl, hwr, hrun, p1, p2⟩

/-- The hypotheses of `C63_distributed_error_partial` hold together, for a library with errors. -/
example (weights d : Nat → ℚ) (junk : Nat → ℚ) : ∃ t trav V w dip travs n σ pot,
    call.run = .ok t ∧
    buildTraversal (callTrav t) = .ok trav ∧
    V = worldOf t (callTrav t) trav 2 [[0, 3, 2], [1]] ∧
    DistWranglerFor V t w (some d) dip ∧
    Steps true (distSetup V w) n
      (distStart V FmmLib.Ex.monoLib w dip (fun _ => none) travs weights) σ ∧
    distResult V FmmLib.Ex.monoLib w dip (fun _ => none) travs weights
      (fun r => (σ.ranks r).data.mp) junk = .ok pot ∧
    ∀ i, i < 3 → ∃ p, pot i = -p ∧ |p - ∑ j ∈ Finset.range 3,
      weights j * ([1, 2, 4].getD i 0 - [1, 2, 4].getD j 0)| ≤
        ∑ j ∈ Finset.range 3, 2 * 8 * |weights j| := by
  obtain ⟨t, trav, h1, h2, h3, hc⟩ := call_distributes
  have hi : CallTrav call t (callTrav t) :=
    ⟨rfl, rfl, le_refl _, le_refl _, by show (1 / 1024 : ℚ) ≤ 1 / 12; norm_num, rfl, rfl, trivial⟩
  have hsw : call.SomeWeight := Or.inl (by decide)
  let V := worldOf t (callTrav t) trav 2 [[0, 3, 2], [1]]
  let dip : Nat → Option (Nat → ℚ) := fun r => some fun k =>
    d (t.particles.userSourceIds ((V.localTree r).sources.particleIdx.getD k 0))
  have hwr : DistWranglerFor V t (distCallWrangler t) (some d) dip :=
    ⟨fun _ _ => rfl, fun _ _ => rfl, fun _ _ => rfl, fun _ => rfl⟩
  have hpt : ∀ j, j < 3 → FmmLib.Ex.In 0 8 (call.src 0 j) := by
    unfold FmmLib.Ex.In; decide +kernel
  obtain ⟨g1, g2, -⟩ := documented_call_world call 3 0 _ call_documented hsw rfl
    (fun _ => ⟨rfl, rfl⟩) (Or.inl rfl) t h1 (callTrav t) hi (fun h => by cases h) trav h2
    (fun _ => 1) 2 (by decide) _ h3 (distCallWrangler t) (some d) dip hwr weights
  obtain ⟨travs, _, hres⟩ := C63_distributed_error_partial call 3 0 _ call_documented hsw rfl
    (fun _ => ⟨rfl, rfl⟩) (Or.inl rfl) t h1 (callTrav t) hi (fun h => by cases h) trav h2
    (fun _ => 1) 2 (by decide) _ h3 (distCallWrangler t) (some d) dip hwr weights
    FmmLib.Ex.monoLib (FmmLib.Ex.monoLib_linear _ _ g2 rfl) (fun _ _ => 0)
    (fun s x => s.weight * (x 0 - s.pos 0)) (fun _ j => 2 * 8 * |weights j|)
    (fun i j p hi hj hch => by
      have := FmmLib.Ex.mono_acc (callTrav t) (distCallWrangler t) (userSrc call weights (some d))
        t.particles.toParticles (userTgt call) (fun _ _ => 0) 0 8 hc (i := i) (j := j)
        (hpt j hj) (hpt i hi) hch
      exact this) (fun _ => none)
  obtain ⟨n, σ, hrun, hmax⟩ := C57_maximal_run_exists (distSetup V (distCallWrangler t))
    (fun r => viewOf (distCallWrangler t) V.inp.tree (rankMpoles V FmmLib.Ex.monoLib
      (distCallWrangler t) dip (fun _ => none) travs weights r)) _ _ true
  obtain ⟨pot, p1, p2⟩ := hres (by intro _ _ _ _ h; cases h) true n σ hrun hmax junk
  exact ⟨t, trav, V, _, dip, travs, n, σ, pot, h1, h2, rfl, hwr, hrun, p1, p2⟩

end Ex

end Boxtree.Build
