import Verif.Props.FmmLibChain
import Verif.Props.BuildCall

/-!
# C61: from the arguments of the tree builder to potentials with the `pyfmmlib` wrangler
-/

namespace Boxtree.Build
open BoxTree Boxtree.FmmLib

variable {A W D C P : Type}

/-- The traversal is made for the tree `t` of the call `c`. -/
structure CallTrav (c : Call) (t : Built) (tin : TravInput) : Prop where
  tree : tin.tree = t.tree
  sourcesAreTargets : tin.sourcesAreTargets = c.args.targets.isNone
  nAway : 1 ≤ tin.nAway
  stickOut : 0 ≤ tin.stickOut
  eps : tin.eps ≤ 1 / 12
  noMask : tin.srcMask = none
  noParentMask : tin.srcParentMask = none
  /-- the device decides the geometric tests well enough -/
  tests : tin.TestsOK

/-- The user's sources: coordinates from the arguments of the tree builder, strengths and dipole
directions in user order. -/
def userSrc (c : Call) (weights : Nat → W) (dipoles : Option (Nat → D)) (j : Nat) : Src W D :=
  ⟨fun a => c.src a j, weights j, dipoles.map fun d => d j⟩

/-- The user's targets: the separate targets if given, else the sources. -/
def userTgt (c : Call) (i : Nat) : Nat → ℚ := fun a =>
  if c.args.targets = none then c.src a i else c.tgt a i

/-- The wrangler is made for the tree `t`, with dipole directions in user order. -/
structure WranglerFor (t : Built) (w : Wrangler A D) (dipoles : Option (Nat → D)) : Prop where
  sources : ∀ j a, w.sources j a = t.sources a j
  targets : ∀ j a, w.targets j a = t.targets a j
  dipoles : w.dipoleVec = dipoles
  notReordered : w.dipolesAlreadyReordered = false

/-- What `C58` and `C60` ask of tree, traversal and wrangler holds for everything that comes out of
a documented call. -/
theorem documented_call_holds (c : Call) (ns nt : Nat) (dtype : String)
    (hd : c.Documented ns nt dtype) (hw : c.SomeWeight)
    (hr : c.args.kind = "adaptive-level-restricted" →
      c.args.sourceRadii = none ∧ c.args.targetRadii = none)
    (hdim : c.args.particles.length = 2 ∨ c.args.particles.length = 3)
    (t : Built) (h : c.run = .ok t) (tin : TravInput) (hi : CallTrav c t tin)
    (w : Wrangler A D) (dipoles : Option (Nat → D)) (hwr : WranglerFor t w dipoles)
    (weights : Nat → W) :
    tin.OK ∧ tin.tree.LevelsOK ∧ (tin.tree.dims = 2 ∨ tin.tree.dims = 3) ∧
    t.particles.toParticles.OK tin.tree ∧
    Holds t.particles.toParticles w weights (userSrc c weights dipoles) (userTgt c) ∧
    t.particles.nsources = ns ∧
    t.particles.ntargets = if c.args.targets = none then ns else nt := by
  obtain ⟨s1, s2, s3⟩ := C56_sources c ns nt dtype hd hw t h
  obtain ⟨t1, t2, t3⟩ := C56_targets c ns nt dtype hd hw t h
  obtain ⟨inp, h1, ok, _, hin⟩ :=
    C56_documented_call c ns nt dtype hd hw
  rw [h1] at h
  have hreg : inp.Regular := by
    by_cases hl : inp.levelRestrict = true
    · obtain ⟨r1, r2⟩ := hr (hin.levelRestrict.1 hl)
      right
      unfold Input.haveExtent
      rw [hin.sourcesHaveExtent, hin.targetsHaveExtent, r1, r2]
      rfl
    · left
      simpa using hl
  have hT : TravOf inp t tin :=
    ⟨hi.tree, by rw [hi.sourcesAreTargets, hin.sourcesAreTargets], hi.nAway, hi.stickOut, hi.eps, hi.noMask,
      hi.noParentMask, hi.tests⟩
  have hwf := C52_built_tree_wf inp ok t h
  refine ⟨hT.ok ok h, by rw [hi.tree]; exact hwf.2.1, ?_, ?_, ?_, s1, ?_⟩
  · rw [hi.tree, hwf.2.2.2.1, hin.dims]
    exact hdim
  · rw [hi.tree]
    obtain ⟨L, s, rfl, hf, _⟩ := Input.build_fin ok hreg h
    exact finish_particles hf fun _ => ok.nsources_le
  · refine ⟨?_, fun _ _ => rfl, ?_, ?_⟩
    · intro j hj
      have hj : j < ns := by rw [← s1]; exact hj
      funext a
      rw [hwr.sources, (s3 j hj).1 a]
      rfl
    · intro j hj
      rw [hwr.dipoles, hwr.notReordered]
      rfl
    · intro i hlt
      funext a
      rw [hwr.targets]
      unfold userTgt
      by_cases ht : c.args.targets = none
      · rw [if_pos ht]
        obtain ⟨g1, g2⟩ := t2 ht
        exact g2 i (by rw [← g1]; exact hlt) a
      · rw [if_neg ht]
        obtain ⟨g1, g2⟩ := t3 ht
        exact (g2 i (by rw [← g1]; exact hlt)).1 a
  · by_cases ht : c.args.targets = none
    · rw [if_pos ht]; exact (t2 ht).1
    · rw [if_neg ht]; exact (t3 ht).1

/-- **C61.** From the user's arrays to potentials: the tree is built from documented arguments in
two or three dimensions, the traversal and the `pyfmmlib` wrangler are made for it, the library is
exact on it.  Then `drive_fmm` returns, at every target of the user and in the user's order, the
scaled sum over the user's sources of the potential of the source at its position with its strength
and dipole direction.

Partial: without `kind="adaptive-level-restricted"` together with radii
(`C20_restricted_extent_loses_particles`). -/
theorem C61_user_potentials_partial [AddCommMonoid C] [AddCommMonoid P] (c : Call) (ns nt : Nat)
    (dtype : String) (hd : c.Documented ns nt dtype) (hw : c.SomeWeight)
    (hr : c.args.kind = "adaptive-level-restricted" →
      c.args.sourceRadii = none ∧ c.args.targetRadii = none)
    (hdim : c.args.particles.length = 2 ∨ c.args.particles.length = 3)
    (t : Built) (h : c.run = .ok t) (tin : TravInput) (hi : CallTrav c t tin)
    (trav : Traversal) (ht : buildTraversal tin = .ok trav)
    (w : Wrangler A D) (dipoles : Option (Nat → D)) (hwr : WranglerFor t w dipoles)
    (weights : Nat → W) (R : Lib A W D C P) (angle : Nat → Nat → A) (hrot : RotationOK trav w angle)
    (K : Src W D → (Nat → ℚ) → P) (MP LOC : Nat → List C → Multiset Nat → Prop)
    (hE : Exact tin t.particles.toParticles R w (userSrc c weights dipoles) (userTgt c) angle
      (fun i j => K (userSrc c weights dipoles j) (userTgt c i)) MP LOC) :
    ∃ pot, drive t.tree t.particles.toParticles R w trav weights = .ok pot ∧
      ∀ i, i < (if c.args.targets = none then ns else nt) →
        pot i = R.scale w.kernel c.args.particles.length
          (∑ j ∈ Finset.range ns, K (userSrc c weights dipoles j) (userTgt c i)) := by
  obtain ⟨g1, g2, g3, g4, g5, g6, g7⟩ :=
    documented_call_holds c ns nt dtype hd hw hr hdim t h tin hi w dipoles hwr weights
  obtain ⟨inp, h1, ok, _, hin⟩ := C56_documented_call c ns nt dtype hd hw
  rw [h1] at h
  have e : tin.tree.dims = c.args.particles.length := by
    rw [hi.tree, (C52_built_tree_wf inp ok t h).2.2.2.1, hin.dims]
  obtain ⟨pot, p1, p2⟩ := C58_fmmlib_exact tin trav g1 g2 ht hi.noMask hi.noParentMask g3
    t.particles.toParticles g4 R w _ _ angle _ MP LOC hE weights g5 hrot
  rw [hi.tree] at p1
  refine ⟨pot, p1, fun i hlt => ?_⟩
  have := p2 i (by show i < t.particles.ntargets; rw [g7]; exact hlt)
  rw [this, e]
  show R.scale _ _ (∑ j ∈ Finset.range t.particles.nsources, _) = _
  rw [g6]

/-- **C61 (error bound).** The same for a linear library with errors: if every chain of translations
from one source to one target is accurate to `ε`, the result is accurate to the sum of the `ε`. -/
theorem C61_user_error_partial [AddCommMonoid C] [AddCommGroup P] [LinearOrder P]
    [IsOrderedAddMonoid P] (c : Call) (ns nt : Nat)
    (dtype : String) (hd : c.Documented ns nt dtype) (hw : c.SomeWeight)
    (hr : c.args.kind = "adaptive-level-restricted" →
      c.args.sourceRadii = none ∧ c.args.targetRadii = none)
    (hdim : c.args.particles.length = 2 ∨ c.args.particles.length = 3)
    (t : Built) (h : c.run = .ok t) (tin : TravInput) (hi : CallTrav c t tin)
    (trav : Traversal) (ht : buildTraversal tin = .ok trav)
    (w : Wrangler A D) (dipoles : Option (Nat → D)) (hwr : WranglerFor t w dipoles)
    (weights : Nat → W) (R : Lib A W D C P) (hR : Linear t.tree w R) (angle : Nat → Nat → A)
    (hrot : RotationOK trav w angle) (K : Src W D → (Nat → ℚ) → P) (ε : Nat → Nat → P)
    (hacc : ∀ i j p, i < (if c.args.targets = none then ns else nt) → j < ns →
      Chain tin t.particles.toParticles R w (userSrc c weights dipoles) (userTgt c) angle i j p →
      |p - K (userSrc c weights dipoles j) (userTgt c i)| ≤ ε i j) :
    ∃ pot, drive t.tree t.particles.toParticles R w trav weights = .ok pot ∧
      ∀ i, i < (if c.args.targets = none then ns else nt) → ∃ p,
        pot i = R.scale w.kernel c.args.particles.length p ∧
        |p - ∑ j ∈ Finset.range ns, K (userSrc c weights dipoles j) (userTgt c i)| ≤
          ∑ j ∈ Finset.range ns, ε i j := by
  obtain ⟨g1, g2, g3, g4, g5, g6, g7⟩ :=
    documented_call_holds c ns nt dtype hd hw hr hdim t h tin hi w dipoles hwr weights
  obtain ⟨inp, h1, ok, _, hin⟩ := C56_documented_call c ns nt dtype hd hw
  rw [h1] at h
  have e : tin.tree.dims = c.args.particles.length := by
    rw [hi.tree, (C52_built_tree_wf inp ok t h).2.2.2.1, hin.dims]
  obtain ⟨pot, p1, p2⟩ := C60_error_bound tin trav g1 g2 ht hi.noMask hi.noParentMask g3
    t.particles.toParticles g4 R w (by rw [hi.tree]; exact hR) _ _ angle weights g5 hrot
    (fun i j => K (userSrc c weights dipoles j) (userTgt c i)) ε
    (fun i j p h1 h2 hc => hacc i j p (g7 ▸ h1) (g6 ▸ h2) hc)
  rw [hi.tree] at p1
  refine ⟨pot, p1, fun i hlt => ?_⟩
  obtain ⟨p, q1, q2⟩ := p2 i (by show i < t.particles.ntargets; rw [g7]; exact hlt)
  refine ⟨p, by rw [q1, e], ?_⟩
  have : t.particles.toParticles.nsources = ns := g6
  rw [this] at q2
  exact q2

namespace Ex

/-- Traversal arguments for the tree of `call`. -/
def callTrav (t : Built) : TravInput where
  tree := t.tree
  isPruned := true
  sourcesAreTargets := true
  sourcesHaveExtent := false
  targetsHaveExtent := false
  extentNorm := none
  stickOut := 0
  eps := 1 / 1024
  nAway := 1
  crit := none
  minNsources := none
  srcMask := none
  srcParentMask := none

/-- A wrangler for a tree, with orders growing with the level and dipole directions. -/
def callWrangler (t : Built) (d : Nat → ℚ) : Wrangler ℚ ℚ where
  kernel := .laplace
  rscaleFactor := 1
  order l := l + 1
  sources j a := t.sources a j
  targets j a := t.targets a j
  dipoleVec := some d
  dipolesAlreadyReordered := false
  rotation := none
  cutoff := 10 ^ 8

theorem call_runs : ∃ t trav, call.run = .ok t ∧ buildTraversal (callTrav t) = .ok trav ∧
    ∀ b, b < t.tree.nboxes → FmmLib.Ex.In 0 8 (t.tree.center b 0) := by
  have h : look call.run (fun t => match buildTraversal (callTrav t) with
      | .ok _ => [decide (∀ b, b < t.tree.nboxes →
          (0 ≤ t.tree.center b 0 ∧ t.tree.center b 0 ≤ 0 + 8))]
      | .error _ => []) = [true] := by decide +kernel
  unfold look at h
  split at h
  · rename_i t ht
    simp only at h
    split at h
    · rename_i trav htrav
      simp only [List.cons.injEq, and_true, decide_eq_true_eq] at h
      exact ⟨t, trav, ht, htrav, h⟩
    · cases h
  · cases h

/-- All hypotheses of `C61_user_potentials_partial` hold together: three sources that are also the
targets, with dipole directions, through tree, traversal and FMM, for all strengths. -/
example (weights d : Nat → ℚ) : ∃ t trav pot, call.run = .ok t ∧
    buildTraversal (callTrav t) = .ok trav ∧
    drive t.tree t.particles.toParticles FmmLib.Ex.linLib (callWrangler t d) trav weights = .ok pot ∧
    ∀ i, i < 3 → pot i = -∑ j ∈ Finset.range 3,
      weights j * ([1, 2, 4].getD i 0 - [1, 2, 4].getD j 0) := by
  obtain ⟨t, trav, h1, h2, _⟩ := call_runs
  have hi : CallTrav call t (callTrav t) :=
    ⟨rfl, rfl, le_refl _, le_refl _, by show (1 / 1024 : ℚ) ≤ 1 / 12; norm_num, rfl, rfl, trivial⟩
  have hwr : WranglerFor t (callWrangler t d) (some d) := ⟨fun _ _ => rfl, fun _ _ => rfl, rfl, rfl⟩
  have hsw : call.SomeWeight := Or.inl (by decide)
  have hkind : call.args.kind = "adaptive-level-restricted" →
      call.args.sourceRadii = none ∧ call.args.targetRadii = none := fun _ => ⟨rfl, rfl⟩
  have hall := documented_call_holds call 3 0 _ call_documented hsw hkind (Or.inl rfl) t h1 _ hi
    (callWrangler t d) (some d) hwr weights
  obtain ⟨inp, g1, ok, _, hin⟩ := C56_documented_call call 3 0 _ call_documented hsw
  have hdim : (callTrav t).tree.dims = 2 := by
    rw [g1] at h1
    have := (C52_built_tree_wf inp ok t h1).2.2.2.1
    rw [hin.dims] at this
    exact this
  obtain ⟨pot, p1, p2⟩ := C61_user_potentials_partial call 3 0 _ call_documented hsw hkind
    (Or.inl rfl) t h1 _ hi trav h2 (callWrangler t d) (some d) hwr weights FmmLib.Ex.linLib
    (fun _ _ => 0) (by intro _ _ h; cases h)
    (fun s x => s.weight * (x 0 - s.pos 0)) _ _
    (FmmLib.Ex.linLib_exact (callTrav t) (callWrangler t d) (userSrc call weights (some d))
      t.particles.toParticles (userTgt call) (fun _ _ => 0) hall.1.wf hdim rfl
      (fun l => by simp [callWrangler]) (by norm_num [callWrangler]))
  exact ⟨t, trav, pot, h1, h2, p1, p2⟩

/-- The hypotheses of `C61_user_error_partial` hold together, for a library with errors. -/
example (weights d : Nat → ℚ) : ∃ t trav pot, call.run = .ok t ∧
    buildTraversal (callTrav t) = .ok trav ∧
    drive t.tree t.particles.toParticles FmmLib.Ex.monoLib (callWrangler t d) trav weights
      = .ok pot ∧
    ∀ i, i < 3 → ∃ p, pot i = -p ∧ |p - ∑ j ∈ Finset.range 3,
      weights j * ([1, 2, 4].getD i 0 - [1, 2, 4].getD j 0)| ≤
        ∑ j ∈ Finset.range 3, 2 * 8 * |weights j| := by
  obtain ⟨t, trav, h1, h2, hc⟩ := call_runs
  have hi : CallTrav call t (callTrav t) :=
    ⟨rfl, rfl, le_refl _, le_refl _, by show (1 / 1024 : ℚ) ≤ 1 / 12; norm_num, rfl, rfl, trivial⟩
  have hwr : WranglerFor t (callWrangler t d) (some d) := ⟨fun _ _ => rfl, fun _ _ => rfl, rfl, rfl⟩
  have hsw : call.SomeWeight := Or.inl (by decide)
  have hkind : call.args.kind = "adaptive-level-restricted" →
      call.args.sourceRadii = none ∧ call.args.targetRadii = none := fun _ => ⟨rfl, rfl⟩
  obtain ⟨inp, g1, ok, _, hin⟩ := C56_documented_call call 3 0 _ call_documented hsw
  have hdim : t.tree.dims = 2 := by
    rw [g1] at h1
    have := (C52_built_tree_wf inp ok t h1).2.2.2.1
    rw [hin.dims] at this
    exact this
  have hpt : ∀ j, j < 3 → FmmLib.Ex.In 0 8 (call.src 0 j) := by
    unfold FmmLib.Ex.In; decide +kernel
  obtain ⟨pot, p1, p2⟩ := C61_user_error_partial call 3 0 _ call_documented hsw hkind
    (Or.inl rfl) t h1 _ hi trav h2 (callWrangler t d) (some d) hwr weights FmmLib.Ex.monoLib
    (FmmLib.Ex.monoLib_linear _ _ hdim rfl) (fun _ _ => 0) (by intro _ _ h; cases h)
    (fun s x => s.weight * (x 0 - s.pos 0)) (fun _ j => 2 * 8 * |weights j|)
    (fun i j p hi hj hch => by
      have := FmmLib.Ex.mono_acc (callTrav t) (callWrangler t d) (userSrc call weights (some d))
        t.particles.toParticles (userTgt call) (fun _ _ => 0) 0 8 hc (i := i) (j := j)
        (hpt j hj) (hpt i hi) hch
      exact this)
  exact ⟨t, trav, pot, h1, h2, p1, p2⟩

end Ex

end Boxtree.Build
