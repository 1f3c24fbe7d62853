import Verif.Props.TreeBuild
import Verif.Props.Fmm

/-!
# What is built can be traversed

Shape, flags and bounding boxes of the trees that the builder returns, and the FMM on them.
-/

namespace Boxtree.Build
open BoxTree

/-! ### Shape and flags -/

theorem fin_hasCh_mono {P : Params} {skip : Bool} {len : Nat → Nat} {L : Nat} {s : State}
    {hc : Nat → Nat → Bool} {o : Bool} (h : ∀ l k, hc l k = true → s.hasCh l k = true) (b : Nat)
    (hb : (FinOK.fin P skip len L { s with hasCh := hc, oversize := o }).hasCh b = true) :
    (FinOK.fin P skip len L s).hasCh b = true := h _ _ hb

/-- **C52.** Every tree that is built is well-formed: parents and children are inverse to each
other, every child is the half-size sub-box of its parent at its Morton position, the boxes are
numbered level by level, and the flags for children are set on all ancestors. -/
theorem C52_built_tree_wf (inp : Input) (ok : inp.OK) (t : Built) (h : inp.build = .ok t) :
    t.tree.WF ∧ t.tree.LevelsOK ∧ t.tree.FlagsOK ∧ t.tree.dims = inp.dims ∧
      t.tree.rootExtent = inp.ext 0 ∧ (∀ a, t.tree.center 0 a = inp.lo a + inp.ext a / 2) := by
  obtain ⟨L, s, hc, o, rfl, hf, hle, _⟩ := Input.build_cases ok h
  have hw := finish_wf (C := inp.cloud) hf ok.ext_pos
  have hl := finish_levels (C := inp.cloud) hf
  refine ⟨⟨hw.1, hw.2, hw.3, hw.4, hw.5, hw.6, hw.7, hw.8, hw.9, hw.10, hw.11, hw.12⟩, ⟨hl.1, hl.2⟩,
    ⟨fun b hb h0 _ => ?_, fun b hb h0 _ => ?_⟩, rfl, rfl, fun a => ?_⟩
  · rw [finish_sourceChild]
    exact fin_hasCh_mono hle _ (hf.flatOK.hasCh_parent hb h0)
  · rw [finish_targetChild]
    exact fin_hasCh_mono hle _ (hf.flatOK.hasCh_parent hb h0)
  · have h1 := congrFun (hf.fin_center hf.kept_root) a
    rw [FinOK.nid_root, hf.inv.root_center] at h1
    exact h1

example : ∃ t, Ex.plane.build = .ok t ∧ t.tree.nboxes = 5 := by
  have h : Ex.look Ex.plane.build (fun t => [t.tree.nboxes]) = [5] := by decide +kernel
  unfold Ex.look at h
  split at h
  · rename_i t ht
    exact ⟨t, ht, by simpa using h⟩
  · cases h

/-- **C25.** A box is flagged as a source (target) box if and only if it owns sources (targets), and
every proper ancestor of a source (target) box is flagged as having source (target) children. -/
theorem C25_flags (inp : Input) (ok : inp.OK) (t : Built) (h : inp.build = .ok t) :
    (∀ b, t.tree.isSource b = true ↔ 0 < t.particles.srcCount b) ∧
    (∀ b, t.tree.isTarget b = true ↔ 0 < t.particles.tgtCount b) ∧
    ∀ b c, c < t.tree.nboxes → t.tree.IsAncOrSelf b c → b ≠ c →
      (t.tree.isSource c = true → t.tree.hasSourceChild b = true) ∧
      (t.tree.isTarget c = true → t.tree.hasTargetChild b = true) := by
  obtain ⟨hw, _, hF, _⟩ := C52_built_tree_wf inp ok t h
  refine ⟨?_, ?_, fun b c hc hanc hne => ?_⟩
  · obtain ⟨L, s, hc, o, rfl, _⟩ := Input.build_cases ok h
    intro b
    rw [finish_isSource]
    simp
  · obtain ⟨L, s, hc, o, rfl, _⟩ := Input.build_cases ok h
    intro b
    rw [finish_isTarget]
    simp
  · have hlt : t.tree.level b < t.tree.level c := by
      rcases Nat.lt_or_ge (t.tree.level b) (t.tree.level c) with h1 | h1
      · exact h1
      · exact absurd (hanc.2.symm.trans (ancAt_ge _ h1)) hne
    rw [← hanc.2]
    exact ⟨fun h1 => hF.src_anc hw hc (.inl h1) hlt, fun h1 => hF.tgt_anc hw hc (.inl h1) hlt⟩

/-- **C25**: the flags for children are not exact.  One source on the left, two targets on the right:
the box on the right is flagged as having source children, without a source in its subtree. -/
theorem C25_child_flags_not_exact : ∃ inp : Input, inp.Placed ∧ ∃ t, inp.build = .ok t ∧
    ∃ b < t.tree.nboxes, t.tree.hasSourceChild b = true ∧ t.particles.srcCumul b = 0 := by
  let inp : Input := { Ex.line with
    n := 3, nsources := 1, x := fun _ p => [1 / 10, 3 / 5, 9 / 10].getD p 0
    radius := fun _ => 0, targetsHaveExtent := false, maxWeight := 1 }
  refine ⟨inp, ?_, ?_⟩
  · exact
    { dims_pos := by decide
      n_pos := by decide
      nsources_le := by decide
      separate := by decide
      ext_pos := by decide +kernel
      cube := by decide +kernel
      radius_nonneg := by decide +kernel
      lower := by decide +kernel
      upper := by decide +kernel
      off_upper := by decide +kernel }
  · have h : Ex.look inp.build (fun t => [t.tree.nboxes, (t.tree.hasSourceChild 2).toNat,
        t.particles.srcCumul 2]) = [5, 1, 0] := by decide +kernel
    unfold Ex.look at h
    split at h
    · rename_i t ht
      simp only [List.cons.injEq, and_true] at h
      refine ⟨t, ht, 2, by omega, ?_, h.2.2⟩
      cases hb : t.tree.hasSourceChild 2 with
      | true => rfl
      | false => rw [hb] at h; simp at h
    · cases h

/-- Flags of `Ex.line`: box 1 is a source box, box 2 has source and target children, box 3 is a
source and target box, box 4 a target box. -/
example : Ex.look Ex.line.build (fun t => (List.range 5).map t.tree.flags) = [14, 1, 12, 3, 2] := by
  decide +kernel

/-! ### Bounding boxes -/

/-- **C26.** The source (target) bounding box of a box contains the sources (targets) of its subtree
with their radii and the centers of the boxes of the subtree, and is the least box that does.
Partial: without the level-restricted builder with extents, which loses particles
(`C20_restricted_extent_loses_particles`). -/
theorem C26_bounding_boxes_partial (inp : Input) (ok : inp.OK) (hr : inp.Regular) (t : Built)
    (h : inp.build = .ok t) :
    TightBoxes t.tree t.particles.srcStart t.particles.srcCumul t.sources t.sourceRadii
      t.srcMin t.srcMax ∧
    TightBoxes t.tree t.particles.tgtStart t.particles.tgtCumul t.targets t.targetRadii
      t.tree.tgtMin t.tree.tgtMax := by
  have hw := (C52_built_tree_wf inp ok t h).1
  obtain ⟨L, s, rfl, hf, _⟩ := Input.build_fin ok hr h
  refine ⟨finish_tight_src hf hw ok.n_pos fun _ => ok.nsources_le,
    finish_tight_tgt hf hw ok.n_pos (fun _ => ok.nsources_le) fun hb => ?_⟩
  have := ok.separate hb
  unfold Input.haveExtent at this
  rw [Bool.or_eq_false_iff] at this
  show inp.sourcesHaveExtent = inp.targetsHaveExtent
  rw [this.1, this.2]

example : Ex.line.OK ∧ Ex.line.Regular ∧
    Ex.look Ex.line.build (fun t => (List.range 5).map fun b => t.tree.tgtMin b 0)
      = [1 / 5, 1 / 4, 3 / 5, 3 / 5, 17 / 20] ∧
    Ex.look Ex.line.build (fun t => (List.range 5).map fun b => t.tree.tgtMax b 0)
      = [19 / 20, 1 / 4, 19 / 20, 5 / 8, 19 / 20] :=
  ⟨Ex.line_ok, Ex.line_regular, by decide +kernel⟩

/-! ### The FMM on a built tree -/

/-- The arguments of the traversal builder for a tree: the tree and what `tree` says about sources,
targets and extents; the rest are parameters of `FMMTraversalBuilder`. -/
structure TravOf (inp : Input) (t : Built) (tin : TravInput) : Prop where
  tree : tin.tree = t.tree
  sourcesAreTargets : tin.sourcesAreTargets = inp.sourcesAreTargets
  nAway : 1 ≤ tin.nAway
  stickOut : 0 ≤ tin.stickOut
  eps : tin.eps ≤ 1 / 12
  noMask : tin.srcMask = none
  noParentMask : tin.srcParentMask = none
  /-- the device decides the geometric tests well enough -/
  tests : tin.TestsOK

theorem TravOf.ok {inp : Input} (ok : inp.OK) {t : Built} (h : inp.build = .ok t) {tin : TravInput}
    (hi : TravOf inp t tin) : tin.OK where
  wf := by rw [hi.tree]; exact (C52_built_tree_wf inp ok t h).1
  flags := by rw [hi.tree]; exact (C52_built_tree_wf inp ok t h).2.2.1
  nAway_pos := hi.nAway
  stickOut_nonneg := hi.stickOut
  eps_small := hi.eps
  srcTgt := by
    intro hs b hb _
    rw [hi.tree]
    rw [hi.sourcesAreTargets] at hs
    obtain ⟨L, s, hc, o, rfl, hf, _⟩ := Input.build_cases ok h
    rw [finish_isSource, finish_isTarget]
    have : (finish inp.params inp.cloud inp.skipPrune (fun l => s.used l + inp.pad l) L s).particles.srcCount b
        = (finish inp.params inp.cloud inp.skipPrune (fun l => s.used l + inp.pad l) L s).particles.tgtCount b := by
      have e : inp.cloud.sourcesAreTargets = true := hs
      have e2 : inp.params.haveExtent = false := ok.separate hs
      unfold finish finishFlat boxInfo
      simp only [e, e2, if_true]
      split <;> rfl
    rw [this]
  srcTgtChild := by
    intro _ _ b _
    rw [hi.tree]
    obtain ⟨L, s, hc, o, rfl, _⟩ := Input.build_cases ok h
    rw [finish_sourceChild, finish_targetChild]
  tests := hi.tests

/-- **C53.** From particles to potentials: for every particle set, if the tree builder and the
traversal builder return, `drive_fmm` with the constant-one wrangler gives every target the sum
of the weights of all sources.  Partial: without the level-restricted builder with extents. -/
theorem C53_fmm_on_built_tree_partial {M : Type} [AddCommMonoid M] (inp : Input) (ok : inp.OK)
    (hr : inp.Regular) (t : Built) (h : inp.build = .ok t) (tin : TravInput)
    (hi : TravOf inp t tin) (trav : Traversal) (ht : buildTraversal tin = .ok trav)
    (weights : Nat → M) (i : Nat) (hit : i < t.particles.ntargets) :
    Fmm.driveFmm t.tree t.particles.toParticles trav weights i
      = ∑ j ∈ Finset.range t.particles.nsources, weights j := by
  have hlev : tin.tree.LevelsOK := by rw [hi.tree]; exact (C52_built_tree_wf inp ok t h).2.1
  have hq : t.particles.toParticles.OK tin.tree := by
    rw [hi.tree]
    obtain ⟨L, s, rfl, hf, _⟩ := Input.build_fin ok hr h
    exact finish_particles hf fun _ => ok.nsources_le
  have := C02_drive_fmm_total tin trav (hi.ok ok h) hlev ht hi.noMask hi.noParentMask
    t.particles.toParticles hq weights i hit
  rw [hi.tree] at this
  exact this

/-- The same per pair of boxes: the sources of each source box reach the targets of each target box
along exactly one path, in all modes. -/
theorem C53_each_pair_once (inp : Input) (ok : inp.OK) (t : Built) (h : inp.build = .ok t)
    (tin : TravInput) (hi : TravOf inp t tin) (trav : Traversal)
    (ht : buildTraversal tin = .ok trav) (tgt s : Nat) (htgt : tgt ∈ trav.targetBoxes)
    (hs : s < t.tree.nboxes) (hsrc : 0 < t.particles.srcCount s) :
    trav.pathCount t.tree tgt s = 1 := by
  have := C01_exactly_once tin trav (hi.ok ok h) ht tgt s htgt (by rw [hi.tree]; exact hs)
    (by rw [hi.tree]; exact ((C25_flags inp ok t h).1 s).2 hsrc)
  rw [hi.tree] at this
  exact this

/-- Arguments of the traversal builder for the examples. -/
def Ex.travInput (inp : Input) (t : Built) : TravInput where
  tree := t.tree
  isPruned := true
  sourcesAreTargets := inp.sourcesAreTargets
  sourcesHaveExtent := inp.sourcesHaveExtent
  targetsHaveExtent := inp.targetsHaveExtent
  extentNorm := if inp.haveExtent then some .linf else none
  stickOut := inp.stickOut
  eps := 1 / 1024
  nAway := 1
  crit := none
  minNsources := none
  srcMask := none
  srcParentMask := none

example (inp : Input) (t : Built) (h : 0 ≤ inp.stickOut) : TravOf inp t (Ex.travInput inp t) :=
  ⟨rfl, rfl, le_refl _, h, by show (1 / 1024 : ℚ) ≤ 1 / 12; norm_num, rfl, rfl, trivial⟩

/-- Both examples pass through the two builders and the FMM; the weights of the sources are powers
of ten. -/
example :
    Ex.look Ex.plane.build (fun t => match buildTraversal (Ex.travInput Ex.plane t) with
      | .ok trav => (List.range 3).map
          (Fmm.driveFmm t.tree t.particles.toParticles trav (fun j => 10 ^ j))
      | .error _ => []) = [111, 111, 111] ∧
    Ex.look Ex.line.build (fun t => match buildTraversal (Ex.travInput Ex.line t) with
      | .ok trav => (List.range 3).map
          (Fmm.driveFmm t.tree t.particles.toParticles trav (fun j => 10 ^ j))
      | .error _ => []) = [11, 11, 11] := by
  decide +kernel

end Boxtree.Build
