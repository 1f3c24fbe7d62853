import Verif.Props.Kernels32
import Verif.Props.DeepCenters
import Verif.Props.DistBuilt
import Verif.Props.LevelEnds

/-!
# C100: from particles to lost interactions

The trees on which the 32-bit list kernels fail are among those that the tree builder makes.
-/

namespace Boxtree.Build
open BoxTree

namespace Ex

/-- Two particles at a distance of `2 ^ -30`, relative to the bounding box. -/
def cousins : Input :=
  { plane with
    n := 2, nsources := 2, levelRestrict := false, arith := .exact32
    x := fun _ p => [1 / 4, 1 / 4 + 1 / 2 ^ 30].getD p 0 }

theorem cousins_placed : cousins.Placed where
  dims_pos := by decide
  n_pos := by decide
  nsources_le := by decide
  separate := by decide
  ext_pos := by decide +kernel
  cube := by decide +kernel
  radius_nonneg := by decide +kernel
  lower := by decide +kernel
  upper := by decide +kernel
  off_upper := by decide +kernel

theorem cousins_weights : cousins.WeightsOK := ⟨by decide, by decide, by decide⟩

end Ex

/-- Two particles at a distance of `2 ^ -30`, one allowed per box: a tree of 31 levels. -/
theorem cousins_tree : ∃ t, Ex.cousins.build = .ok t ∧ t.tree.nlevels = 31 := by
  have hw32 : ({ Ex.cousins with arith := .exact, nlevelsMax := 32 } : Input).WeightsOK :=
    ⟨Ex.cousins_weights.weight, Ex.cousins_weights.limit, by decide⟩
  rcases C23_terminates { Ex.cousins with arith := .exact, nlevelsMax := 32 } hw32 (fun _ => rfl) with
    ⟨t, ht, hl⟩ | hb
  · have hl' : t.tree.nlevels = 1 ∨ t.tree.nlevels < 32 := hl
    have ht' : Ex.cousins.build = .ok t :=
      build_agree (inp := Ex.cousins) (A := .exact) (B := .exact32) (M := 32) (N := 106) rfl
        (fun p _ hl => exact32_agree hl p) (by decide) ht (.inl (by omega))
    refine ⟨t, ht', ?_⟩
    by_contra hne
    have h5 := group_weight_levels Ex.cousins_placed.toOK Ex.cousins_weights rfl rfl ht'
      (ps := [0, 1]) (by decide) (by decide) fun p hp q hq par l k hl2 hpath => by
        refine bits_path_upto (d := 29) rfl (fun l hl3 a hax => ?_) l k (by omega) hpath
        have key : ∀ p ∈ [0, 1], ∀ q ∈ [0, 1], ∀ l < 29, ∀ a < 2,
            Ex.cousins.bits a p l = Ex.cousins.bits a q l := by decide +kernel
        exact key p hp q hq l hl3 a hax
    exact absurd h5 (by decide)
  · exfalso
    obtain ⟨ps, h1, h2, h3, h4⟩ := (C23_fails_iff { Ex.cousins with arith := .exact, nlevelsMax := 32 }
      { Ex.cousins_placed with } rfl hw32 rfl rfl).2 rfl hb
    have h2' : ∀ p ∈ ps, p < 2 := h2
    have h4' : 1 < (ps.map fun _ => 1).sum := h4
    have hne : ¬ ⌊((1 / 4 : ℚ) - 0) / 1 * 2 ^ (32 - 2)⌋
        = ⌊((1 / 4 + 1 / 2 ^ 30 : ℚ) - 0) / 1 * 2 ^ (32 - 2)⌋ := by decide +kernel
    have hsame : ∀ p ∈ ps, ∀ q ∈ ps, p = q := by
      intro p hp q hq
      have h5 := h3 p hp q hq 0 (by decide)
      have hp2 := h2' p hp
      have hq2 := h2' q hq
      rcases (by omega : p = 0 ∨ p = 1) with rfl | rfl <;>
        rcases (by omega : q = 0 ∨ q = 1) with rfl | rfl
      · rfl
      · exact absurd h5 hne
      · exact absurd h5.symm hne
      · rfl
    cases ps with
    | nil => simp at h4'
    | cons p ps =>
      cases ps with
      | nil => simp at h4'
      | cons q ps =>
        have := hsame p (by simp) q (by simp)
        simp [this] at h1

/-- A box of the last level holds sources, if sources and targets are the same and the tree is pruned. -/
theorem last_level_source {inp : Input} (ok : inp.OK) (hr : inp.Regular) (hp : inp.skipPrune = false)
    (hst : inp.sourcesAreTargets = true) {t : Built} (h : inp.build = .ok t) {b : Nat}
    (hb : b < t.tree.nboxes) (hl : t.tree.level b + 1 = t.tree.nlevels) : t.tree.isSource b = true := by
  have hw := (C52_built_tree_wf inp ok t h).1
  have hpop := C24_no_empty_boxes inp ok hp t h b hb
  have hR := (built_ranges ok hr hp h).1
  have hst' : t.particles.srcCumul b = t.particles.tgtCumul b := by
    obtain ⟨L, s, hc, o, rfl, _⟩ := Input.build_cases ok h
    have e : inp.cloud.sourcesAreTargets = true := hst
    unfold finish finishFlat boxInfo
    simp only [e, if_true]
  rw [((C25_flags inp ok t h).1 b)]
  unfold Built.population at hpop
  by_contra h0
  obtain ⟨c, h1, h2, h3, _⟩ := hR.exhaustive b hb (t.particles.srcStart b) (by omega) (by omega)
  have h4 := hw.level_parent c h1 h2
  have h5 := hw.level_lt c h1
  rw [h3] at h4
  omega

/-- **C100**, from particles to lost interactions: two particles at a distance of `2 ^ -30` of the
bounding box, one allowed per box, give a tree with a source and target box on level 30; whatever centers
the builder stores, the traversal with 32-bit integers carries its sources to its targets along no path. -/
theorem C100_built_tree : ∃ t, Ex.cousins.build = .ok t ∧
    ∃ b < t.tree.nboxes, t.tree.isSource b = true ∧
      ∀ (ctr : Nat → Nat → ℚ) (trav : Traversal),
        buildTraversal ((Ex.travInput Ex.cousins t).with32 ctr) = .ok trav →
        b ∈ trav.targetBoxes ∧ trav.pathCount t.tree b b = 0 := by
  obtain ⟨t, ht, hl⟩ := cousins_tree
  have ok := Ex.cousins_placed.toOK
  have hw := (C52_built_tree_wf _ ok t ht).1
  obtain ⟨_, _, _, hlev⟩ := C55_level_starts_partial _ ok t ht (.inr (.inr rfl))
  obtain ⟨b, hb, hb30⟩ := hlev 30 (by omega)
  have hsrc := last_level_source ok (.inr rfl) rfl rfl ht hb (by omega)
  refine ⟨t, ht, b, hb, hsrc, fun ctr trav htr => ⟨?_, ?_⟩⟩
  · rw [(travFields htr).targetBoxes]
    show b ∈ selSourceBoxes t.tree none
    rw [mem_selSource]
    exact ⟨hb, hsrc, rfl⟩
  · exact C100_own_sources_lost (Ex.travInput Ex.cousins t) hw rfl ctr trav htr b hb hb30

/-- The traversal is built. -/
example (t : Built) (ctr : Nat → Nat → ℚ) :
    ∃ trav, buildTraversal ((Ex.travInput Ex.cousins t).with32 ctr) = .ok trav := ⟨_, rfl⟩

end Boxtree.Build
