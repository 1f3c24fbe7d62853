import Verif.Lemmas.Occupied
import Verif.Props.Prune

/-!
# The end of `level_start_box_nrs`
-/

namespace Boxtree.Build

/-- **C55** (part): `level_start_box_nrs` begins with 0, never decreases and ends with the number of
boxes, and every level has a box.  Missing: the pruned non-adaptive tree for particles with extents,
for which it is false (`C55_stale_level_counts`). -/
theorem C55_level_starts_partial (inp : Input) (ok : inp.OK) (t : Built) (h : inp.build = .ok t)
    (hm : inp.skipPrune = true ∨ inp.adaptive = true ∨ inp.haveExtent = false) :
    t.tree.levelStart 0 = 0 ∧
    (∀ l l', l ≤ l' → t.tree.levelStart l ≤ t.tree.levelStart l') ∧
    t.tree.levelStart t.tree.nlevels = t.tree.nboxes ∧
    ∀ l < t.tree.nlevels, ∃ b < t.tree.nboxes, t.tree.level b = l := by
  obtain ⟨L, s, hc, o, rfl, hf, _, hlev, _⟩ := Input.build_cases ok h
  have hocc := buildLevels_occ (Input.mortOK inp) ok.n_pos hlev
  have hs : inp.skipPrune = true ∨ inp.params.Filling :=
    hm.imp_right fun h => h.imp_right fun he p l => Input.morton_moves he p l
  refine ⟨rfl, fun l l' hl => levelStart_mono _ hl, hf.levelStart_last hocc hs, ?_⟩
  intro l hl
  obtain ⟨k, hk, hc'⟩ := hocc
  have hkept : Kept inp.skipPrune { s with hasCh := hc, oversize := o } L k :=
    ⟨hk, hs.imp_right fun hfl => by have := hc' hfl; show s.count L k ≠ 0; omega⟩
  refine hf.flatOK.exists_level (hf.nid_lt hkept) ?_
  rw [hf.fin_level hkept]
  have : l < L + 1 := hl
  omega

/-- A pruned adaptive tree. -/
example : Ex.plane.OK ∧ Ex.plane.adaptive = true ∧
    Ex.look Ex.plane.build (fun t => (List.range (t.tree.nlevels + 1)).map t.tree.levelStart)
      = [0, 1, 3, 5] ∧
    Ex.look Ex.plane.build (fun t => [t.tree.nboxes]) = [5] :=
  ⟨Ex.plane_ok, rfl, by decide +kernel, by decide +kernel⟩

namespace Ex

/-- Two targets that are too large for any child of the root, non-adaptive. -/
def heldBack : Input where
  dims := 1
  n := 2
  sourcesAreTargets := false
  nsources := 1
  x := fun _ p => [1 / 2, 3 / 5].getD p 0
  radius := fun _ => 2 / 5
  sourcesHaveExtent := true
  targetsHaveExtent := true
  l2 := false
  stickOut := 1 / 4
  weight := fun _ => 1
  maxWeight := 1
  adaptive := false
  levelRestrict := false
  nlevelsMax := 106
  lo := fun _ => 0
  ext := fun _ => 1
  skipPrune := false
  pad := fun _ => 0

end Ex

/-- **C55** is false for a non-adaptive tree of particles with extents: if no particle fits into a
box of the deepest level, all boxes of that level are pruned, but their count is kept.  Here the tree
has one box, and the last level is said to consist of boxes 1 and 2. -/
theorem C55_stale_level_counts : ∃ inp : Input, inp.Placed ∧ ∃ t, inp.build = .ok t ∧
    t.tree.nboxes = 1 ∧ t.tree.nlevels = 2 ∧ t.tree.levelStart 1 = 1 ∧ t.tree.levelStart 2 = 3 := by
  refine ⟨Ex.heldBack, ?_, ?_⟩
  · exact
    { dims_pos := by decide
      n_pos := by decide
      nsources_le := by decide
      separate := by decide
      ext_pos := by decide +kernel
      cube := by decide +kernel
      radius_nonneg := by decide +kernel
      lower := by decide +kernel
      upper := by decide +kernel
      off_upper := by decide +kernel }
  · have h : Ex.look Ex.heldBack.build (fun t => [t.tree.nboxes, t.tree.nlevels,
        t.tree.levelStart 1, t.tree.levelStart 2]) = [1, 2, 1, 3] := by
      decide +kernel
    unfold Ex.look at h
    split at h
    · rename_i t ht
      refine ⟨t, ht, ?_⟩
      simpa using h
    · cases h

end Boxtree.Build
