import Verif.Model.DistFmm
import Verif.Spec.LocalTree
import Verif.Spec.Fmm

/-!
# Specification vocabulary: the global data of a distributed FMM
-/

namespace Boxtree
open Dist

/-- What is assumed of the global data: the traversal arguments are in order and have no masks,
the traversal was built from them, levels and particle ranges are those of a built tree, and every
box is the responsibility of exactly one rank. -/
structure Dist.World.OK (W : World) : Prop where
  ok : W.inp.OK
  noMask : W.inp.srcMask = none
  noParentMask : W.inp.srcParentMask = none
  built : buildTraversal W.inp = .ok W.trav
  levels : W.inp.tree.LevelsOK
  levelStart_mono : ∀ l, l < W.inp.tree.nlevels →
    W.inp.tree.levelStart l ≤ W.inp.tree.levelStart (l + 1)
  levelStart_le : ∀ l, l < W.inp.tree.nlevels → W.inp.tree.levelStart (l + 1) ≤ W.inp.tree.nboxes
  particles : W.g.toParticles.OK W.inp.tree
  src_ranges : RangesOK W.inp.tree W.g.nsources W.g.srcStart W.g.srcCount W.g.srcCumul
  tgt_ranges : RangesOK W.inp.tree W.g.ntargets W.g.tgtStart W.g.tgtCount W.g.tgtCumul
  tgt_flag : ∀ b, b < W.inp.tree.nboxes → (W.inp.tree.isTarget b = true ↔ W.g.tgtCount b ≠ 0)
  owned : ∀ b, b < W.inp.tree.nboxes → ∃ r, r < W.size ∧ b ∈ W.boxes r
  owner_unique : ∀ b r r', r < W.size → r' < W.size → b ∈ W.boxes r → b ∈ W.boxes r' → r = r'
  /-- default of `_from_sep_smaller_min_nsources_cumul` in the traversal builder -/
  min_sources : W.inp.targetsHaveExtent = true → W.inp.minNsources.getD 0 = 0

end Boxtree
