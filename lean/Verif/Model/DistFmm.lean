import Verif.Model.LocalTree
import Verif.Model.Communicate
import Verif.Model.Fmm

/-!
# The distributed FMM with the constant-one wrangler

Model of `drive_fmm` (`/repo/boxtree/fmm.py:342-533`) run by `DistributedFMMRunner`
(`/repo/boxtree/distributed/__init__.py:269-310`) with the mixin of
`/repo/boxtree/distributed/calculation.py` and the constant-one wrangler, whose multipole arrays
hold one coefficient per box.
-/

namespace Boxtree.Dist

/-- What all ranks know after `make_distributed_wrangler`
(`/repo/boxtree/distributed/__init__.py:156-266`): the arguments of the global traversal, the
particle lists of the global tree, the global traversal, the number of ranks and the boxes each
rank is responsible for. -/
structure World where
  inp : TravInput
  g : GlobalParticles
  trav : Traversal
  size : Nat
  boxes : Nat → List Nat

namespace World
variable (W : World)

/-- The local tree of rank `r`.  `/repo/boxtree/distributed/local_tree.py:316-493`. -/
def localTree (r : Nat) : LocalTree :=
  generateLocalTree W.inp.tree W.g W.trav W.inp.targetsHaveExtent (W.boxes r)

/-- The arguments of the traversal builder in `generate_local_travs`,
`/repo/boxtree/distributed/local_traversal.py:34-62`. -/
def localInput (r : Nat) : TravInput :=
  { W.inp with
    tree := (W.localTree r).tree
    srcMask := some (W.localTree r).masks.responsible
    srcParentMask := some (W.localTree r).masks.ancestor }

/-- Particle lists of the local tree; `user_source_ids` and `sorted_target_ids` are `None`
(`/repo/boxtree/distributed/local_tree.py:464-465`) and not used on a local tree. -/
def localParticles (r : Nat) : Particles where
  nsources := (W.localTree r).sources.particleIdx.length
  ntargets := (W.localTree r).targets.particleIdx.length
  srcStart := (W.localTree r).sources.starts
  srcCount := (W.localTree r).sources.countsNonchild
  tgtStart := (W.localTree r).targets.starts
  tgtCount := (W.localTree r).targets.countsNonchild
  userSourceIds := fun _ => 0
  sortedTargetIds := fun _ => 0

/-- What `communicate_mpoles` reads.  `/repo/boxtree/distributed/calculation.py:271-335`. -/
def setup : Setup where
  size := W.size
  nboxes := W.inp.tree.nboxes
  layout := ⟨W.inp.tree.nlevels, W.inp.tree.levelStart, fun _ => 1⟩
  users := boxToUserRank W.size W.inp.tree.nboxes fun r => (W.localTree r).masks.multipoleSrc

variable {M : Type} [AddCommMonoid M]

/-- `reorder_sources` on the root (`/repo/boxtree/distributed/calculation.py:437-441`) followed by
`distribute_source_weights` (`:85-107`): the weights rank `r` gets. -/
def localWeights (weights : Nat → M) (r : Nat) : Nat → M :=
  let w := fun i => weights (W.g.userSourceIds i)
  fun k => w ((W.localTree r).sources.particleIdx.getD k 0)

/-- The multipole array of rank `r` before the reduction, `/repo/boxtree/fmm.py:392-409`. -/
def localMpoles (travs : Nat → Traversal) (weights : Nat → M) (r : Nat) : Nat → Nat → M :=
  fun b _ => Fmm.upward (W.localTree r).tree (W.localParticles r) (travs r)
    (W.localWeights weights r) b

/-- All ranks at the beginning of `communicate_mpoles`.
`/repo/boxtree/distributed/calculation.py:271-335`. -/
def startState (travs : Nat → Traversal) (weights : Nat → M) : NetState M :=
  start W.setup (W.localMpoles travs weights) (fun r => (W.localTree r).masks.ancestor) W.boxes

/-- Potentials of the local targets of rank `r`, `/repo/boxtree/fmm.py:415-514`, given its
multipole array after the reduction. -/
def localPotentials (travs : Nat → Traversal) (weights : Nat → M) (mp : Nat → Nat → Nat → M)
    (r : Nat) : Nat → M :=
  Fmm.evaluate (W.localTree r).tree (W.localParticles r) (travs r) (W.localWeights weights r)
    (fun b => mp r b 0)

/-- `gathered_potentials[idx] = potentials`,
`/repo/boxtree/distributed/calculation.py:135-137`. -/
def assignAt (out : Nat → M) (idx : List Nat) (vals : Nat → M) : Nat → M := fun p =>
  if p ∈ idx then vals (idx.idxOf p) else out p

/-- `gather_potential_results` (`/repo/boxtree/distributed/calculation.py:109-145`) and
`reorder_potentials` (`:443-447`) on the root; `junk` is the content of `np.empty`, `mp` the
multipole arrays of all ranks after the reduction. -/
def result (travs : Nat → Traversal) (weights : Nat → M) (mp : Nat → Nat → Nat → M)
    (junk : Nat → M) : Nat → M :=
  let gathered := (List.range W.size).foldl (fun out r =>
    assignAt out (W.localTree r).targets.particleIdx (W.localPotentials travs weights mp r)) junk
  fun i => gathered (W.g.sortedTargetIds i)

end World
end Boxtree.Dist
