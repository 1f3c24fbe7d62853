import Verif.Model.Partition
import Verif.Model.Tools
import Verif.Model.Fmm

/-!
# Local trees of the distributed FMM

Model of `/repo/boxtree/distributed/local_tree.py`.
-/

namespace Boxtree.Dist
open Tools

/-- `particle_mask_kernel`, `/repo/boxtree/distributed/local_tree.py:70-91`, on a zeroed mask of
`n` particles.  Work items (boxes) all store `1`, so running them in order of the box number is no
loss of generality. -/
def particleMask (n nboxes : Nat) (boxMask : Nat → Bool) (starts counts : Nat → Nat) : List Nat :=
  (List.range nboxes).foldl (fun pm i =>
    if boxMask i then (List.range' (starts i) (counts i)).foldl (fun pm pid => pm.set pid 1) pm
    else pm) (List.replicate n 0)

/-- `fetch_local_particles_prg`, `/repo/boxtree/distributed/local_tree.py:124-134`: particles with
their mask set are copied to the position given by the scan.  Coordinates (and radii) of one
particle are one value of type `α`. -/
def fetchParticles {α : Type} (zero : α) (n : Nat) (mask scan : List Nat) (part : Nat → α) :
    List α :=
  (List.range n).foldl (fun out i =>
    if mask.getD i 0 ≠ 0 then out.set (scan.getD i 0) (part i) else out)
    (List.replicate (scan.getD n 0) zero)

/-- `LocalParticlesAndLists`, `/repo/boxtree/distributed/local_tree.py:188-195`. -/
structure LocalParticles (α : Type) where
  particles : List α
  starts : Nat → Nat
  countsNonchild : Nat → Nat
  countsCumul : Nat → Nat
  particleIdx : List Nat

/-- `construct_local_particles_and_lists`, `/repo/boxtree/distributed/local_tree.py:198-284`.
`mask_scan_kernel` (`:94-107`) is the list of prefix sums. -/
def constructLocal {α : Type} (zero : α) (n nboxes : Nat) (boxMask : Nat → Bool) (part : Nat → α)
    (starts countsNonchild countsCumul : Nat → Nat) : LocalParticles α :=
  let mask := particleMask n nboxes boxMask starts countsNonchild
  let scan := prefixSums 0 mask
  { particles := fetchParticles zero n mask scan part
    starts := fun b => scan.getD (starts b) 0
    countsNonchild := fun b => if boxMask b then countsNonchild b else 0
    countsCumul := fun b => scan.getD (starts b + countsCumul b) 0 - scan.getD (starts b) 0
    particleIdx := (List.range n).filter fun i => mask.getD i 0 != 0 }

/-- `flags & ~bit`: the bit is flipped if it is set.
`/repo/boxtree/distributed/local_tree.py:158-186`. -/
def clearFlag (flags bit : Nat) : Nat := flags ^^^ (flags &&& bit)

/-- `modify_target_flags_kernel`, `/repo/boxtree/distributed/local_tree.py:159-185`. -/
def modifyTargetFlags (countsNonchild countsCumul flags : Nat → Nat) : Nat → Nat := fun i =>
  let f := clearFlag (flags i) flagIsTarget
  let f := clearFlag f flagHasTargetChild
  let f := if countsNonchild i ≠ 0 then f ||| flagIsTarget else f
  if countsNonchild i < countsCumul i then f ||| flagHasTargetChild else f

/-- `box_to_user_rank_starts`, `_lists`, `/repo/boxtree/distributed/local_tree.py:374-408`: the
masks gathered into one row per rank, transposed, compressed on the root rank and broadcast.  The
gathered array is `size * nboxes` cells in row-major order; its transpose has strides
`1, nboxes`. -/
def boxToUserRank (size nboxes : Nat) (multipoleSrc : Nat → Nat → Bool) : BuiltList :=
  let gathered : Int → Bool := fun k =>
    multipoleSrc (k / (nboxes : Int)).toNat (k % (nboxes : Int)).toNat
  compressMatrix gathered nboxes size 1 nboxes

/-- Particle attributes of the global tree that `generate_local_tree` reads: those read by the
wrangler, and `box_source_counts_cumul`, `box_target_counts_cumul`.
`/repo/boxtree/distributed/local_tree.py:198-285`, `:316-493`. -/
structure GlobalParticles extends Particles where
  srcCumul : Nat → Nat
  tgtCumul : Nat → Nat

/-- What `generate_local_tree` returns on one rank, apart from the coordinates: the tree, the
local lists, `src_idx`, `tgt_idx` and the masks stored in the tree.
`/repo/boxtree/distributed/local_tree.py:289-313`, `:316-493`. -/
structure LocalTree where
  tree : BoxTree
  sources : LocalParticles Unit
  targets : LocalParticles Unit
  masks : BoxMasks

/-- `generate_local_tree`, `/repo/boxtree/distributed/local_tree.py:316-495`, on one rank.
Particle coordinates are left out (`constructLocal` treats them). -/
def generateLocalTree (t : BoxTree) (g : GlobalParticles) (trav : Traversal)
    (targetsHaveExtent : Bool) (responsibleBoxes : List Nat) : LocalTree :=
  let masks := getBoxMasks t trav targetsHaveExtent responsibleBoxes
  let sources := constructLocal () g.nsources t.nboxes masks.pointSrc (fun _ => ())
    g.srcStart g.srcCount g.srcCumul
  let targets := constructLocal () g.ntargets t.nboxes masks.responsible (fun _ => ())
    g.tgtStart g.tgtCount g.tgtCumul
  { tree := { t with
      flags := modifyTargetFlags targets.countsNonchild targets.countsCumul t.flags
      srcCountCumul := sources.countsCumul }
    sources := sources
    targets := targets
    masks := masks }

end Boxtree.Dist
