import Verif.Model.TreeFinish
import Verif.Model.WorkItems

/-!
# The kernels after the level loop, work item by work item

`Model/TreeFinish` describes the kernels that split the particles into sources and targets and that find
the extents of the boxes by the arrays they leave.  Here are the programs of their work items.  `finishRun`
runs them with any schedule.  In the kernels that are not here (box flags, permutation of the particles)
each work item loads and stores entries with its own index only.
-/

namespace Boxtree.Build
open Boxtree.Par

/-! ### Sources and targets -/

/-- Cells of the output arguments of `SOURCE_AND_TARGET_INDEX_FINDER`,
`/repo/boxtree/tree_build_kernels.py:1029-1041`. -/
inductive KindLoc where
  /-- `box_source_starts[b]` or `box_target_starts[b]` -/
  | start (src : Bool) (b : Nat)
  /-- `box_source_counts_cumul[b]` or `box_target_counts_cumul[b]` -/
  | cumul (src : Bool) (b : Nat)
  /-- `box_source_counts_nonchild[b]` or `box_target_counts_nonchild[b]` -/
  | nonchild (src : Bool) (b : Nat)
  /-- `user_source_ids[i]` -/
  | userSource (i : Nat)
  /-- `srcntgt_target_ids[i]` -/
  | targetId (i : Nat)
  /-- `sorted_target_ids[i]` -/
  | sortedTarget (i : Nat)
  deriving DecidableEq

/-- `SOURCE_AND_TARGET_INDEX_FINDER`, `/repo/boxtree/tree_build_kernels.py:1013-1164`: the stores of
particle `i`.  No array that the kernel changes is loaded. -/
def indexFinder (haveExtent : Bool) (F : Flat) (nsources : Nat) (ids : Nat → Nat) (i : Nat) :
    List ((_ : KindLoc) × Nat) :=
  let sourceNr := sourceNumber nsources ids i
  let targetNr := i - sourceNr
  let box := F.pbox i
  (startBoxes F i).flatMap (fun b => [⟨.start true b, sourceNr⟩, ⟨.start false b, targetNr⟩]) ++
    (if haveExtent && decide (i + 1 = F.start box + F.nonchild box) then
      [⟨.nonchild true box, kindCount F nsources ids true i box⟩,
        ⟨.nonchild false box, kindCount F nsources ids false i box⟩]
    else []) ++
    (endBoxes F i).flatMap (fun b => [⟨.cumul true b, kindCount F nsources ids true i b⟩,
      ⟨.cumul false b, kindCount F nsources ids false i b⟩]) ++
    (if ids i < nsources then [⟨.userSource sourceNr, ids i⟩]
    else [⟨.targetId targetNr, ids i⟩, ⟨.sortedTarget (ids i - nsources), targetNr⟩])

/-- The launch of `source_and_target_index_finder`, `/repo/boxtree/tree_build.py:1511-1536`; the arrays are
zeroed before, `:1463-1508`. -/
def runIndexFinder (σ : List Nat) (haveExtent : Bool) (F : Flat) (n nsources : Nat) (ids : Nat → Nat) :
    Mem fun _ : KindLoc => Nat :=
  launch σ n (fun i => thenStore (.pure (indexFinder haveExtent F nsources ids i))) fun _ => 0

/-- `reverse_index_array`, `/repo/boxtree/tools.py:81-111`: work item `i` stores `i` at `ids[i]`. -/
def runReverse (σ : List Nat) (n : Nat) (ids : Nat → Nat) : Mem fun _ : Nat => Nat :=
  launch σ n (fun i => thenStore (.pure [⟨ids i, i⟩])) fun _ => 0

/-! ### Extents of boxes -/

/-- Cells of `box_particle_bounding_box_min` and `box_particle_bounding_box_max`, all axes in one,
`/repo/boxtree/tree_build_kernels.py:1326-1327`. -/
inductive SideLoc where
  /-- the lower side of box `b` -/
  | lo (b : Nat)
  /-- the upper side of box `b` -/
  | hi (b : Nat)
  deriving DecidableEq

/-- Entries of these arrays: a coordinate per axis, `/repo/boxtree/tree_build_kernels.py:1386-1389`. -/
abbrev Sides : Type := Mem fun _ : SideLoc => Nat → ℚ

/-- Loop over the children, `/repo/boxtree/tree_build_kernels.py:1367-1384`, then the stores,
`:1386-1392`. -/
def extentLoop (child : Nat → Nat → Nat) (b : Nat) : List Nat → (Nat → ℚ) → (Nat → ℚ) →
    Prog SideLoc (fun _ => Nat → ℚ) (List ((_ : SideLoc) × (Nat → ℚ)))
  | [], lo, hi => .pure [⟨.lo b, lo⟩, ⟨.hi b, hi⟩]
  | m :: ms, lo, hi =>
    if child m b = 0 then extentLoop child b ms lo hi
    else .read (.lo (child m b)) fun l => .read (.hi (child m b)) fun h =>
      extentLoop child b ms (fun a => min (lo a) (l a)) fun a => max (hi a) (h a)

/-- `BOX_EXTENTS_FINDER_TEMPLATE`, `/repo/boxtree/tree_build_kernels.py:1311-1395`, for box `b`; `fl` rounds. -/
def extentFinder (fl : ℚ → ℚ) (nch : Nat) (child : Nat → Nat → Nat) (ctr : Nat → Nat → ℚ)
    (start count : Nat → Nat) (x : Nat → Nat → ℚ) (r : Nat → ℚ) (b : Nat) :
    Prog SideLoc (fun _ => Nat → ℚ) (List ((_ : SideLoc) × (Nat → ℚ))) :=
  extentLoop child b (List.range nch)
    (fun a => (List.range (count b)).foldl
      (fun v j => min v (fl (x a (start b + j) - r (start b + j)))) (ctr b a))
    (fun a => (List.range (count b)).foldl
      (fun v j => max v (fl (x a (start b + j) + r (start b + j)))) (ctr b a))

/-- The launches for the levels `l-1, …, 0`, `/repo/boxtree/tree_build.py:1762-1802`, one after the other. -/
def runExtents (σ : Nat → List Nat) (lstart : Nat → Nat)
    (item : Nat → Prog SideLoc (fun _ => Nat → ℚ) (List ((_ : SideLoc) × (Nat → ℚ)))) :
    Nat → Sides → Sides
  | 0, m => m
  | l + 1, m => runExtents σ lstart item l
      (launch (σ l) (lstart (l + 1) - lstart l) (fun k => thenStore (item (lstart l + k))) m)

/-! ### Everything after pruning -/

/-- The turns of the work items in the launches after the level loop,
`/repo/boxtree/tree_build.py:1511-1802`. -/
structure FinSchedule where
  /-- source and target index finder -/
  index : List Nat
  /-- `reverse_index_array` -/
  reverse : List Nat
  /-- extents of sources (`true`) or targets for a level -/
  extents : Bool → Nat → List Nat

/-- `finishFlat`, `/repo/boxtree/tree_build.py:1434-1880`, with kernels that follow a schedule.  The extents
without rounding are not in the code; they get the schedule of those with rounding. -/
def finishRun (τ : FinSchedule) (P : Params) (C : Cloud) (L : Nat) (used ids : Nat → Nat) (F : Flat) :
    Built :=
  let lcount := levelCounts used F
  let lstart := levelStart lcount
  let n := P.n
  let ns := C.nsources
  let both := C.sourcesAreTargets
  let found := runIndexFinder τ.index P.haveExtent F n ns ids
  let srcStart := if both then F.start else fun b => found (.start true b)
  let tgtStart := if both then F.start else fun b => found (.start false b)
  let srcCumul := if both then F.count else fun b => found (.cumul true b)
  let tgtCumul := if both then F.count else fun b => found (.cumul false b)
  let srcNon0 := if P.haveExtent then
      (if both then F.nonchild else fun b => found (.nonchild true b)) else fun _ => 0
  let tgtNon0 := if P.haveExtent then
      (if both then F.nonchild else fun b => found (.nonchild false b)) else fun _ => 0
  let info := fun b =>
    boxInfo both (F.hasCh b) (F.count b) (srcCumul b) (tgtCumul b) (srcNon0 b) (tgtNon0 b)
  let usi := if both then ids else fun i => found (.userSource i)
  let tgtIds := if both then ids else fun i => found (.targetId i)
  let sources := fun a i => C.x a (usi i)
  let targets := fun a i => C.x a (tgtIds i)
  let srcRad := fun i => if C.sourcesHaveExtent then C.radius (usi i) else 0
  let tgtRad := fun i => if C.targetsHaveExtent then C.radius (tgtIds i) else 0
  let srcNon := fun b => (info b).2.1
  let tgtNon := fun b => (info b).2.2
  let ext := fun src fl (ctr : Nat → Nat → ℚ) (st non : Nat → Nat) (x : Nat → Nat → ℚ) r =>
    runExtents (τ.extents src) lstart (extentFinder fl P.nch F.child ctr st non x r) (L + 1)
      fun _ _ => 0
  let src := ext true P.fl F.stored srcStart srcNon sources srcRad
  let tgt := if both then src else ext false P.fl F.stored tgtStart tgtNon targets tgtRad
  let srcExact := ext true id F.center srcStart srcNon sources srcRad
  let tgtExact := if both then srcExact else ext false id F.center tgtStart tgtNon targets tgtRad
  { tree :=
      { dims := P.dims
        nboxes := F.nboxes
        nlevels := L + 1
        rootExtent := P.rootExtent
        parent := F.parent
        child := F.child
        level := F.level
        center := F.center
        flags := fun b => (info b).1
        srcCountCumul := srcCumul
        tgtMin := fun b a => tgtExact (.lo b) a
        tgtMax := fun b a => tgtExact (.hi b) a
        levelStart := lstart }
    particles :=
      { nsources := if both then n else ns
        ntargets := if both then n else n - ns
        srcStart := srcStart
        srcCount := srcNon
        tgtStart := tgtStart
        tgtCount := tgtNon
        userSourceIds := usi
        sortedTargetIds := if both then runReverse τ.reverse n ids
          else fun i => found (.sortedTarget i)
        srcCumul := srcCumul
        tgtCumul := tgtCumul }
    sources := sources
    targets := targets
    sourceRadii := srcRad
    targetRadii := tgtRad
    srcMin := fun b a => srcExact (.lo b) a
    srcMax := fun b a => srcExact (.hi b) a
    stored := F.stored
    srcMinF := fun b a => src (.lo b) a
    srcMaxF := fun b a => src (.hi b) a
    tgtMinF := fun b a => tgt (.lo b) a
    tgtMaxF := fun b a => tgt (.hi b) a }

end Boxtree.Build
