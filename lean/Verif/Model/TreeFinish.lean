import Verif.Model.TreeBuild
import Verif.Model.LocalTree
import Verif.Lemmas.Compact

/-!
# From the level loop to the tree

Model of `/repo/boxtree/tree_build.py:1278-1880`: pruning of empty boxes, particle indices and
counts for sources and targets, box flags and bounding boxes of boxes.
-/

namespace Boxtree.Build

/-- The arrays with flat box numbers.  `/repo/boxtree/tree_build.py:1276-1455`. -/
structure Flat where
  nboxes : Nat
  level : Nat → Nat
  parent : Nat → Nat
  child : Nat → Nat → Nat
  /-- `box_srcntgt_starts`, `box_srcntgt_counts_cumul`, `box_srcntgt_counts_nonchild` -/
  start : Nat → Nat
  count : Nat → Nat
  nonchild : Nat → Nat
  hasCh : Nat → Bool
  center : Nat → Nat → ℚ
  stored : Nat → Nat → ℚ
  /-- `srcntgt_box_ids` -/
  pbox : Nat → Nat

section
variable (P : Params)

/-- The arrays at the end of the level loop with deepest level `L`, if `len l` boxes are allocated
on level `l`.  `nonchild` is what `EXTRACT_NONCHILD_SRCNTGT_COUNT_TPL`
(`/repo/boxtree/tree_build_kernels.py:978-1006`) finds; without extents the code has no such array,
and zero is used here. -/
def flatten (len : Nat → Nat) (L : Nat) (s : State) : Flat where
  nboxes := levelStart len (L + 1)
  level := fun b => (locate len (L + 1) 0 b).1
  parent := fun b =>
    let p := locate len (L + 1) 0 b
    if p.1 = 0 then 0 else levelStart len (p.1 - 1) + s.parent p.1 p.2
  child := fun m b =>
    let p := locate len (L + 1) 0 b
    match s.child m p.1 p.2 with
    | some c => levelStart len (p.1 + 1) + c
    | none => 0
  start := fun b =>
    let p := locate len (L + 1) 0 b
    s.start p.1 p.2
  count := fun b =>
    let p := locate len (L + 1) 0 b
    s.count p.1 p.2
  nonchild := fun b =>
    let p := locate len (L + 1) 0 b
    if P.haveExtent then
      if levelStart len L ≤ b then 0
      else if s.count p.1 p.2 = 0 then 0
      else (s.bins p.1 p.2).nonchild
    else 0
  hasCh := fun b =>
    let p := locate len (L + 1) 0 b
    s.hasCh p.1 p.2
  center := fun b a =>
    let p := locate len (L + 1) 0 b
    s.center p.1 p.2 a
  stored := fun b a =>
    let p := locate len (L + 1) 0 b
    s.stored p.1 p.2 a
  pbox := fun i => levelStart len (s.box i).1 + (s.box i).2

/-- Boxes that are kept, `/repo/boxtree/tree_build.py:1328-1392`: those with particles, or with
`skip_prune` those that are not padding.  (Without level restriction there is no padding.) -/
def keeps (skipPrune : Bool) (len : Nat → Nat) (L : Nat) (s : State) (b : Nat) : Bool :=
  let p := locate len (L + 1) 0 b
  if skipPrune then decide (p.2 < s.used p.1) else decide (s.count p.1 p.2 ≠ 0)

/-- `src_box_id`, `/repo/boxtree/tree_build_kernels.py:1693-1718`. -/
def srcBoxId (nboxes : Nat) (keep : Nat → Bool) (i : Nat) : Nat :=
  ((List.range nboxes).filter keep).getD i 0

/-- `dst_box_id`, `/repo/boxtree/tree_build_kernels.py:1693-1718`: zero for a removed box. -/
def dstBoxId (keep : Nat → Bool) (b : Nat) : Nat := if keep b then rankOf keep b else 0

/-- Compression of all arrays, `/repo/boxtree/tree_build.py:1394-1433`. -/
def prune (keep : Nat → Bool) (F : Flat) : Flat :=
  let src := srcBoxId F.nboxes keep
  let dst := dstBoxId keep
  { nboxes := ((List.range F.nboxes).filter keep).length
    level := fun b => F.level (src b)
    parent := fun b => dst (F.parent (src b))
    child := fun m b => dst (F.child m (src b))
    start := fun b => F.start (src b)
    count := fun b => F.count (src b)
    nonchild := fun b => F.nonchild (src b)
    hasCh := fun b => F.hasCh (src b)
    center := fun b => F.center (src b)
    stored := fun b => F.stored (src b)
    pbox := fun i => dst (F.pbox i) }

/-- Scan of `find_level_box_counts_kernel`, `/repo/boxtree/tree_build_kernels.py:1722-1744`. -/
def levelRun (level : Nat → Nat) : Nat → Nat
  | 0 => 1
  | b + 1 => if level (b + 1) ≠ level b then 1 else levelRun level b + 1

/-- `level_used_box_counts` after pruning: the last box of a level stores its count, levels without
boxes keep the value from before.  `/repo/boxtree/tree_build.py:1436-1449`,
`/repo/boxtree/tree_build_kernels.py:1768-1783`. -/
def levelCounts (used : Nat → Nat) (F : Flat) (l : Nat) : Nat :=
  match (List.range F.nboxes).find? fun b =>
    decide (F.level b = l ∧ (b + 1 = F.nboxes ∨ F.level b ≠ F.level (b + 1))) with
  | some b => levelRun F.level b
  | none => used l

/-! ### Sources and targets -/

/-- What is built: the tree and its particle arrays.  `tree.center`, `tree.tgtMin`, `tree.tgtMax`,
`srcMin` and `srcMax` are without rounding; what the code returns are `stored` and the arrays with
suffix `F`, the same without rounding (`C70_exact_partial`).
`/repo/boxtree/tree_build.py:1810-1876`. -/
structure Built where
  tree : BoxTree
  particles : Dist.GlobalParticles
  /-- coordinates in tree order -/
  sources : Nat → Nat → ℚ
  targets : Nat → Nat → ℚ
  sourceRadii : Nat → ℚ
  targetRadii : Nat → ℚ
  srcMin : Nat → Nat → ℚ
  srcMax : Nat → Nat → ℚ
  /-- `box_centers` -/
  stored : Nat → Nat → ℚ
  /-- `box_source_bounding_box_min/max` and `box_target_bounding_box_min/max` -/
  srcMinF : Nat → Nat → ℚ
  srcMaxF : Nat → Nat → ℚ
  tgtMinF : Nat → Nat → ℚ
  tgtMaxF : Nat → Nat → ℚ

/-- `source_counter`, `/repo/boxtree/tree_build_kernels.py:1768-1783`: exclusive scan. -/
def sourceNumber (nsources : Nat) (ids : Nat → Nat) (i : Nat) : Nat :=
  Nat.count (fun j => ids j < nsources) i

/-- The boxes visited by a `while` loop that climbs from `b` to the root as long as `cond` holds,
`/repo/boxtree/tree_build_kernels.py:1064-1084` and `:1109-1142`.  It ends at the root at the
latest, after one step per level. -/
def climb (F : Flat) (cond : Nat → Bool) : Nat → Nat → List Nat
  | 0, _ => []
  | fuel + 1, b =>
    if cond b then b :: (if F.parent b = b then [] else climb F cond fuel (F.parent b)) else []

/-- Boxes whose start is written by particle `i`.  `/repo/boxtree/tree_build_kernels.py:1064-1085`.
-/
def startBoxes (F : Flat) (i : Nat) : List Nat :=
  climb F (fun b => decide (i = F.start b)) (F.level (F.pbox i) + 1) (F.pbox i)

/-- Boxes whose counts are written by particle `i`.
`/repo/boxtree/tree_build_kernels.py:1110-1145`. -/
def endBoxes (F : Flat) (i : Nat) : List Nat :=
  climb F (fun b => decide (i + 1 = F.start b + F.count b)) (F.level (F.pbox i) + 1) (F.pbox i)

/-- Value written to cell `b` of a zeroed array, if particle `i` writes to the cells `cells i`.
Stores of `/repo/boxtree/tree_build_kernels.py:1064-1145`. -/
def scatter (n : Nat) (cells : Nat → List Nat) (value : Nat → Nat → Nat) (b : Nat) : Nat :=
  match (List.range n).find? fun i => decide (b ∈ cells i) with
  | some i => value i b
  | none => 0

/-- Sources (`true`) or targets (`false`) before particle `i`: `source_nr` and `target_nr`,
`/repo/boxtree/tree_build_kernels.py:1049-1050`. -/
def kindNumber (nsources : Nat) (ids : Nat → Nat) (src : Bool) (i : Nat) : Nat :=
  if src then sourceNumber nsources ids i else i - sourceNumber nsources ids i

/-- The number of sources (targets) from the start of box `b` up to and including particle `i`,
`/repo/boxtree/tree_build_kernels.py:1097-1103`, `:1123-1129`. -/
def kindCount (F : Flat) (nsources : Nat) (ids : Nat → Nat) (src : Bool) (i b : Nat) : Nat :=
  let isSource := if ids i < nsources then 1 else 0
  if src then sourceNumber nsources ids i + isSource - sourceNumber nsources ids (F.start b)
  else kindNumber nsources ids false i + 1 - isSource - kindNumber nsources ids false (F.start b)

/-- `box_source_starts` / `box_target_starts`.  `/repo/boxtree/tree_build_kernels.py:1064-1085`. -/
def boxStarts (F : Flat) (n nsources : Nat) (ids : Nat → Nat) (src : Bool) : Nat → Nat :=
  scatter n (startBoxes F) fun i _ => kindNumber nsources ids src i

/-- `box_source_counts_cumul` / `box_target_counts_cumul`.
`/repo/boxtree/tree_build_kernels.py:1110-1145`. -/
def boxCounts (F : Flat) (n nsources : Nat) (ids : Nat → Nat) (src : Bool) : Nat → Nat :=
  scatter n (endBoxes F) fun i b => kindCount F nsources ids src i b

/-- `box_source_counts_nonchild` / `box_target_counts_nonchild` before the box flags are found,
`/repo/boxtree/tree_build_kernels.py:1086-1104`; only with extents. -/
def boxNonchild (F : Flat) (n nsources : Nat) (ids : Nat → Nat) (src : Bool) : Nat → Nat :=
  scatter n (fun i => if i + 1 = F.start (F.pbox i) + F.nonchild (F.pbox i) then [F.pbox i] else [])
    fun i b => kindCount F nsources ids src i b

/-- `user_source_ids`, `/repo/boxtree/tree_build_kernels.py:1151-1154`. -/
def userSourceIds (n nsources : Nat) (ids : Nat → Nat) : Nat → Nat :=
  scatter n (fun i => if ids i < nsources then [sourceNumber nsources ids i] else [])
    fun i _ => ids i

/-- `srcntgt_target_ids`, `/repo/boxtree/tree_build_kernels.py:1155-1159`. -/
def srcntgtTargetIds (n nsources : Nat) (ids : Nat → Nat) : Nat → Nat :=
  scatter n (fun i => if ids i < nsources then [] else [kindNumber nsources ids false i])
    fun i _ => ids i

/-- `sorted_target_ids`, `/repo/boxtree/tree_build_kernels.py:1155-1160`. -/
def sortedTargetIds (n nsources : Nat) (ids : Nat → Nat) : Nat → Nat :=
  scatter n (fun i => if ids i < nsources then [] else [ids i - nsources])
    fun i _ => kindNumber nsources ids false i

/-- `reverse_index_array`, `/repo/boxtree/tools.py:81-111`, for the case of one particle array. -/
def reverseIds (n : Nat) (ids : Nat → Nat) : Nat → Nat :=
  scatter n (fun i => [ids i]) fun i _ => i

/-! ### Box flags -/

/-- `a - b` of signed integers as a truth value.  `/repo/boxtree/tree_build_kernels.py:1259-1272`.
-/
def differ (a b : Nat) : Bool := decide (a ≠ b)

/-- `BOX_INFO_KERNEL_TPL`, `/repo/boxtree/tree_build_kernels.py:1192-1307`: flags and the counts of
own sources and targets. -/
def boxInfo (sourcesAreTargets : Bool) (hasCh : Bool) (count srcCumul tgtCumul srcNon tgtNon : Nat) :
    Nat × Nat × Nat :=
  if hasCh then
    let f0 := flagHasSourceChild ||| flagHasTargetChild
    let f1 :=
      if sourcesAreTargets then
        if differ count (srcNon + tgtNon) then f0 ||| (flagHasSourceChild ||| flagHasTargetChild)
        else f0
      else
        let f := if differ srcCumul srcNon then f0 ||| flagHasSourceChild else f0
        if differ tgtCumul tgtNon then f ||| flagHasTargetChild else f
    let f2 := if srcNon ≠ 0 then f1 ||| flagIsSource else f1
    let f3 := if tgtNon ≠ 0 then f2 ||| flagIsTarget else f2
    (f3, srcNon, tgtNon)
  else if sourcesAreTargets then
    (if count ≠ 0 then flagIsSource ||| flagIsTarget else 0, count, count)
  else
    let mySrc := srcCumul
    let myTgt := count - srcCumul
    let f1 := if mySrc ≠ 0 then flagIsSource else 0
    (if myTgt ≠ 0 then f1 ||| flagIsTarget else f1, mySrc, myTgt)

/-! ### Bounding boxes of boxes -/

/-- `BOX_EXTENTS_FINDER_TEMPLATE`, `/repo/boxtree/tree_build_kernels.py:1311-1400`, lower side, for
box `b` and one axis: center, own particles, children.  `fl` rounds `x - r`. -/
def boxLower (fl : ℚ → ℚ) (nch : Nat) (child : Nat → Nat → Nat) (center : ℚ) (start count : Nat)
    (x r : Nat → ℚ) (lower : Nat → ℚ) (b : Nat) : ℚ :=
  let own := (List.range count).foldl (fun v j => min v (fl (x (start + j) - r (start + j)))) center
  (List.range nch).foldl (fun v m => if child m b = 0 then v else min v (lower (child m b))) own

/-- Upper side.  `box_source_bounding_box_max`, `box_target_bounding_box_max`,
`/repo/boxtree/tree_build_kernels.py:1311-1395`. -/
def boxUpper (fl : ℚ → ℚ) (nch : Nat) (child : Nat → Nat → Nat) (center : ℚ) (start count : Nat)
    (x r : Nat → ℚ) (upper : Nat → ℚ) (b : Nat) : ℚ :=
  let own := (List.range count).foldl (fun v j => max v (fl (x (start + j) + r (start + j)))) center
  (List.range nch).foldl (fun v m => if child m b = 0 then v else max v (upper (child m b))) own

/-- The level loop `for level in range(nlevels-1, -1, -1)`, `/repo/boxtree/tree_build.py:1762-1814`,
for levels `l-1, …, 0`: the boxes of one level are all updated from the array of the deeper
levels. -/
def sweepUp (levelStart : Nat → Nat) (f : (Nat → ℚ) → Nat → ℚ) : Nat → (Nat → ℚ) → Nat → ℚ
  | 0, arr => arr
  | l + 1, arr => sweepUp levelStart f l fun b =>
      if levelStart l ≤ b ∧ b < levelStart (l + 1) then f arr b else arr b

/-- Particles as `__call__` gets them: sources first, then targets if they are separate.
`/repo/boxtree/tree_build.py:324-403`. -/
structure Cloud where
  sourcesAreTargets : Bool
  nsources : Nat
  /-- coordinate per axis and particle -/
  x : Nat → Nat → ℚ
  /-- `srcntgt_radii`; zero without extents -/
  radius : Nat → ℚ
  sourcesHaveExtent : Bool
  targetsHaveExtent : Bool

/-- Everything after pruning, `/repo/boxtree/tree_build.py:1434-1880`, from the compressed arrays `F`,
`level_used_box_counts` and `user_srcntgt_ids`. -/
def finishFlat (C : Cloud) (L : Nat) (used ids : Nat → Nat) (F : Flat) : Built :=
  let lcount := levelCounts used F
  let lstart := levelStart lcount
  let n := P.n
  let ns := C.nsources
  let both := C.sourcesAreTargets
  let srcStart := if both then F.start else boxStarts F n ns ids true
  let tgtStart := if both then F.start else boxStarts F n ns ids false
  let srcCumul := if both then F.count else boxCounts F n ns ids true
  let tgtCumul := if both then F.count else boxCounts F n ns ids false
  let srcNon0 := if P.haveExtent then
      (if both then F.nonchild else boxNonchild F n ns ids true) else fun _ => 0
  let tgtNon0 := if P.haveExtent then
      (if both then F.nonchild else boxNonchild F n ns ids false) else fun _ => 0
  let info := fun b =>
    boxInfo both (F.hasCh b) (F.count b) (srcCumul b) (tgtCumul b) (srcNon0 b) (tgtNon0 b)
  let usi := if both then ids else userSourceIds n ns ids
  let tgtIds := if both then ids else srcntgtTargetIds n ns ids
  let sources := fun a i => C.x a (usi i)
  let targets := fun a i => C.x a (tgtIds i)
  let srcRad := fun i => if C.sourcesHaveExtent then C.radius (usi i) else 0
  let tgtRad := fun i => if C.targetsHaveExtent then C.radius (tgtIds i) else 0
  let srcNon := fun b => (info b).2.1
  let tgtNon := fun b => (info b).2.2
  let lower := fun fl (ctr : Nat → Nat → ℚ) (st non : Nat → Nat) (x : Nat → Nat → ℚ) r a =>
    sweepUp lstart (fun arr b =>
      boxLower fl P.nch F.child (ctr b a) (st b) (non b) (x a) r arr b) (L + 1) fun _ => 0
  let upper := fun fl (ctr : Nat → Nat → ℚ) (st non : Nat → Nat) (x : Nat → Nat → ℚ) r a =>
    sweepUp lstart (fun arr b =>
      boxUpper fl P.nch F.child (ctr b a) (st b) (non b) (x a) r arr b) (L + 1) fun _ => 0
  { tree :=
      { dims := P.dims
        nboxes := F.nboxes
        nlevels := L + 1
        rootExtent := P.rootExtent
        parent := F.parent
        child := F.child
        level := F.level
        center := F.center
        flags := fun b => (info b).1
        srcCountCumul := srcCumul
        tgtMin := fun b a => if both then lower id F.center srcStart srcNon sources srcRad a b
          else lower id F.center tgtStart tgtNon targets tgtRad a b
        tgtMax := fun b a => if both then upper id F.center srcStart srcNon sources srcRad a b
          else upper id F.center tgtStart tgtNon targets tgtRad a b
        levelStart := lstart }
    particles :=
      { nsources := if both then n else ns
        ntargets := if both then n else n - ns
        srcStart := srcStart
        srcCount := srcNon
        tgtStart := tgtStart
        tgtCount := tgtNon
        userSourceIds := usi
        sortedTargetIds := if both then reverseIds n ids else sortedTargetIds n ns ids
        srcCumul := srcCumul
        tgtCumul := tgtCumul }
    sources := sources
    targets := targets
    sourceRadii := srcRad
    targetRadii := tgtRad
    srcMin := fun b a => lower id F.center srcStart srcNon sources srcRad a b
    srcMax := fun b a => upper id F.center srcStart srcNon sources srcRad a b
    stored := F.stored
    srcMinF := fun b a => lower P.fl F.stored srcStart srcNon sources srcRad a b
    srcMaxF := fun b a => upper P.fl F.stored srcStart srcNon sources srcRad a b
    tgtMinF := fun b a => if both then lower P.fl F.stored srcStart srcNon sources srcRad a b
      else lower P.fl F.stored tgtStart tgtNon targets tgtRad a b
    tgtMaxF := fun b a => if both then upper P.fl F.stored srcStart srcNon sources srcRad a b
      else upper P.fl F.stored tgtStart tgtNon targets tgtRad a b }

/-- Everything after the level loop, `/repo/boxtree/tree_build.py:1278-1880`. -/
def finish (C : Cloud) (skipPrune : Bool) (len : Nat → Nat) (L : Nat) (s : State) : Built :=
  finishFlat P C L s.used s.ids (prune (keeps skipPrune len L s) (flatten P len L s))

end
end Boxtree.Build
