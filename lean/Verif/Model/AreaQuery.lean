import Verif.Model.Walk
import Verif.Model.Csr
import Verif.Model.Tools
import Verif.Model.DeviceTests
import Mathlib.Data.Rat.Floor

/-!
# Area queries, peer lists, leaves-to-balls lookup, space invader query

Model of `/repo/boxtree/area_query.py`.  The adjacency test, the guiding box finder,
the overlap test and the distance to a box center are parameters of the kernels; unless said
otherwise they are computed without rounding.  The versions with rounding end in `F`; for what they
do not round see `Model/DeviceTests`.  Simplifications: `1U << (1 + box_level)` is the mathematical power of two, and `aligned_nboxes` indexing of
`box_child_ids` is the function `child`.
-/

namespace Boxtree
namespace Area
variable (t : BoxTree)

/-- `BOX_HAS_SOURCE_OR_TARGET_CHILD_BOXES` (both bits,
`/repo/boxtree/tree.py:136-139`) tested against the box flags, as at
`/repo/boxtree/area_query.py:245`, `:317`, `:335`, `:427`. -/
def hasChildFlag (b : Nat) : Bool :=
  hasFlag (t.flags b) (flagHasSourceChild ||| flagHasTargetChild)

/-! ### peer lists -/

/-- `is_adjacent_or_overlapping`, `/repo/boxtree/traversal.py:307-314`, between boxes on given
levels. -/
abbrev AdjTest := Nat → Nat → Nat → Nat → Bool

/-- The adjacency test on stored centers with rounding.  `is_adjacent_or_overlapping`,
`/repo/boxtree/traversal.py:279-318`. -/
def adjacentF (fl : ℚ → ℚ) (c0 : Nat → ℚ) : AdjTest := fun a la b lb =>
  t.adjF fl (t.storedCenter fl c0 a) la 1 (t.storedCenter fl c0 b) lb

/-- The loop over the children that computes `must_be_peer`,
`/repo/boxtree/area_query.py:434-453`. -/
def mustBePeer (box depth c : Nat)
    (adj : AdjTest := fun a la b lb => t.adjOver (t.center a) la (t.center b) lb) : Bool :=
  (List.range t.nch).foldl (fun must m =>
    if must then
      let next := t.child m c
      if next = 0 then must
      else must && !adj box (t.level box) next (depth + 2)
    else must) true

/-- Body of the walk of `PEER_LIST_FINDER_TEMPLATE`, `/repo/boxtree/area_query.py:412-469`. -/
def peerVisit (box : Nat) (depth c : Nat)
    (adj : AdjTest := fun a la b lb => t.adjOver (t.center a) la (t.center b) lb) :
    List Nat × Bool :=
  if adj box (t.level box) c (depth + 1) then
    if depth + 1 = t.level box then ([c], false)
    else if !hasChildFlag t c then ([c], false)
    else if mustBePeer t box depth c adj then ([c], false)
    else ([], true)
  else ([], false)

/-- `PEER_LIST_FINDER_TEMPLATE`, `/repo/boxtree/area_query.py:393-473`. -/
def peerKernel (box : Nat)
    (adj : AdjTest := fun a la b lb => t.adjOver (t.center a) la (t.center b) lb) : List Nat :=
  if box = 0 then [box] else walk t (fun depth c => peerVisit t box depth c adj) 0

/-- `PeerListFinder.__call__`, `/repo/boxtree/area_query.py:1130-1165`. -/
def peerLists (adj : AdjTest := fun a la b lb => t.adjOver (t.center a) la (t.center b) lb) :
    BuiltList :=
  buildLists ((List.range t.nboxes).map fun box => peerKernel t box adj)

/-! ### guiding box -/

/-- One `l^∞` ball: `ball_x[i], ball_y[i], ...` and `ball_radii[i]`.  `get_ball_center_and_radius`,
`/repo/boxtree/area_query.py:373-378`. -/
structure Ball where
  center : Nat → ℚ
  radius : ℚ

/-- `TreeBuilder.ROOT_EXTENT_STRETCH_FACTOR`, `/repo/boxtree/tree_build.py:101`. -/
def stretchFactor : ℚ := 1 / 10000

/-- `bbox_max`, `/repo/boxtree/area_query.py:191-192`; `bmin` is `tree.bounding_box[0]`. -/
def bboxMax (bmin : Nat → ℚ) (i : Nat) : ℚ := bmin i + t.rootExtent / (1 + stretchFactor)

/-- `min(bbox_max, max(bbox_min, x))`, `/repo/boxtree/area_query.py:193` and `:226-227`. -/
def clamp (bmin : Nat → ℚ) (x : Nat → ℚ) (i : Nat) : ℚ := min (bboxMax t bmin i) (max (bmin i) (x i))

/-- Component `i` of `offset` for corner `mnr`, `/repo/boxtree/area_query.py:219-224`:
`+radius` if bit `dimensions-1-i` of `mnr` is set, `-radius` otherwise. -/
def cornerOffset (mnr : Nat) (r : ℚ) (i : Nat) : ℚ :=
  if (2 ^ (t.dims - 1 - i) &&& mnr) ≠ 0 then r else -r

/-- The unrolled loops computing `query_radius`, `/repo/boxtree/area_query.py:213-235`. -/
def queryRadius (bmin : Nat → ℚ) (ball : Ball) : ℚ :=
  (List.range t.nch).foldl (fun acc mnr =>
    (List.range t.dims).foldl (fun acc i =>
      max acc |clamp t bmin (fun j => ball.center j + cornerOffset t mnr ball.radius j) i
        - clamp t bmin ball.center i|) acc) 0

/-- `level_morton_number`, `/repo/boxtree/area_query.py:258-277`: the lowest bit of
`(unsigned) ((x_i - bbox_min_i) / root_extent * (1U << (1 + box_level)))` for each axis, axis 0
in the most significant place. -/
def queryMorton (bmin : Nat → ℚ) (x : Nat → ℚ) (level : Nat) : Nat :=
  (List.range t.dims).foldl (fun acc i =>
    let bits := ⌊(x i - bmin i) / t.rootExtent * 2 ^ (1 + level)⌋.toNat
    acc ||| ((bits &&& 1) <<< (t.dims - 1 - i))) 0

/-- The loop of step 3, `/repo/boxtree/area_query.py:243-291`, with the number of iterations
bounded by the first argument (`none` = the bound was hit); `rad` is `LEVEL_TO_RAD`, `morton` the
Morton number on each level. -/
def guidingLoopBy (rad : Nat → ℚ) (morton : Nat → Nat) (qr : ℚ) : Nat → Nat → Nat → Option Nat
  | 0, _, _ => none
  | fuel + 1, level, box =>
    if !hasChildFlag t box || (decide (rad level / 2 < qr) && decide (qr ≤ rad level)) then
      some box
    else
      let next := t.child (morton level) box
      if next ≠ 0 then guidingLoopBy rad morton qr fuel (level + 1) next
      else some box

/-- The loop of step 3 without rounding.  `find_guiding_box`, `/repo/boxtree/area_query.py:237-289`.
-/
def guidingLoop (bmin : Nat → ℚ) (x : Nat → ℚ) (qr : ℚ) : Nat → Nat → Nat → Option Nat :=
  guidingLoopBy t t.rad (queryMorton t bmin x) qr

/-- `find_guiding_box`, `/repo/boxtree/area_query.py:172-292`.  The `getD 0` branch is never
taken on a well-formed tree (`guidingBox_terminates`). -/
def guidingBox (bmin : Nat → ℚ) (ball : Ball) : Nat :=
  let qc := clamp t bmin ball.center
  let qr := queryRadius t bmin ball
  if t.rad 0 / 2 ≥ qr then (guidingLoop t bmin qc qr (t.nlevels + 1) 0 0).getD 0 else 0

/-- `bbox_max` with rounding, `/repo/boxtree/area_query.py:191-192`.  The quotient is computed
with the precision `hf` of the C constant and converted to `coord_t`. -/
def bboxMaxF (fl hf : ℚ → ℚ) (bmin : Nat → ℚ) (i : Nat) : ℚ :=
  fl (bmin i + fl (hf (t.rootExtent / hf (1 + hf stretchFactor))))

/-- `min(bbox_max, max(bbox_min, x))` with the rounded `bbox_max`,
`/repo/boxtree/area_query.py:193` and `:226-227`. -/
def clampF (fl hf : ℚ → ℚ) (bmin : Nat → ℚ) (x : Nat → ℚ) (i : Nat) : ℚ :=
  min (bboxMaxF t fl hf bmin i) (max (bmin i) (x i))

/-- `query_radius` with rounding, `/repo/boxtree/area_query.py:213-235`. -/
def queryRadiusF (fl hf : ℚ → ℚ) (bmin : Nat → ℚ) (ball : Ball) : ℚ :=
  (List.range t.nch).foldl (fun acc mnr =>
    (List.range t.dims).foldl (fun acc i =>
      max acc |fl (clampF t fl hf bmin
          (fun j => fl (ball.center j + cornerOffset t mnr ball.radius j)) i
        - clampF t fl hf bmin ball.center i)|) acc) 0

/-- `level_morton_number` with rounding, `/repo/boxtree/area_query.py:258-277`. -/
def queryMortonF (fl : ℚ → ℚ) (bmin : Nat → ℚ) (x : Nat → ℚ) (level : Nat) : Nat :=
  (List.range t.dims).foldl (fun acc i =>
    let offsetScaled := fl (fl (x i - bmin i) / t.rootExtent)
    let bits := ⌊fl (offsetScaled * 2 ^ (1 + level))⌋.toNat
    acc ||| ((bits &&& 1) <<< (t.dims - 1 - i))) 0

/-- `find_guiding_box` with rounding, `/repo/boxtree/area_query.py:172-292`.  Division by 2 is
exact. -/
def guidingBoxF (fl hf : ℚ → ℚ) (bmin : Nat → ℚ) (ball : Ball) : Nat :=
  let qc := clampF t fl hf bmin ball.center
  let qr := queryRadiusF t fl hf bmin ball
  if t.radF fl 0 / 2 ≥ qr then
    (guidingLoopBy t (t.radF fl) (queryMortonF t fl bmin qc) qr (t.nlevels + 1) 0 0).getD 0
  else 0

/-! ### area query -/

/-- `check_l_infty_ball_overlap`, `/repo/boxtree/traversal.py:200-214`. -/
def ballOverlaps (ball : Ball) (b : Nat) : Bool :=
  let sizeSum := t.rad (t.level b) + ball.radius
  decide (t.linf ball.center (t.center b) ≤ sizeSum)

/-- `check_l_infty_ball_overlap` with rounding.  `/repo/boxtree/traversal.py:200-214`. -/
def ballOverlapsF (fl : ℚ → ℚ) (c0 : Nat → ℚ) (ball : Ball) (b : Nat) : Bool :=
  let sizeSum := fl (t.radF fl (t.level b) + ball.radius)
  decide (t.linfF fl ball.center (t.storedCenter fl c0 b) ≤ sizeSum)

/-- Body of the walk in `AREA_QUERY_WALKER_BODY`, `/repo/boxtree/area_query.py:327-358`. -/
def areaVisit (ball : Ball) (_depth c : Nat) (ov : Ball → Nat → Bool := ballOverlaps t) :
    List Nat × Bool :=
  if !hasChildFlag t c then (if ov ball c then [c] else [], false)
  else ([], true)

/-- What happens for one peer box, `/repo/boxtree/area_query.py:315-359`. -/
def areaPeer (ball : Ball) (peer : Nat) (ov : Ball → Nat → Bool := ballOverlaps t) : List Nat :=
  if !hasChildFlag t peer then (if ov ball peer then [peer] else [])
  else walk t (fun depth c => areaVisit t ball depth c ov) peer

/-- `AREA_QUERY_WALKER_BODY`, `/repo/boxtree/area_query.py:295-362`: the boxes for which
`leaf_found_op` is executed, in order. -/
def areaWalk (bmin : Nat → ℚ) (peers : BuiltList) (ball : Ball)
    (guide : Ball → Nat := guidingBox t bmin) (ov : Ball → Nat → Bool := ballOverlaps t) : List Nat :=
  (peers.row (guide ball)).flatMap fun peer => areaPeer t ball peer ov

/-- The exceptions raised by the query builders.  `/repo/boxtree/area_query.py:764-781`, `:867-870`,
`:997-1012`. -/
inductive AreaErr
  | peerListSize
deriving DecidableEq, Repr

/-- `AreaQueryBuilder.__call__`, `/repo/boxtree/area_query.py:738-800`: with `peer_lists=None`
the peer lists are built first; otherwise their size is checked.  Not modelled: the dtype
checks. -/
def areaQuery (bmin : Nat → ℚ) (balls : List Ball) (peers : Option BuiltList)
    (guide : Ball → Nat := guidingBox t bmin) (ov : Ball → Nat → Bool := ballOverlaps t)
    (adj : AdjTest := fun a la b lb => t.adjOver (t.center a) la (t.center b) lb) :
    Except AreaErr BuiltList :=
  let peers := peers.getD (peerLists t adj)
  if peers.starts.length ≠ t.nboxes + 1 then .error .peerListSize
  else .ok (buildLists (balls.map fun ball => areaWalk t bmin peers ball guide ov))

/-! ### leaves-to-balls lookup -/

/-- `STARTS_EXPANDER_TEMPLATE`, `/repo/boxtree/area_query.py:476-488`, for every entry of a list
with `n` entries; `none` if a search does not return or the result is "not found". -/
def expandStarts (starts : List Nat) (n : Nat) : Option (List Nat) :=
  (List.range n).mapM fun i =>
    match Tools.bsearch (fun k => starts.getD k 0) starts.length i starts.length with
    | some (Int.ofNat j) => some j
    | _ => none

/-- Contract of `pyopencl.algorithm.KeyValueSorter`, as used at
`/repo/boxtree/area_query.py:901-910`: `argsort` gives the order in which the entries appear in
the sorted output; `starts[k]` is the number of keys smaller than `k`, for `k = 0, ..., nkeys`. -/
def keyValueSort (argsort : List Nat → List Nat) (keys values : List Nat) (nkeys : Nat) :
    BuiltList where
  starts := (List.range (nkeys + 1)).map fun k => keys.countP (· < k)
  lists := (argsort keys).map fun i => values.getD i 0

/-- `LeavesToBallsLookupBuilder.__call__`, `/repo/boxtree/area_query.py:842-918`. -/
def leavesToBalls (argsort : List Nat → List Nat) (bmin : Nat → ℚ) (balls : List Ball)
    (peers : Option BuiltList) (guide : Ball → Nat := guidingBox t bmin)
    (ov : Ball → Nat → Bool := ballOverlaps t)
    (adj : AdjTest := fun a la b lb => t.adjOver (t.center a) la (t.center b) lb) :
    Except AreaErr (Option BuiltList) := do
  let aq ← areaQuery t bmin balls peers guide ov adj
  return (expandStarts aq.starts aq.lists.length).map fun expanded =>
    keyValueSort argsort aq.lists expanded t.nboxes

/-! ### space invader query -/

/-- `atomic_max(&out[leaf], value)`, `/repo/boxtree/area_query.py:642-646`. -/
def atomicMax (out : List ℤ) (u : Nat × ℤ) : List ℤ := out.set u.1 (max (out.getD u.1 0) u.2)

/-- The atomic updates issued by the work item of one ball, in program order,
`/repo/boxtree/area_query.py:628-648`: `asInt` is `as_int((float) ·)`. -/
def invaderUpdates (asInt : ℚ → ℤ) (bmin : Nat → ℚ) (peers : BuiltList) (ball : Ball)
    (guide : Ball → Nat := guidingBox t bmin) (ov : Ball → Nat → Bool := ballOverlaps t)
    (dist : Ball → Nat → ℚ := fun ball leaf => t.linf ball.center (t.center leaf)) :
    List (Nat × ℤ) :=
  (areaWalk t bmin peers ball guide ov).map fun leaf => (leaf, asInt (dist ball leaf))

/-- `SpaceInvaderQueryBuilder.__call__`, `/repo/boxtree/area_query.py:972-1048`: zeroed output,
then all updates in the order `schedule` in which the device happens to perform them.  The
result is the array of bit patterns `as_int(float)`; the final cast to `coord_dtype` is not
modelled. -/
def spaceInvader (schedule : List (Nat × ℤ)) : List ℤ :=
  schedule.foldl atomicMax (List.replicate t.nboxes 0)

end Area
end Boxtree
