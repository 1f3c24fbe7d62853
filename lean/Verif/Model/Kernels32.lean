import Verif.Model.IntShift
import Verif.Model.Morton32
import Verif.Model.AreaQuery
import Verif.Model.Traversal
import Verif.Model.TranslationClasses

/-!
# The list kernels and area queries with 32-bit shifts

The kernels of `/repo/boxtree/traversal.py` and `/repo/boxtree/area_query.py` with `LEVEL_TO_RAD` (`rad32`)
and `1U << (1 + box_level)` (`Build.shift32`) evaluated as OpenCL does.  No rounding.
The stored centers `ctr` are those of the tree unless given: on deep levels they are not
(`Model/DeepCenters`).
-/

namespace Boxtree
namespace BoxTree
variable (t : BoxTree)

/-- `is_adjacent_or_overlapping_with_neighborhood`, `/repo/boxtree/traversal.py:279-305`. -/
def adjNbhd32 (tc : Nat → ℚ) (tl : Nat) (n : ℚ) (sc : Nat → ℚ) (sl : Nat) : Bool :=
  let targetRad := t.rad32 tl
  let sourceRad := t.rad32 sl
  let radSum := (2 * (n - 1) + 1) * targetRad + sourceRad
  let slack := radSum + min targetRad sourceRad
  decide (t.linf tc sc ≤ slack)

/-- `meets_sep_bigger_criterion`, `/repo/boxtree/traversal.py:933-972`. -/
def meetsSepBigger32 (tc : Nat → ℚ) (tl : Nat) (sc : Nat → ℚ) (sl : Nat) (stickOut eps : ℚ) : Bool :=
  let targetRad := t.rad32 tl
  let sourceRad := t.rad32 sl
  let maxAllowed := 3 * (1 + stickOut) * targetRad + sourceRad
  decide (maxAllowed * (1 - 8 * eps) ≤ t.linf tc sc)

/-- `static_linf`, `/repo/boxtree/traversal.py:716-735`. -/
def staticLinf32 (ctr : Nat → Nat → ℚ) (stickOut eps : ℚ) (tgt c : Nat) : Bool :=
  let stickRad := (1 + stickOut) * t.rad32 (t.level tgt)
  let sourceRad := t.rad32 (t.level c)
  let dist := (List.range t.dims).foldl
    (fun acc i => max acc (|ctr tgt i - ctr c i| - stickRad - sourceRad)) 0
  decide ((2 - 8 * eps) * sourceRad ≤ dist)

/-- `precise_linf`, `/repo/boxtree/traversal.py:736-756`. -/
def preciseLinf32 (ctr : Nat → Nat → ℚ) (eps : ℚ) (tgt c : Nat) : Bool :=
  let sourceRad := t.rad32 (t.level c)
  let dist := (List.range t.dims).foldl
    (fun acc i =>
      let extCenter := (1 / 2) * (t.tgtMin tgt i + t.tgtMax tgt i)
      let radius := (1 / 2) * (t.tgtMax tgt i - t.tgtMin tgt i)
      max acc (|extCenter - ctr c i| - radius - sourceRad)) 0
  decide ((2 - 8 * eps) * sourceRad ≤ dist)

/-- `static_l2`, `/repo/boxtree/traversal.py:758-811`, without the square roots as in
`critStaticL2`. -/
def staticL232 (ctr : Nat → Nat → ℚ) (stickOut eps : ℚ) (tgt c : Nat) : Bool :=
  let stickRad := (1 + stickOut) * t.rad32 (t.level tgt)
  let sourceRad := t.rad32 (t.level c)
  let d2 := ((List.range t.dims).map
    (fun i => (ctr tgt i - ctr c i) * (ctr tgt i - ctr c i))).sum
  let cc := (3 - 8 * eps) * sourceRad
  let gap := d2 - cc * cc - t.dims * (stickRad * stickRad)
  decide (0 ≤ gap ∧ 4 * t.dims * (cc * cc) * (stickRad * stickRad) ≤ gap * gap)

end BoxTree

/-- The tests of the list kernels on a device without rounding but with 32-bit integers,
`/repo/boxtree/traversal.py:234-235`, `:279-318`, `:709-816`, `:933-972`. -/
def Device.exact32 (t : BoxTree) (ctr : Nat → Nat → ℚ) (crit : SmallerCrit) (stickOut eps : ℚ) : Device where
  adj a la n b lb := t.adjNbhd32 (ctr a) la n (ctr b) lb
  sepBigger a la b lb := t.meetsSepBigger32 (ctr a) la (ctr b) lb stickOut eps
  sepSmaller a b :=
    match crit with
    | .staticLinf => t.staticLinf32 ctr stickOut eps a b
    | .preciseLinf => t.preciseLinf32 ctr eps a b
    | .staticL2 => t.staticL232 ctr stickOut eps a b

/-- A call of the traversal builder on such a device, `/repo/boxtree/traversal.py:2000-2345`. -/
def TravInput.with32 (inp : TravInput) (ctr : Nat → Nat → ℚ := inp.tree.center) : TravInput :=
  { inp with tests := .device (Device.exact32 inp.tree ctr inp.params.crit inp.stickOut inp.eps) }

/-- `get_normalized_translation_vector`, `/repo/boxtree/translation_classes.py:66-84`. -/
def normVec32 (t : BoxTree) (level src tgt axis : Nat) : ℤ :=
  rint ((t.center tgt axis - t.center src axis) / (2 * t.rad32 level))

namespace Area
variable (t : BoxTree)

/-- `is_adjacent_or_overlapping` in the peer list finder, `/repo/boxtree/area_query.py:423-425`,
`/repo/boxtree/traversal.py:307-319`. -/
def adjacent32 (ctr : Nat → Nat → ℚ := t.center) : AdjTest := fun a la b lb =>
  t.adjNbhd32 (ctr a) la 1 (ctr b) lb

/-- `level_morton_number`, `/repo/boxtree/area_query.py:258-277`. -/
def queryMorton32 (bmin : Nat → ℚ) (x : Nat → ℚ) (level : Nat) : Nat :=
  (List.range t.dims).foldl (fun acc i =>
    let bits := ⌊(x i - bmin i) / t.rootExtent * (Build.shift32 level : ℚ)⌋.toNat
    acc ||| ((bits &&& 1) <<< (t.dims - 1 - i))) 0

/-- `find_guiding_box`, `/repo/boxtree/area_query.py:172-292`. -/
def guidingBox32 (bmin : Nat → ℚ) (ball : Ball) : Nat :=
  let qc := clamp t bmin ball.center
  let qr := queryRadius t bmin ball
  if t.rad32 0 / 2 ≥ qr then
    (guidingLoopBy t t.rad32 (queryMorton32 t bmin qc) qr (t.nlevels + 1) 0 0).getD 0
  else 0

/-- `check_l_infty_ball_overlap`, `/repo/boxtree/traversal.py:200-214`. -/
def ballOverlaps32 (ball : Ball) (b : Nat) (ctr : Nat → Nat → ℚ := t.center) : Bool :=
  let sizeSum := t.rad32 (t.level b) + ball.radius
  decide (t.linf ball.center (ctr b) ≤ sizeSum)

/-- `AreaQueryBuilder.__call__`, `/repo/boxtree/area_query.py:738-800`, on such a device. -/
def areaQuery32 (bmin : Nat → ℚ) (balls : List Ball) (peers : Option BuiltList)
    (ctr : Nat → Nat → ℚ := t.center) : Except AreaErr BuiltList :=
  areaQuery t bmin balls peers (guidingBox32 t bmin) (fun ball b => ballOverlaps32 t ball b ctr)
    (adjacent32 t ctr)

end Area
end Boxtree
