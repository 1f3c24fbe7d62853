import Verif.Model.Walk

/-!
# The interaction-list kernels

Model of the OpenCL kernels in `/repo/boxtree/traversal.py:324-1146`, one definition per
kernel.  A kernel invocation is a function of the box it is run for and returns the ids it
APPENDs, in order.
-/

namespace Boxtree

/-- `FromSepSmallerCrit`, `/repo/boxtree/traversal.py:92`. -/
inductive SmallerCrit
  | staticLinf
  | preciseLinf
  | staticL2
deriving DecidableEq, Repr

/-- The answers a device gives to the geometric tests of the kernels, when it computes them in
its own arithmetic from the box centers stored in the tree: `adj a la n b lb` for
`is_adjacent_or_overlapping_with_neighborhood` (`/repo/boxtree/traversal.py:279-305`) of target
box `a` and source box `b`, `sepBigger a la b lb` for `meets_sep_bigger_criterion` (`:933-972`),
`sepSmaller a b` for `meets_sep_crit` (`:709-816`).  `la` and `lb` are the level arguments the
kernels pass.  `Model/DeviceTests.lean` has the instance that rounds. -/
structure Device where
  adj : Nat → Nat → Nat → Nat → Nat → Bool
  sepBigger : Nat → Nat → Nat → Nat → Bool
  sepSmaller : Nat → Nat → Bool

/-- How the kernels decide their geometric tests: in exact arithmetic on exact box centers, or
as some device does.  Tests of the kernels `/repo/boxtree/traversal.py:279-318`, `:709-816`,
`:933-972`. -/
inductive Tests
  | exact
  | device (D : Device)

/-- Template variables of the kernels (`render_vars`, `/repo/boxtree/traversal.py:1812-1832`)
and the scalar arguments `stick_out_factor`, `from_sep_smaller_min_nsources_cumul`;
`eps` is `COORD_T_MACH_EPS`. -/
structure TravParams where
  nAway : Nat
  targetsHaveExtent : Bool
  crit : SmallerCrit
  stickOut : ℚ
  eps : ℚ
  minNsources : Nat
  /-- how the geometric tests are decided -/
  tests : Tests := .exact

/-- What a kernel with two output lists appends: to the main list (`sep`) or to the
accompanying close list (`close`).  `/repo/boxtree/traversal.py:607-874`, `:975-1146`. -/
inductive Out
  | sep (b : Nat)
  | close (b : Nat)
deriving DecidableEq, Repr

/-- The box id that was appended.  `/repo/boxtree/traversal.py:607-874`, `:975-1146`. -/
def Out.box : Out → Nat
  | .sep b => b
  | .close b => b

/-- Entries appended to the main list.  `/repo/boxtree/traversal.py:607-874`, `:975-1146`. -/
def sepPart (l : List Out) : List Nat :=
  l.filterMap fun o => match o with | .sep b => some b | .close _ => none

/-- Entries appended to the close list.  `/repo/boxtree/traversal.py:607-874`, `:975-1146`. -/
def closePart (l : List Out) : List Nat :=
  l.filterMap fun o => match o with | .sep _ => none | .close b => some b

variable (t : BoxTree) (p : TravParams)

/-- `is_adjacent_or_overlapping_with_neighborhood`, `/repo/boxtree/traversal.py:279-305`, of target
box `a` with neighborhood size `n` and source box `b`; with `n = 1` also
`is_adjacent_or_overlapping`, `:307-319`. -/
def Tests.adj (T : Tests) (t : BoxTree) (a la n b lb : Nat) : Bool :=
  match T with
  | .exact => t.adjNbhd (t.center a) la n (t.center b) lb
  | .device D => D.adj a la n b lb

/-- `meets_sep_bigger_criterion`, `/repo/boxtree/traversal.py:933-972`, of target box `a` and
source box `b`. -/
def Tests.sepBigger (T : Tests) (t : BoxTree) (stickOut eps : ℚ) (a la b lb : Nat) : Bool :=
  match T with
  | .exact => t.meetsSepBigger (t.center a) la (t.center b) lb stickOut eps
  | .device D => D.sepBigger a la b lb

/-- Body of the walk in `SAME_LEVEL_NON_WELL_SEP_BOXES_TEMPLATE`,
`/repo/boxtree/traversal.py:425-458`. -/
def slnwsVisit (box : Nat) (depth c : Nat) : List Nat × Bool :=
  let aOrO := p.tests.adj t box (t.level box) p.nAway c (t.level c)
  if aOrO then
    if depth + 1 = t.level box ∧ c ≠ box then ([c], false) else ([], true)
  else ([], false)

/-- `SAME_LEVEL_NON_WELL_SEP_BOXES_TEMPLATE`, `/repo/boxtree/traversal.py:398-463`. -/
def slnwsKernel (box : Nat) : List Nat :=
  if box = 0 then [] else walk t (slnwsVisit t p box) 0

/-- Body of the walk in `NEIGHBOR_SOURCE_BOXES_TEMPLATE` (list 1),
`/repo/boxtree/traversal.py:508-544`. -/
def list1Visit (box : Nat) (_depth c : Nat) : List Nat × Bool :=
  let aOrO := p.tests.adj t box (t.level box) 1 c (t.level c)
  if aOrO then
    (if t.isSource c then [c] else [], t.hasSourceChild c)
  else ([], false)

/-- `NEIGHBOR_SOURCE_BOXES_TEMPLATE` (list 1), `/repo/boxtree/traversal.py:470-549`. -/
def list1Kernel (box : Nat) : List Nat :=
  (if t.isSource 0 then [0] else []) ++ walk t (list1Visit t p box) 0

/-- `FROM_SEP_SIBLINGS_TEMPLATE` (list 2), `/repo/boxtree/traversal.py:556-600`.
`slnws b` is the row `same_level_non_well_sep_boxes_lists[starts[b]:starts[b+1]]`. -/
def list2Kernel (slnws : Nat → List Nat) (box : Nat) : List Nat :=
  let parent := t.parent box
  if parent = box then []
  else (slnws parent).flatMap fun parentNf =>
    (List.range t.nch).flatMap fun morton =>
      let sib := t.child morton parentNf
      if sib = 0 then []
      else
        let sep := !p.tests.adj t box (t.level box) p.nAway sib (t.level sib)
        if sep then [sib] else []

/-- `static_linf` separation test, `/repo/boxtree/traversal.py:716-735`; the fold computes
`max(0, max_i(|dx_i| - tgt_stickout_l_inf_rad - source_rad))`. -/
def critStaticLinf (tgt c : Nat) : Bool :=
  let stickRad := (1 + p.stickOut) * t.rad (t.level tgt)
  let sourceRad := t.rad (t.level c)
  let dist := (List.range t.dims).foldl
    (fun acc i => max acc (|t.center tgt i - t.center c i| - stickRad - sourceRad)) 0
  decide ((2 - 8 * p.eps) * sourceRad ≤ dist)

/-- `precise_linf` separation test, `/repo/boxtree/traversal.py:736-756`, using the true
target extent loaded by `load_true_box_extent` (`:177-195`). -/
def critPreciseLinf (tgt c : Nat) : Bool :=
  let sourceRad := t.rad (t.level c)
  let dist := (List.range t.dims).foldl
    (fun acc i =>
      let extCenter := (1 / 2) * (t.tgtMin tgt i + t.tgtMax tgt i)
      let radius := (1 / 2) * (t.tgtMax tgt i - t.tgtMin tgt i)
      max acc (|extCenter - t.center c i| - radius - sourceRad)) 0
  decide ((2 - 8 * p.eps) * sourceRad ≤ dist)

/-- `static_l2` separation test, `/repo/boxtree/traversal.py:758-811`.  The code compares
`(2-8 eps) * r_s <= sqrt(D2) - sqrt(d) * T - r_s`.  Simplification: the square roots are
eliminated, with `c = (3 - 8 eps) * r_s`; the equivalence with the expression containing
the square roots is proved in `Props/Separation.lean`. -/
def critStaticL2 (tgt c : Nat) : Bool :=
  let stickRad := (1 + p.stickOut) * t.rad (t.level tgt)
  let sourceRad := t.rad (t.level c)
  let d2 := ((List.range t.dims).map
    (fun i => (t.center tgt i - t.center c i) * (t.center tgt i - t.center c i))).sum
  let cc := (3 - 8 * p.eps) * sourceRad
  let gap := d2 - cc * cc - t.dims * (stickRad * stickRad)
  decide (0 ≤ gap ∧ 4 * t.dims * (cc * cc) * (stickRad * stickRad) ≤ gap * gap)

/-- `meets_sep_crit`, `/repo/boxtree/traversal.py:709-816`. -/
def meetsSepSmaller (tgt c : Nat) : Bool :=
  if !p.targetsHaveExtent then true
  else match p.tests with
    | .exact => match p.crit with
      | .staticLinf => critStaticLinf t p tgt c
      | .preciseLinf => critPreciseLinf t p tgt c
      | .staticL2 => critStaticL2 t p tgt c
    | .device D => D.sepSmaller tgt c

/-- `force_close_list_for_low_interaction_count`, `/repo/boxtree/traversal.py:833-841`. -/
def forceClose (c : Nat) : Bool :=
  p.targetsHaveExtent && decide (t.srcCountCumul c < p.minNsources)

/-- Body of the walk in `FROM_SEP_SMALLER_TEMPLATE` (list 3 and list 3 close),
`/repo/boxtree/traversal.py:678-870`; `srcLevel` is `from_sep_smaller_source_level`
(`-1` = build only the close list). -/
def list3Visit (tgt : Nat) (srcLevel : Int) (_depth c : Nat) : List Out × Bool :=
  if t.isSource c || t.hasSourceChild c then
    let walkLevel := t.level c
    let inList1 := p.tests.adj t tgt (t.level tgt) 1 c walkLevel
    if inList1 then
      ([], t.hasSourceChild c && (decide ((walkLevel : Int) ≤ srcLevel) || decide (srcLevel = -1)))
    else if meetsSepSmaller t p tgt c && !forceClose t p c then
      (if srcLevel = walkLevel then [Out.sep c] else [], false)
    else if p.targetsHaveExtent then
      (if t.isSource c && decide (srcLevel = -1) then [Out.close c] else [], t.hasSourceChild c)
    else ([], false)
  else ([], false)

/-- `FROM_SEP_SMALLER_TEMPLATE`, `/repo/boxtree/traversal.py:607-874`. -/
def list3Kernel (slnws : Nat → List Nat) (srcLevel : Int) (tgt : Nat) : List Out :=
  (slnws tgt).flatMap fun x =>
    if x = tgt then [] else walk t (list3Visit t p tgt srcLevel) x

/-- Loop body of `FROM_SEP_BIGGER_TEMPLATE` for one candidate `x`,
`/repo/boxtree/traversal.py:1032-1141`. -/
def list4Body (b walkLevel x : Nat) : List Out :=
  if t.isSource x then
    let inList1 := p.tests.adj t b (t.level b) 1 x walkLevel
    if inList1 then []
    else if p.targetsHaveExtent &&
        !p.tests.sepBigger t p.stickOut p.eps b (t.level b) x walkLevel then
      if t.isTarget b then [Out.close x] else []
    else
      let par := t.parent b
      let inParentList1 := p.tests.adj t par (t.level b - 1) 1 x walkLevel
      let would := !inParentList1 && (decide (p.nAway ≤ 1) || decide (walkLevel < t.level b))
      if would then
        if p.targetsHaveExtent &&
            !p.tests.sepBigger t p.stickOut p.eps par (t.level b - 1) x walkLevel then
          [Out.sep x] else []
      else [Out.sep x]
  else []

/-- The upward loop of `FROM_SEP_BIGGER_TEMPLATE`, `/repo/boxtree/traversal.py:1014-1144`:
`for (; walk_level != 0; --walk_level, cur = box_parent_ids[cur])`. -/
def list4Loop (slnws : Nat → List Nat) (b : Nat) : Nat → Nat → List Out
  | 0, _ => []
  | wl + 1, cur =>
      (slnws cur).flatMap (list4Body t p b (wl + 1)) ++ list4Loop slnws b wl (t.parent cur)

/-- `FROM_SEP_BIGGER_TEMPLATE`, `/repo/boxtree/traversal.py:975-1146`. -/
def list4Kernel (slnws : Nat → List Nat) (b : Nat) : List Out :=
  if t.level b = 0 then []
  else if p.nAway = 1 then list4Loop t p slnws b (t.level b - 1) (t.parent b)
  else list4Loop t p slnws b (t.level b) b

end Boxtree
