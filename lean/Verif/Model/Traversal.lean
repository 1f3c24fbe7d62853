import Verif.Model.Lists
import Verif.Model.Csr

/-!
# `FMMTraversalBuilder.__call__`

Model of `/repo/boxtree/traversal.py:1721-2345`: which boxes are sources, targets and
parents, level starts, and the assembly of all interaction lists.
-/

namespace Boxtree

/-- `ExtentNorm`: `"linf"` or `"l2"`.  `/repo/boxtree/tree_build.py:88`. -/
inductive ExtentNorm
  | linf
  | l2
deriving DecidableEq, Repr

/-- Everything `FMMTraversalBuilder.__init__`/`__call__` depends on
(`/repo/boxtree/traversal.py:1732-1751`, `:2000-2034`).  `crit = none` and
`minNsources = none` are the defaults; `masks` are the optional arguments of the
distributed implementation. -/
structure TravInput where
  tree : BoxTree
  isPruned : Bool
  sourcesAreTargets : Bool
  sourcesHaveExtent : Bool
  targetsHaveExtent : Bool
  extentNorm : Option ExtentNorm
  stickOut : ℚ
  eps : ℚ
  nAway : Nat
  crit : Option SmallerCrit
  minNsources : Option Nat
  srcMask : Option (Nat → Bool)
  srcParentMask : Option (Nat → Bool)
  /-- how the kernels decide their geometric tests (not an argument: the device's arithmetic) -/
  tests : Tests := .exact

/-- Exceptions raised while building a traversal.  Raised in `/repo/boxtree/traversal.py:1731-2345`.
-/
inductive TravError
  | notPruned          -- ValueError, traversal.py:2030-2031
  | sourceExtent       -- NotImplementedError, traversal.py:2033-2037
  | l2StaticLinf       -- ValueError, traversal.py:1785-1791
  | normMissing        -- AssertionError, traversal.py:1793-1794
deriving DecidableEq, Repr

/-- `FMMTraversalInfo`, `/repo/boxtree/traversal.py:1353-1648`. -/
structure Traversal where
  sourceBoxes : List Nat
  targetBoxes : List Nat
  sourceParentBoxes : List Nat
  ttpBoxes : List Nat
  levelStartSource : List Nat
  levelStartTarget : List Nat
  levelStartSourceParent : List Nat
  levelStartTtp : List Nat
  slnws : BuiltList
  list1 : BuiltList
  list2 : BuiltList
  /-- `from_sep_smaller_by_level` -/
  list3 : List BuiltList
  /-- `target_boxes_sep_smaller_by_source_level` -/
  list3Targets : List (List Nat)
  list3Close : Option BuiltList
  list4 : BuiltList
  list4Close : Option BuiltList
deriving DecidableEq

namespace TravInput
variable (inp : TravInput)

/-- Kernel template parameters chosen by `__call__` and `get_kernel_info`
(`/repo/boxtree/traversal.py:1774-1779`, `:2021-2033`). -/
def params : TravParams where
  nAway := inp.nAway
  targetsHaveExtent := inp.targetsHaveExtent
  crit := inp.crit.getD .preciseLinf
  stickOut := inp.stickOut
  eps := inp.eps
  minNsources := inp.minNsources.getD 0
  tests := inp.tests

/-- Argument checks of `__call__` (`/repo/boxtree/traversal.py:1999-2006`) followed by those of
`get_kernel_info` (`:1774-1805`). -/
def check : Except TravError Unit :=
  if !inp.isPruned then .error .notPruned
  else if inp.sourcesHaveExtent then .error .sourceExtent
  else match inp.extentNorm with
    | some .linf => .ok ()
    | some .l2 =>
        if inp.params.crit = .staticLinf then .error .l2StaticLinf else .ok ()
    | none => if inp.targetsHaveExtent then .error .normMissing else .ok ()

end TravInput

/-- `source_boxes`, `/repo/boxtree/traversal.py:328-338` (kernel run for each box in order). -/
def selSourceBoxes (t : BoxTree) (mask : Option (Nat → Bool)) : List Nat :=
  (List.range t.nboxes).filter fun b => t.isSource b && (mask.getD fun _ => true) b

/-- `source_parent_boxes`, `/repo/boxtree/traversal.py:340-346`. -/
def selSourceParentBoxes (t : BoxTree) (mask : Option (Nat → Bool)) : List Nat :=
  (List.range t.nboxes).filter fun b => t.hasSourceChild b && (mask.getD fun _ => true) b

/-- `target_boxes` when sources and targets are distinct, `/repo/boxtree/traversal.py:348-351`. -/
def selTargetBoxes (t : BoxTree) : List Nat :=
  (List.range t.nboxes).filter fun b => t.isTarget b

/-- `target_or_target_parent_boxes`, `/repo/boxtree/traversal.py:352-353`. -/
def selTtpBoxes (t : BoxTree) : List Nat :=
  (List.range t.nboxes).filter fun b =>
    hasFlag (t.flags b) (flagHasTargetChild ||| flagIsTarget)

/-- `is_level_leading_box` in `LEVEL_START_BOX_NR_EXTRACTOR_TEMPLATE`,
`/repo/boxtree/traversal.py:374-389`. -/
def isLevelLeading (t : BoxTree) (boxList : List Nat) (i : Nat) : Bool :=
  let myBox := boxList.getD i 0
  if i = 0 then true
  else
    let prevBox := boxList.getD (i - 1) 0
    let myLevelStart := t.levelStart (t.level myBox)
    decide (prevBox < myLevelStart) && decide (myLevelStart ≤ myBox)

/-- The elementwise kernel of `LEVEL_START_BOX_NR_EXTRACTOR_TEMPLATE`
(`/repo/boxtree/traversal.py:361-393`) run on the prefilled result; work items in order. -/
def levelStartMarks (t : BoxTree) (boxList : List Nat) : List Nat :=
  (List.range boxList.length).foldl
    (fun r i => if isLevelLeading t boxList i then r.set (t.level (boxList.getD i 0)) i else r)
    (List.replicate (t.nlevels + 1) boxList.length)

/-- The post-processing loop `for ilev in range(nlevels-1, -1, -1)`,
`/repo/boxtree/traversal.py:2093-2096`, iterations `n-1, ..., 0`. -/
def levelStartPost : Nat → Nat → List Nat → List Nat
  | 0, _, r => r
  | n + 1, prevStart, r =>
      let v := min (r.getD n 0) prevStart
      levelStartPost n v (r.set n v)

/-- `extract_level_start_box_nrs`, `/repo/boxtree/traversal.py:2073-2098`. -/
def extractLevelStarts (t : BoxTree) (boxList : List Nat) : List Nat :=
  levelStartPost t.nlevels boxList.length (levelStartMarks t boxList)

/-- `FMMTraversalBuilder.__call__`, `/repo/boxtree/traversal.py:2000-2345`. -/
def buildTraversal (inp : TravInput) : Except TravError Traversal := do
  inp.check
  let t := inp.tree
  let p := inp.params
  let sourceBoxes := selSourceBoxes t inp.srcMask
  let sourceParentBoxes := selSourceParentBoxes t inp.srcParentMask
  let ttpBoxes := selTtpBoxes t
  let targetBoxes := if inp.sourcesAreTargets then sourceBoxes else selTargetBoxes t
  let slnws := buildLists ((List.range t.nboxes).map (slnwsKernel t p))
  let list1 := buildLists (targetBoxes.map (list1Kernel t p))
  let list2 := buildLists (ttpBoxes.map (list2Kernel t p slnws.row))
  let list3Rows := fun (l : Nat) => targetBoxes.map fun b =>
    sepPart (list3Kernel t p slnws.row (l : Int) b)
  let list3 := (List.range t.nlevels).map fun l => buildLists (nonemptyRows (list3Rows l))
  let list3Targets := (List.range t.nlevels).map fun l =>
    (nonemptyIndices (list3Rows l)).map fun i => targetBoxes.getD i 0
  let list3Close :=
    if inp.targetsHaveExtent then
      some (buildLists (targetBoxes.map fun b => closePart (list3Kernel t p slnws.row (-1) b)))
    else none
  let list4 := buildLists (ttpBoxes.map fun b => sepPart (list4Kernel t p slnws.row b))
  let list4Close :=
    if inp.targetsHaveExtent then
      let raw := buildLists (ttpBoxes.map fun b => closePart (list4Kernel t p slnws.row b))
      (listMerger [raw] .targetOrTargetParentBoxes .targetBoxes targetBoxes ttpBoxes
        t.nboxes).toOption
    else none
  return {
    sourceBoxes, targetBoxes, sourceParentBoxes, ttpBoxes
    levelStartSource := extractLevelStarts t sourceBoxes
    levelStartTarget := extractLevelStarts t targetBoxes
    levelStartSourceParent := extractLevelStarts t sourceParentBoxes
    levelStartTtp := extractLevelStarts t ttpBoxes
    slnws, list1, list2, list3, list3Targets, list3Close, list4, list4Close }

/-- `merge_close_lists`, `/repo/boxtree/traversal.py:1650-1693`.  The close lists being `None`
makes the Python code fail inside the merger; this is the `none` result. -/
def mergeCloseLists (trav : Traversal) (nboxes : Nat) : Option Traversal := do
  let l3c ← trav.list3Close
  let l4c ← trav.list4Close
  let merged ← (listMerger [trav.list1, l3c, l4c] .targetBoxes .targetBoxes
    trav.targetBoxes trav.ttpBoxes nboxes).toOption
  return { trav with list1 := merged, list3Close := none, list4Close := none }

end Boxtree
