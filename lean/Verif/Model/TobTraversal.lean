import Verif.Model.TreeOfBoxes
import Verif.Model.Traversal

/-!
# The traversal of a tree of boxes

`FMMTraversalBuilder.__call__` applied to a `TreeOfBoxes` (as in
`/repo/test/test_tree_of_boxes.py:237-270`).  The root of such a tree has parent id -1, which the
kernel for list 2 uses as an index.
-/

namespace Boxtree
namespace Tob

/-- `TreeOfBoxes.nlevels`, `/repo/boxtree/tree.py:261-263`. -/
def nlevels (t : Tob) : Nat := ((List.range t.nboxes).map t.level).foldl max 0 + 1

/-- The arrays of a tree of boxes that the kernels read, `/repo/boxtree/tree.py:218-263`.  Only the
kernels for lists 2 and 4 read parent ids, `/repo/boxtree/traversal.py:566`, `:985`, `:1017`; that of
list 4 leaves at the root (`:981-983`), and `list2Raw` below reads the ids as they are.  There are no
particles, and without extents no kernel asks for their number or bounding boxes. -/
def arrays (t : Tob) : BoxTree where
  dims := t.dims
  nboxes := t.nboxes
  nlevels := t.nlevels
  rootExtent := t.rootExtent
  parent := fun b => (t.parent b).toNat
  child := t.child
  level := t.level
  center := t.center
  flags := t.flags
  srcCountCumul := fun _ => 0
  tgtMin := fun _ _ => 0
  tgtMax := fun _ _ => 0
  levelStart := fun _ => 0

/-- What the traversal builder sees of a tree of boxes: attributes set in
`/repo/boxtree/tree_of_boxes.py:442-461`, `sources_are_targets` by default `True`
(`/repo/boxtree/traversal.py:2010`). -/
def travInput (t : Tob) (nAway : Nat) (crit : Option SmallerCrit) (eps : ℚ) : TravInput where
  tree := t.arrays
  isPruned := true
  sourcesAreTargets := true
  sourcesHaveExtent := false
  targetsHaveExtent := false
  extentNorm := some .linf
  stickOut := 0
  eps := eps
  nAway := nAway
  crit := crit
  minNsources := none
  srcMask := none
  srcParentMask := none

/-- Entry `i` of an array in device memory that has the word `before` in front of it; `none` is an
access to other memory.  Reads of `/repo/boxtree/traversal.py:570-571`. -/
def readWord (before : ℤ) (a : List Nat) (i : ℤ) : Option ℤ :=
  if i = -1 then some before
  else if 0 ≤ i ∧ i < a.length then some (a.getD i.toNat 0) else none

/-- Entry `i` of an array, `none` if there is none.  Read of `/repo/boxtree/traversal.py:576`. -/
def readBox (a : List Nat) (i : ℤ) : Option Nat :=
  if 0 ≤ i ∧ i < a.length then some (a.getD i.toNat 0) else none

/-- `FROM_SEP_SIBLINGS_TEMPLATE`, `/repo/boxtree/traversal.py:556-600`, with the indices as the kernel
computes them.  `before` is the word in front of `same_level_non_well_sep_boxes_starts`. -/
def list2Raw (t : Tob) (p : TravParams) (before : ℤ) (slnws : BuiltList) (box : Nat) :
    Option (List Nat) := do
  let parent := t.parent box
  if parent = box then return []
  let start ← readWord before slnws.starts parent
  let stop ← readWord before slnws.starts (parent + 1)
  let parentNfs ← (List.range (stop - start).toNat).mapM fun k : Nat =>
    readBox slnws.lists (start + (k : ℤ))
  return parentNfs.flatMap fun parentNf =>
    (List.range t.nch).flatMap fun morton =>
      let sib := t.child morton parentNf
      if sib = 0 then []
      else
        let sep := !p.tests.adj t.arrays box (t.level box) p.nAway sib (t.level sib)
        if sep then [sib] else []

/-- `FMMTraversalBuilder.__call__` on a tree of boxes, `/repo/boxtree/traversal.py:2000-2345`; `none`
if a kernel reads memory outside its arrays that is not the word `before`.  Simplification: the
attributes `level_start_*` are left empty (they are `None` for every tree that has been refined, since
`level_start_box_nrs` is, `/repo/boxtree/tree_of_boxes.py:208`). -/
def traversal (t : Tob) (nAway : Nat) (crit : Option SmallerCrit) (eps : ℚ) (before : ℤ) :
    Except TravError (Option Traversal) := do
  let inp := t.travInput nAway crit eps
  let trav ← buildTraversal inp
  return do
    let rows ← trav.ttpBoxes.mapM (t.list2Raw inp.params before trav.slnws)
    return { trav with
      list2 := buildLists rows
      levelStartSource := []
      levelStartTarget := []
      levelStartSourceParent := []
      levelStartTtp := [] }

end Tob
end Boxtree
