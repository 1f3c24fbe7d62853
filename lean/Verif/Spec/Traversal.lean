import Verif.Model.Traversal
import Verif.Spec.Tree
import Verif.Spec.Geometry

/-!
# Specification vocabulary: reading a traversal

How a user of `FMMTraversalInfo` reads it, and the requirements on its inputs.
-/

namespace Boxtree

/-- The list of box `b` in a CSR list whose row `i` belongs to `boxes[i]`: all rows whose
index holds `b`, one after the other. -/
def BuiltList.rowFor (bl : BuiltList) (boxes : List Nat) (b : Nat) : List Nat :=
  (List.range boxes.length).flatMap fun i => if boxes.getD i 0 = b then bl.row i else []

/-- The level-start table describes the levels: boxes are numbered level by level, and
`levelStart l` is the first box number on level `l` or deeper. -/
structure BoxTree.LevelsOK (t : BoxTree) : Prop where
  start_le : ∀ b, b < t.nboxes → t.levelStart (t.level b) ≤ b
  lt_start : ∀ b, b < t.nboxes → ∀ l, t.level b < l → l ≤ t.nlevels → b < t.levelStart l

/-- Occurrences of `s` in the list of `b`, if the list exists. -/
def closeCount (lists : Option BuiltList) (boxes : List Nat) (b s : Nat) : Nat :=
  match lists with
  | some bl => (bl.rowFor boxes b).count s
  | none => 0

/-- How many times the expansion/direct interactions of the traversal carry the sources of box
`s` to the targets of box `tgt`: directly (list 1 and the close lists), through a
multipole of `s` or an ancestor evaluated at `tgt` (list 3), through a multipole of `s` or
an ancestor translated to a local expansion of `tgt` or an ancestor (list 2), or through a
local expansion of `tgt` or an ancestor formed from `s` (list 4). -/
def Traversal.pathCount (trav : Traversal) (t : BoxTree) (tgt s : Nat) : Nat :=
  (trav.list1.rowFor trav.targetBoxes tgt).count s
  + ((t.ancestorsOrSelf tgt).map fun a => ((t.ancestorsOrSelf s).map fun b =>
      (trav.list2.rowFor trav.ttpBoxes a).count b).sum).sum
  + ((List.range trav.list3.length).map fun l => ((t.ancestorsOrSelf s).map fun b =>
      ((trav.list3.getD l ⟨[], []⟩).rowFor (trav.list3Targets.getD l []) tgt).count b).sum).sum
  + closeCount trav.list3Close trav.targetBoxes tgt s
  + ((t.ancestorsOrSelf tgt).map fun a => (trav.list4.rowFor trav.ttpBoxes a).count s).sum
  + closeCount trav.list4Close trav.targetBoxes tgt s

/-- The device answers the geometric tests well enough: whether two boxes (the first enlarged by
`n - 1` of its widths) touch it decides as exact arithmetic does, and its list-4 criterion, once met
by a target box, is met by the children of that box.  Nothing is required of its list-3
criterion.  In exact arithmetic nothing is required. -/
def TravInput.TestsOK (inp : TravInput) : Prop :=
  match inp.tests with
  | .exact => True
  | .device D =>
    (∀ n, n = 1 ∨ n = inp.nAway → ∀ a b, a < inp.tree.nboxes → b < inp.tree.nboxes →
      (D.adj a (inp.tree.level a) n b (inp.tree.level b) = true ↔
        inp.tree.TouchEnlarged (n - 1) a b)) ∧
    (inp.targetsHaveExtent = true → ∀ a s, a < inp.tree.nboxes → s < inp.tree.nboxes → a ≠ 0 →
      D.sepBigger (inp.tree.parent a) (inp.tree.level (inp.tree.parent a)) s (inp.tree.level s)
        = true →
      D.sepBigger a (inp.tree.level a) s (inp.tree.level s) = true)

/-- Requirements on the arguments of the traversal builder. -/
structure TravInput.OK (inp : TravInput) : Prop where
  wf : inp.tree.WF
  flags : inp.tree.FlagsOK
  nAway_pos : 1 ≤ inp.nAway
  stickOut_nonneg : 0 ≤ inp.stickOut
  eps_small : inp.eps ≤ 1 / 12
  /-- with identical sources and targets the two flags agree, as far as the mask reaches -/
  srcTgt : inp.sourcesAreTargets = true → ∀ b, b < inp.tree.nboxes →
    (inp.srcMask.getD fun _ => true) b = true → inp.tree.isSource b = inp.tree.isTarget b
  srcTgtChild : inp.sourcesAreTargets = true → inp.srcMask = none → ∀ b, b < inp.tree.nboxes →
    inp.tree.hasSourceChild b = inp.tree.hasTargetChild b
  /-- the device decides the geometric tests well enough -/
  tests : inp.TestsOK := by trivial

end Boxtree
