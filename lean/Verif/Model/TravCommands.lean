import Verif.Model.Traversal

/-!
# The launches of the traversal builder and their wait lists

`/repo/boxtree/traversal.py:2051-2345` enqueues its kernels with lists of events to wait for and returns one
event.  Here the launches are commands of a queue that may run them in any order in which each comes after
those whose events it waits for.  A launch is named by the array (or group of arrays) that it writes.
Simplifications: launches do not overlap, and the two passes of a list builder (`pyopencl`) are one launch.
-/

namespace Boxtree
namespace Queue

/-- A launch that writes the array `x`: the launches in its wait list and the value it stores, given what is
in memory.  `wait_for=wait_for`, e.g. `/repo/boxtree/traversal.py:2135-2140`. -/
structure Launch (L : Type) (V : L → Type) (x : L) where
  waits : List L
  value : (∀ y, V y) → V x

variable {L : Type} [DecidableEq L] {V : L → Type}

/-- The memory after some launches, in the order in which they ran.
`/repo/boxtree/traversal.py:2051-2304`. -/
def exec (cmds : ∀ x, Option (Launch L V x)) : List L → (∀ y, V y) → ∀ y, V y
  | [], s => s
  | x :: xs, s => exec cmds xs (match cmds x with
    | some c => Function.update s x (c.value s)
    | none => s)

/-- Orders in which a queue that follows events may run (part of) the launches, after those in `done`: each
once, and after those in its wait list (`wait_for`, `/repo/boxtree/traversal.py:1979-1981`). -/
def Allowed (cmds : ∀ x, Option (Launch L V x)) : List L → List L → Prop
  | _, [] => True
  | done, x :: xs => (∃ c, cmds x = some c ∧ ∀ w ∈ c.waits, w ∈ done) ∧ x ∉ done ∧
      Allowed cmds (x :: done) xs

end Queue

namespace TravInput
open Queue

/-- What the launches write.  Role lists are written by one launch, as are the two outputs of the kernels for
lists 3 and 4.  `/repo/boxtree/traversal.py:2051-2304`. -/
inductive Arr
  | roles
  | starts (k : Fin 4)
  | slnws
  | list1
  | list2
  | list3 (l : Nat)
  | close3
  | list4
  | close4
deriving DecidableEq

/-- The role lists, `/repo/boxtree/traversal.py:2055-2066`. -/
structure Roles where
  sources : List Nat
  parents : List Nat
  targets : List Nat
  ttp : List Nat

/-- Types of the contents.  `/repo/boxtree/traversal.py:2051-2304`. -/
def Arr.Val : Arr → Type
  | .roles => Roles
  | .starts _ => List Nat
  | .slnws => BuiltList
  | .list1 => BuiltList
  | .list2 => BuiltList
  | .list3 _ => BuiltList × List Nat
  | .close3 => BuiltList
  | .list4 => BuiltList × BuiltList
  | .close4 => Option BuiltList

/-- The argument of the four calls of `extract_level_start_box_nrs`,
`/repo/boxtree/traversal.py:2100-2123`. -/
def Roles.get (r : Roles) : Fin 4 → List Nat
  | 0 => r.sources
  | 1 => r.parents
  | 2 => r.targets
  | 3 => r.ttp

variable (inp : TravInput)

/-- The launches of `__call__` with their wait lists, `/repo/boxtree/traversal.py:2051-2304`; `hasStarts` tells
whether `tree.level_start_box_nrs` is not `None`.  If it is `None`, no level starts are found and the wait
list is empty afterwards (`:2076-2077`, `:2125`). -/
def launches (hasStarts : Bool) : (a : Arr) → Option (Launch Arr Arr.Val a)
  | .roles => some ⟨[], fun _ =>
      { sources := selSourceBoxes inp.tree inp.srcMask
        parents := selSourceParentBoxes inp.tree inp.srcParentMask
        targets :=
          if inp.sourcesAreTargets then selSourceBoxes inp.tree inp.srcMask else selTargetBoxes inp.tree
        ttp := selTtpBoxes inp.tree : Roles }⟩
  | .starts k =>
      if hasStarts then some ⟨[.roles], fun m => extractLevelStarts inp.tree ((m .roles : Roles).get k)⟩
      else none
  | .slnws => some ⟨if hasStarts then [.starts 0, .starts 1, .starts 2, .starts 3] else [], fun _ =>
      buildLists ((List.range inp.tree.nboxes).map (slnwsKernel inp.tree inp.params))⟩
  | .list1 => some ⟨[.slnws], fun m =>
      buildLists ((m .roles : Roles).targets.map (list1Kernel inp.tree inp.params))⟩
  | .list2 => some ⟨[.list1], fun m =>
      buildLists ((m .roles : Roles).ttp.map
        (list2Kernel inp.tree inp.params (m .slnws : BuiltList).row))⟩
  | .list3 l =>
      if l < inp.tree.nlevels then some ⟨[.list2], fun m =>
        let targets := (m .roles : Roles).targets
        let rows := targets.map fun b =>
          sepPart (list3Kernel inp.tree inp.params (m .slnws : BuiltList).row (l : Int) b)
        (buildLists (nonemptyRows rows), (nonemptyIndices rows).map fun i => targets.getD i 0)⟩
      else none
  | .close3 =>
      if inp.targetsHaveExtent then some ⟨[.list2], fun m =>
        buildLists ((m .roles : Roles).targets.map fun b =>
          closePart (list3Kernel inp.tree inp.params (m .slnws : BuiltList).row (-1) b))⟩
      else none
  | .list4 => some ⟨(List.range inp.tree.nlevels).map .list3 ++
        (if inp.targetsHaveExtent then [.close3] else []), fun m =>
      let out := (m .roles : Roles).ttp.map
        (list4Kernel inp.tree inp.params (m .slnws : BuiltList).row)
      (buildLists (out.map sepPart), buildLists (out.map closePart))⟩
  | .close4 =>
      if inp.targetsHaveExtent then some ⟨[.list4], fun m =>
        (listMerger [(m .list4 : BuiltList × BuiltList).2] .targetOrTargetParentBoxes .targetBoxes
          (m .roles : Roles).targets (m .roles : Roles).ttp inp.tree.nboxes).toOption⟩
      else none

/-- The launch whose event is returned, `/repo/boxtree/traversal.py:2249`, `:2276`, `:2295`. -/
def returnedEvent : Arr := if inp.targetsHaveExtent then .close4 else .list4

/-- `FMMTraversalInfo(...)` of the arrays in memory, `/repo/boxtree/traversal.py:2300-2343`. -/
def info (hasStarts : Bool) (m : ∀ a, Arr.Val a) : Traversal where
  sourceBoxes := (m .roles : Roles).sources
  targetBoxes := (m .roles : Roles).targets
  sourceParentBoxes := (m .roles : Roles).parents
  ttpBoxes := (m .roles : Roles).ttp
  levelStartSource := if hasStarts then m (.starts 0) else []
  levelStartTarget := if hasStarts then m (.starts 2) else []
  levelStartSourceParent := if hasStarts then m (.starts 1) else []
  levelStartTtp := if hasStarts then m (.starts 3) else []
  slnws := m .slnws
  list1 := m .list1
  list2 := m .list2
  list3 := (List.range inp.tree.nlevels).map fun l => (m (.list3 l) : BuiltList × List Nat).1
  list3Targets := (List.range inp.tree.nlevels).map fun l => (m (.list3 l) : BuiltList × List Nat).2
  list3Close := if inp.targetsHaveExtent then some (m .close3) else none
  list4 := (m .list4 : BuiltList × BuiltList).1
  list4Close := if inp.targetsHaveExtent then (m .close4 : Option BuiltList) else none

/-- The order in which the code enqueues the launches, `/repo/boxtree/traversal.py:2051-2304`. -/
def programOrder (hasStarts : Bool) : List Arr :=
  .roles :: (if hasStarts then [.starts 0, .starts 1, .starts 2, .starts 3] else []) ++
    .slnws :: .list1 :: .list2 :: (List.range inp.tree.nlevels).map .list3 ++
    (if inp.targetsHaveExtent then [.close3] else []) ++
    .list4 :: (if inp.targetsHaveExtent then [.close4] else [])

end TravInput
end Boxtree
