import Verif.Model.Traversal
import Mathlib.Algebra.BigOperators.Group.List.Basic

/-!
# `drive_fmm` with the constant-one wrangler

Model of `/repo/boxtree/fmm.py:342-560` and `/repo/boxtree/constant_one.py:50-237`.
Weights and expansions live in an arbitrary commutative monoid `M` (the code uses
`float64`); numpy arrays are functions on indices, in-place updates are
`Function.update`.
-/

namespace Boxtree

/-- Particle attributes of `Tree` read by the wrangler (`/repo/boxtree/tree.py:298-520`). -/
structure Particles where
  nsources : Nat
  ntargets : Nat
  srcStart : Nat → Nat
  srcCount : Nat → Nat
  tgtStart : Nat → Nat
  tgtCount : Nat → Nat
  /-- `user_source_ids` -/
  userSourceIds : Nat → Nat
  /-- `sorted_target_ids` -/
  sortedTargetIds : Nat → Nat

namespace Fmm
variable {M : Type} [AddCommMonoid M] (t : BoxTree) (q : Particles)

/-- `np.sum(src_weights[pslice])` with `_get_source_slice`,
`/repo/boxtree/constant_one.py:56-59`. -/
def boxWeight (w : Nat → M) (b : Nat) : M :=
  ((List.range (q.srcCount b)).map fun j => w (q.srcStart b + j)).sum

/-- `pot[tgt_pslice] = v`, slice from `_get_target_slice`, `/repo/boxtree/constant_one.py:61-64`. -/
def setTargets (pot : Nat → M) (b : Nat) (v : M) : Nat → M := fun i =>
  if q.tgtStart b ≤ i ∧ i < q.tgtStart b + q.tgtCount b then v else pot i

/-- `pot[tgt_pslice] += v`.  `/repo/boxtree/constant_one.py:124-145`. -/
def addTargets (pot : Nat → M) (b : Nat) (v : M) : Nat → M := fun i =>
  if q.tgtStart b ≤ i ∧ i < q.tgtStart b + q.tgtCount b then pot i + v else pot i

/-- `form_multipoles`, `/repo/boxtree/constant_one.py:88-99`. -/
def formMultipoles (sourceBoxes : List Nat) (w : Nat → M) : Nat → M :=
  sourceBoxes.foldl (fun mp b => Function.update mp b (mp b + boxWeight q w b)) (fun _ => 0)

/-- Inner loop `for child in tree.box_child_ids[:, ibox]: if child: mpoles[ibox] += ...`,
`/repo/boxtree/constant_one.py:118-120`. -/
def coarsenBox (mp : Nat → M) (b : Nat) : Nat → M :=
  (List.range t.nch).foldl (fun mp m =>
    let c := t.child m b
    if c ≠ 0 then Function.update mp b (mp b + mp c) else mp) mp

/-- `lst[start:stop]` with `start, stop = level_starts[l:l+2]`.
`/repo/boxtree/constant_one.py:101-122`, `:212-222`. -/
def levelSlice (levelStarts : List Nat) (boxes : List Nat) (l : Nat) : List Nat :=
  let start := levelStarts.getD l 0
  let stop := levelStarts.getD (l + 1) 0
  (boxes.drop start).take (stop - start)

/-- `range(nlevels-1, 2, -1)` of `/repo/boxtree/constant_one.py:113`. -/
def coarsenLevels (nlevels : Nat) : List Nat :=
  ((List.range nlevels).filter fun l => 2 < l).reverse

/-- `coarsen_multipoles`, `/repo/boxtree/constant_one.py:101-122`. -/
def coarsenMultipoles (levelStarts : List Nat) (sourceParentBoxes : List Nat)
    (mp : Nat → M) : Nat → M :=
  (coarsenLevels t.nlevels).foldl (fun mp sourceLevel =>
    (levelSlice levelStarts sourceParentBoxes (sourceLevel - 1)).foldl (coarsenBox t) mp) mp

/-- `eval_direct`, `/repo/boxtree/constant_one.py:124-145`. -/
def evalDirect (targetBoxes : List Nat) (lists : BuiltList) (w : Nat → M) : Nat → M :=
  (List.range targetBoxes.length).foldl (fun pot i =>
    setTargets q pot (targetBoxes.getD i 0) (((lists.row i).map (boxWeight q w)).sum))
    (fun _ => 0)

/-- `multipole_to_local`, `/repo/boxtree/constant_one.py:147-164`. -/
def multipoleToLocal (ttpBoxes : List Nat) (lists : BuiltList) (mp : Nat → M) : Nat → M :=
  (List.range ttpBoxes.length).foldl (fun loc i =>
    let b := ttpBoxes.getD i 0
    Function.update loc b (loc b + ((lists.row i).map mp).sum)) (fun _ => 0)

/-- `eval_multipoles`, `/repo/boxtree/constant_one.py:166-186`. -/
def evalMultipoles (targetsByLevel : List (List Nat)) (listsByLevel : List BuiltList)
    (mp : Nat → M) : Nat → M :=
  (List.range listsByLevel.length).foldl (fun pot l =>
    let boxes := targetsByLevel.getD l []
    let lists := listsByLevel.getD l ⟨[], []⟩
    (List.range boxes.length).foldl (fun pot i =>
      addTargets q pot (boxes.getD i 0) (((lists.row i).map mp).sum)) pot) (fun _ => 0)

/-- `form_locals`, `/repo/boxtree/constant_one.py:188-210`. -/
def formLocals (ttpBoxes : List Nat) (lists : BuiltList) (w : Nat → M) : Nat → M :=
  (List.range ttpBoxes.length).foldl (fun loc i =>
    let b := ttpBoxes.getD i 0
    Function.update loc b (loc b + ((lists.row i).map (boxWeight q w)).sum)) (fun _ => 0)

/-- `refine_locals`, `/repo/boxtree/constant_one.py:212-222`. -/
def refineLocals (levelStarts : List Nat) (ttpBoxes : List Nat) (loc : Nat → M) : Nat → M :=
  ((List.range t.nlevels).filter fun l => 1 ≤ l).foldl (fun loc l =>
    (levelSlice levelStarts ttpBoxes l).foldl (fun loc b =>
      Function.update loc b (loc b + loc (t.parent b))) loc) loc

/-- `eval_locals`, `/repo/boxtree/constant_one.py:224-234`. -/
def evalLocals (targetBoxes : List Nat) (loc : Nat → M) : Nat → M :=
  targetBoxes.foldl (fun pot b => addTargets q pot b (loc b)) (fun _ => 0)

/-- `if traversal.<close>_starts is not None: potentials = potentials + eval_direct(...)`,
`/repo/boxtree/fmm.py:452-463` and `:478-487`. -/
def addDirect (targetBoxes : List Nat) (lists : Option BuiltList) (w : Nat → M)
    (pot : Nat → M) : Nat → M :=
  match lists with
  | some l => fun i => pot i + evalDirect q targetBoxes l w i
  | none => pot

/-- Stages 3-8 of `drive_fmm`, `/repo/boxtree/fmm.py:413-514`: everything after the upward pass.
`w` are the source weights in tree order, `mp` the multipole expansions; the result is in
tree order. -/
def evaluate (trav : Traversal) (w : Nat → M) (mp : Nat → M) : Nat → M :=
  let pot1 := evalDirect q trav.targetBoxes trav.list1 w
  let loc1 := multipoleToLocal trav.ttpBoxes trav.list2 mp
  let pot2 := fun i => pot1 i + evalMultipoles q trav.list3Targets trav.list3 mp i
  let pot3 := addDirect q trav.targetBoxes trav.list3Close w pot2
  let loc2 := fun b => loc1 b + formLocals q trav.ttpBoxes trav.list4 w b
  let pot4 := addDirect q trav.targetBoxes trav.list4Close w pot3
  let loc3 := refineLocals t trav.levelStartTtp trav.ttpBoxes loc2
  fun i => pot4 i + evalLocals q trav.targetBoxes loc3 i

/-- Stages 1-2 of `drive_fmm`, `/repo/boxtree/fmm.py:385-409`: form and coarsen multipoles. -/
def upward (trav : Traversal) (w : Nat → M) : Nat → M :=
  coarsenMultipoles t trav.levelStartSourceParent trav.sourceParentBoxes
    (formMultipoles q trav.sourceBoxes w)

/-- `drive_fmm`, `/repo/boxtree/fmm.py:342-533`, with the constant-one wrangler and the
default (shared-memory) `distribute_source_weights`, `communicate_mpoles`,
`gather_potential_results` and `finalize_potentials`, which return their argument
unchanged. -/
def driveFmm (trav : Traversal) (weights : Nat → M) : Nat → M :=
  -- reorder_sources, constant_one.py:74-75
  let w := fun i => weights (q.userSourceIds i)
  let pot := evaluate t q trav w (upward t q trav w)
  -- reorder_potentials, constant_one.py:77-78
  fun i => pot (q.sortedTargetIds i)

end Fmm
end Boxtree
