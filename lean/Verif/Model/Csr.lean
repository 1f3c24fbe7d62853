import Mathlib.Data.List.Basic

/-!
# CSR lists and index helpers

Model of the compressed-row results produced by `pyopencl.algorithm.ListOfListsBuilder`
(an external dependency whose documented contract is modelled: a count pass, a scan of the
counts, and a write pass) and of the helpers in `/repo/boxtree/tools.py` and
`_ListMerger` in `/repo/boxtree/traversal.py:1153-1344` that operate on them.
-/

namespace Boxtree

/-- Exclusive running sums `a, a+c0, a+c0+c1, ...` (one entry more than the input): the
`starts` array obtained by scanning the counts.  Contract of `pyopencl`, used through
`/repo/boxtree/traversal.py:2105-2297`. -/
def prefixSums : Nat → List Nat → List Nat
  | a, [] => [a]
  | a, c :: cs => a :: prefixSums (a + c) cs

/-- `BuiltList` with `starts` and `lists`, as used e.g. at
`/repo/boxtree/traversal.py:2138-2141`. -/
structure BuiltList where
  starts : List Nat
  lists : List Nat
deriving DecidableEq, Repr

/-- Contract of `ListOfListsBuilder.__call__` for one output list: `rows[i]` is what the
kernel APPENDs in invocation `i`.  Used at `/repo/boxtree/traversal.py:1834-1966`; the class itself
is not in `/repo`. -/
def buildLists (rows : List (List Nat)) : BuiltList :=
  ⟨prefixSums 0 (rows.map List.length), rows.flatten⟩

/-- `lists[starts[i]:starts[i+1]]`; `get_box_list`, `/repo/boxtree/traversal.py:1697-1701`. -/
def BuiltList.row (bl : BuiltList) (i : Nat) : List Nat :=
  (bl.lists.drop (bl.starts.getD i 0)).take (bl.starts.getD (i + 1) 0 - bl.starts.getD i 0)

/-- `eliminate_empty_output_lists` (`/repo/boxtree/traversal.py:1959`): rows with no entry are
dropped and `nonempty_indices` records the invocation numbers of the kept rows. -/
def nonemptyIndices (rows : List (List Nat)) : List Nat :=
  (List.range rows.length).filter fun i => !(rows.getD i []).isEmpty

/-- Rows kept by `eliminate_empty_output_lists`.  Option at `/repo/boxtree/traversal.py:1834-1966`;
the class itself is not in `/repo`. -/
def nonemptyRows (rows : List (List Nat)) : List (List Nat) :=
  rows.filter fun r => !r.isEmpty

/-- `reverse_index_array(indices, target_size)`, `/repo/boxtree/tools.py:82-111`: a zero array
of length `target_size` with `result[indices[k]] = k` stored for each `k` (in increasing
order of `k`; `multi_put` leaves the order unspecified, which matters only if indices
repeat). -/
def reverseIndexArray (indices : List Nat) (targetSize : Nat) : List Nat :=
  (List.range indices.length).foldl (fun r k => r.set (indices.getD k 0) k)
    (List.replicate targetSize 0)

/-- Store the entries of `vals` at positions `pos, pos+1, ...`: the copy loop
`new_lists[cur_idx++] = ...` of `LIST_MERGER_TEMPLATE`, `/repo/boxtree/traversal.py:1200-1208`. -/
def writeAt (arr : List Nat) : Nat → List Nat → List Nat
  | _, [] => arr
  | pos, v :: vs => writeAt (arr.set pos v) (pos + 1) vs

/-- Concatenation of row `ibox` of all input lists: what `LIST_MERGER_TEMPLATE` copies for
one output box, `/repo/boxtree/traversal.py:1176-1208`. -/
def mergedRow (inputs : List BuiltList) (ibox : Nat) : List Nat :=
  inputs.flatMap fun bl => bl.row ibox

/-- Number of entries counted by `LIST_MERGER_TEMPLATE` with `write_counts`,
`/repo/boxtree/traversal.py:1181-1197`. -/
def mergedCount (inputs : List BuiltList) (ibox : Nat) : Nat :=
  (inputs.map fun bl => bl.starts.getD (ibox + 1) 0 - bl.starts.getD ibox 0).sum

/-- `_ListMerger.__call__`, `/repo/boxtree/traversal.py:1260-1344`, given
`output_to_input_box`; `order` is the order in which the work items of the copying kernel
run.  Array `new_lists` is prefilled with 999999999 as in the code. -/
def mergeListsWith (inputs : List BuiltList) (outputToInput : List Nat) (order : List Nat) :
    BuiltList :=
  let counts := outputToInput.map (mergedCount inputs)
  let newStarts := prefixSums 0 counts
  let init := List.replicate (newStarts.getD outputToInput.length 0) 999999999
  let newLists := order.foldl (fun arr i =>
    writeAt arr (newStarts.getD i 0) (mergedRow inputs (outputToInput.getD i 0))) init
  ⟨newStarts, newLists⟩

/-- `_IndexStyle`, `/repo/boxtree/traversal.py:1217-1219`. -/
inductive IndexStyle
  | targetBoxes
  | targetOrTargetParentBoxes
deriving DecidableEq, Repr

/-- `_ListMerger.__call__` including the choice of `output_to_input_box` and the
`ValueError` for the unsupported combination, `/repo/boxtree/traversal.py:1260-1312`. -/
def listMerger (inputs : List BuiltList) (inStyle outStyle : IndexStyle)
    (targetBoxes ttpBoxes : List Nat) (nboxes : Nat) : Except String BuiltList :=
  match inStyle, outStyle with
  | .targetBoxes, .targetOrTargetParentBoxes => .error "ValueError"
  | .targetOrTargetParentBoxes, .targetBoxes =>
      let rev := reverseIndexArray ttpBoxes nboxes
      let o2i := targetBoxes.map fun b => rev.getD b 0
      .ok (mergeListsWith inputs o2i (List.range o2i.length))
  | .targetBoxes, .targetBoxes =>
      let o2i := List.range targetBoxes.length
      .ok (mergeListsWith inputs o2i (List.range o2i.length))
  | .targetOrTargetParentBoxes, .targetOrTargetParentBoxes =>
      let o2i := List.range ttpBoxes.length
      .ok (mergeListsWith inputs o2i (List.range o2i.length))

end Boxtree
