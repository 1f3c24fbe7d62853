import Verif.Model.Tools
import Verif.Model.Fmm

/-!
# Target filters, point source linking, particle lookup

Model of `ParticleListFilter`, `link_point_sources` and `Tree.find_box_nr_for_*` in
`/repo/boxtree/tree.py`, and of their kernels in `/repo/boxtree/tree_build_kernels.py:1869-2025`.

Element-wise stores (`multi_put`, indexed assignment) take the order of the work items as an
argument.  A read past the end of a device array returns whatever `junk` says; a store past the
end is dropped.
-/

namespace Boxtree.Filter

/-- Read of a device array of length `a.length`; past the end anything may come back.  Reads in
`/repo/boxtree/tree_build_kernels.py:1977-2025`. -/
def readOr (junk : Nat → Nat) (a : List Nat) (i : Nat) : Nat :=
  if i < a.length then a.getD i 0 else junk i

/-- `out[idx[k]] = val[k]` for the work items `k` in `order`
(`pyopencl.array.multi_put`, `Array.__setitem__` with an index array).
`/repo/boxtree/tree.py:1184-1185`. -/
def putIn (order : List Nat) (idx val : Nat → Nat) (out : List Nat) : List Nat :=
  order.foldl (fun a k => a.set (idx k) (val k)) out

/-- Entries appended by `generate` for box `b`, `/repo/boxtree/tree.py:1089-1103`. -/
def userFilterRow (flags : Nat → Nat) (userTargetIds : List Nat) (start count : Nat) : List Nat :=
  ((List.range' start count).map fun j => userTargetIds.getD j 0).filter fun u => flags u != 0

/-- `filter_target_lists_in_user_order`, `/repo/boxtree/tree.py:1112-1147`: the result's
`target_starts` and `target_lists`. -/
def filterUserOrder (order : List Nat) (q : Particles) (nboxes : Nat) (flags : Nat → Nat) :
    BuiltList :=
  let userTargetIds := putIn order q.sortedTargetIds id (List.replicate q.ntargets 0)
  buildLists ((List.range nboxes).map fun b =>
    userFilterRow flags userTargetIds (q.tgtStart b) (q.tgtCount b))

/-- `FilteredTargetListsInTreeOrder`, `/repo/boxtree/tree.py:1002-1054`; `targets` holds the
original numbers of the fetched targets instead of their coordinates, that is
`unfiltered_from_filtered_target_indices`. -/
structure TreeOrderFilter where
  nfiltered : Nat
  starts : Nat → Nat
  counts : Nat → Nat
  unfiltered : List Nat

/-- `TREE_ORDER_TARGET_FILTER_SCAN_TPL`, `/repo/boxtree/tree_build_kernels.py:1954-1975`: the
array `filtered_from_unfiltered_target_index`; `prev_item` is the exclusive scan. -/
def filteredFromUnfiltered (treeFlags : List Nat) : List Nat :=
  (prefixSums 0 (treeFlags.map fun f => if f ≠ 0 then 1 else 0)).take treeFlags.length

/-- The array `unfiltered_from_filtered_target_index` of the same scan: stored where `item` and
`prev_item` differ.  `/repo/boxtree/tree_build_kernels.py:1954-1975`. -/
def unfilteredFromFiltered (order : List Nat) (treeFlags : List Nat) : List Nat :=
  let scan := prefixSums 0 (treeFlags.map fun f => if f ≠ 0 then 1 else 0)
  order.foldl (fun a i =>
    if scan.getD (i + 1) 0 ≠ scan.getD i 0 then a.set (scan.getD i 0) i else a)
    (List.replicate treeFlags.length 0)

/-- `filter_target_lists_in_tree_order`, `/repo/boxtree/tree.py:1174-1240`, with
`TREE_ORDER_TARGET_FILTER_INDEX_TPL`, `/repo/boxtree/tree_build_kernels.py:1977-2025`. -/
def filterTreeOrder (junk : Nat → Nat) (order : List Nat) (q : Particles) (flags : Nat → Nat) :
    TreeOrderFilter :=
  let treeFlags := putIn order q.sortedTargetIds flags (List.replicate q.ntargets 0)
  let fromUnf := filteredFromUnfiltered treeFlags
  let scan := prefixSums 0 (treeFlags.map fun f => if f ≠ 0 then 1 else 0)
  let nfiltered := scan.getD q.ntargets 0
  { nfiltered := nfiltered
    unfiltered := (unfilteredFromFiltered order treeFlags).take nfiltered
    starts := fun b => readOr junk fromUnf (q.tgtStart b)
    counts := fun b =>
      if 0 < q.tgtCount b then
        let postLast := q.tgtStart b + q.tgtCount b
        let filteredPostLast := if postLast < q.ntargets then readOr junk fromUnf postLast
          else nfiltered
        filteredPostLast - readOr junk fromUnf (q.tgtStart b)
      else 0 }

/-- `TreeWithLinkedPointSources` without the attributes copied from the tree,
`/repo/boxtree/tree.py:692-770`; `point_sources` is fetched from `userIds`. -/
structure Linked where
  npoint : Nat
  starts : List Nat
  counts : List Nat
  userIds : List Nat
  boxStarts : Nat → Nat
  boxCounts : Nat → Nat
  boxCumul : Nat → Nat

/-- `POINT_SOURCE_LINKING_USER_POINT_SOURCE_ID_SCAN_TPL`,
`/repo/boxtree/tree_build_kernels.py:1898-1907`: inclusive sums restarting at the boundaries.
`prev` is the sum before the list. -/
def segScan : Nat → List Nat → List Nat → List Nat
  | _, _, [] => []
  | prev, bnd, v :: vs =>
      let item := if bnd.headD 0 ≠ 0 then v else prev + v
      item :: segScan item bnd.tail vs

/-- Number of point sources counted for a box by `POINT_SOURCE_LINKING_BOX_POINT_SOURCES`,
`/repo/boxtree/tree_build_kernels.py:1926-1946`. -/
def boxPointCount (junk : Nat → Nat) (starts counts : List Nat) (sStart sCount : Nat) : Nat :=
  if sCount = 0 then 0
  else
    let last := sStart + sCount - 1
    readOr junk starts last + readOr junk counts last - readOr junk starts sStart

/-- `link_point_sources`, `/repo/boxtree/tree.py:772-951`, after the check that sources have
extent.  `order` is the order of the work items of both `multi_put` calls, `cumul` is
`box_source_counts_cumul`, `pss` is the argument `point_source_starts`. -/
def linkPointSources (junk : Nat → Nat) (order : List Nat) (q : Particles) (cumul : Nat → Nat)
    (pss : Nat → Nat) : Linked :=
  let lens := (List.range q.nsources).map fun i =>
    pss (q.userSourceIds i + 1) - pss (q.userSourceIds i)
  let scan := prefixSums 0 lens
  let npoint := scan.getD q.nsources 0
  let starts := scan.take q.nsources
  let counts := (List.range q.nsources).map fun i => scan.getD (i + 1) 0 - scan.getD i 0
  let ids := putIn order (fun i => starts.getD i 0) (fun i => pss (q.userSourceIds i))
    (List.replicate npoint 1)
  let boundaries := putIn order (fun i => starts.getD i 0) (fun _ => 1)
    (List.replicate npoint 0)
  { npoint := npoint
    starts := starts
    counts := counts
    userIds := segScan 0 boundaries ids
    boxStarts := fun b => readOr junk starts (q.srcStart b)
    boxCounts := fun b => boxPointCount junk starts counts (q.srcStart b) (q.srcCount b)
    boxCumul := fun b => boxPointCount junk starts counts (q.srcStart b) (cumul b) }

/-- `link_point_sources` including the check, `/repo/boxtree/tree.py:799-800`. -/
def linkPointSourcesChecked (sourcesHaveExtent : Bool) (junk : Nat → Nat) (order : List Nat)
    (q : Particles) (cumul : Nat → Nat) (pss : Nat → Nat) : Except String Linked :=
  if sourcesHaveExtent then .ok (linkPointSources junk order q cumul pss)
  else .error "ValueError"

/-- `find_box_nr_for_source`, `find_box_nr_for_target`, `/repo/boxtree/tree.py:664-684`:
`int(np.where(crit)[0])` fails unless exactly one box meets the criterion. -/
def findBoxNr (nboxes : Nat) (starts counts : Nat → Nat) (i : Nat) : Except String Nat :=
  match (List.range nboxes).filter fun b => starts b ≤ i && i < starts b + counts b with
  | [b] => .ok b
  | _ => .error "TypeError"

end Boxtree.Filter
