import Verif.Model.Traversal

/-!
# Work partition and box masks of the distributed FMM

Model of `/repo/boxtree/distributed/partition.py`.

Simplifications: costs are exact rationals instead of floats; `char` masks are Boolean
functions on box ids; work items of an elementwise kernel only ever store `1`, so the order
in which they run is irrelevant and the kernel is modelled by the set of cells written.
-/

namespace Boxtree.Dist

/-! ### depth-first order -/

/-- The `while stack:` loop of `get_box_ids_dfs_order`,
`/repo/boxtree/distributed/partition.py:49-56`.  The Python stack grows at its end, the list
here at its head, so the children pushed in order `0, 1, ...` come out in reverse.  The first
argument counts the free cells of `dfs_order`; writing past them is an `IndexError`, the
result `none`. -/
def dfsLoop (t : BoxTree) : Nat → List Nat → Option (List Nat)
  | _, [] => some []
  | 0, _ :: _ => none
  | n + 1, b :: stack =>
      let pushed := ((List.range t.nch).map fun i => t.child i b).filter fun c => 0 < c
      (dfsLoop t n (pushed.reverse ++ stack)).map (b :: ·)

/-- `get_box_ids_dfs_order`, `/repo/boxtree/distributed/partition.py:38-57`. -/
def dfsOrder (t : BoxTree) : Option (List Nat) := dfsLoop t t.nboxes [0]

/-! ### partitioning -/

/-- `responsible_boxes_segments`, one row per rank; `none` is a row of `np.empty` that has not
been assigned.  `/repo/boxtree/distributed/partition.py:95-116`. -/
abbrev Segments := List (Option (Nat × Nat))

/-- The loop over `box_idx_dfs_order` on the root rank,
`/repo/boxtree/distributed/partition.py:103-116`; `size` is `mpi_size`, the list holds the
indices still to be visited. -/
def partLoop (cost : Nat → ℚ) (dfs : List Nat) (total : ℚ) (size nboxes : Nat) :
    List Nat → Nat → Nat → ℚ → Segments → Segments
  | [], _, _, _, segs => segs
  | idx :: rest, seg, start, workload, segs =>
      if seg + 1 = size then segs.set seg (some (start, nboxes))
      else
        let workload := workload + cost (dfs.getD idx 0)
        if (seg + 1) * total / size < workload ∨ idx = nboxes - 1 then
          partLoop cost dfs total size nboxes rest (seg + 1) (idx + 1) workload
            (segs.set seg (some (start, idx + 1)))
        else partLoop cost dfs total size nboxes rest seg start workload segs

/-- `responsible_boxes_segments` as computed on the root rank,
`/repo/boxtree/distributed/partition.py:95-116`. -/
def segments (cost : Nat → ℚ) (dfs : List Nat) (size nboxes : Nat) : Segments :=
  partLoop cost dfs ((List.range nboxes).map cost).sum size nboxes (List.range nboxes) 0 0 0
    (List.replicate size none)

/-- Exceptions of `partition_work`.  `/repo/boxtree/distributed/partition.py:60-121`. -/
inductive PartError
  | tooManyRanks  -- RuntimeError, partition.py:77-79
  | dfsOverflow   -- IndexError in get_box_ids_dfs_order
deriving DecidableEq, Repr

/-- `partition_work`, `/repo/boxtree/distributed/partition.py:60-121`, for all ranks at once: the
`r`-th entry is what rank `r` returns after the `Scatter`, `none` if its row of the segment
table holds uninitialised memory. -/
def partitionWork (t : BoxTree) (cost : Nat → ℚ) (size : Nat) :
    Except PartError (List (Option (List Nat))) :=
  if t.nboxes < size then .error .tooManyRanks
  else match dfsOrder t with
    | none => .error .dfsOverflow
    | some dfs => .ok ((segments cost dfs size t.nboxes).map fun s =>
        s.map fun se => (dfs.drop se.1).take (se.2 - se.1))

/-! ### masks -/

/-- `responsible_boxes_mask[responsible_boxes_list] = 1`,
`/repo/boxtree/distributed/partition.py:340-342`. -/
def listMask (l : List Nat) : Nat → Bool := fun b => l.contains b

/-- `add_parent_boxes_kernel`, `/repo/boxtree/distributed/partition.py:164-171`, on a zeroed
output mask. -/
def addParents (t : BoxTree) (current : Nat → Bool) : Nat → Bool := fun p =>
  (List.range t.nboxes).any fun i => i != 0 && current i && t.parent i == p

/-- The `while ancestor_boxes_last.any()` loop of `get_ancestor_boxes_mask`,
`/repo/boxtree/distributed/partition.py:186-194`; `none` if it has not ended after the given
number of iterations. -/
def ancestorLoop (t : BoxTree) : Nat → (Nat → Bool) → (Nat → Bool) → Option (Nat → Bool)
  | n, anc, last =>
      if (List.range t.nboxes).any last then
        match n with
        | 0 => none
        | n + 1 =>
          let new := fun b => addParents t last b && !anc b
          ancestorLoop t n (fun b => anc b || new b) new
      else some anc

/-- `get_ancestor_boxes_mask`, `/repo/boxtree/distributed/partition.py:174-194`.  That the loop
ends within `nlevels + 1` iterations is a theorem (`C38_ancestor_mask`). -/
def ancestorMask (t : BoxTree) (resp : Nat → Bool) : Nat → Bool :=
  (ancestorLoop t (t.nlevels + 1) (fun _ => false) resp).getD fun _ => false

/-- `add_interaction_list_boxes_kernel`, `/repo/boxtree/distributed/partition.py:135-162`: for
each work item `i` with `mask[box_list[i]]`, set `src_boxes_mask` for all entries of row `i`. -/
def addInteractionBoxes (boxList : List Nat) (mask : Nat → Bool) (lists : BuiltList)
    (src : Nat → Bool) : Nat → Bool := fun x =>
  src x || (List.range boxList.length).any fun i =>
    mask (boxList.getD i 0) && (lists.row i).contains x

/-- `get_point_src_boxes_mask`, `/repo/boxtree/distributed/partition.py:197-252`. -/
def pointSrcMask (trav : Traversal) (targetsHaveExtent : Bool) (resp anc : Nat → Bool) :
    Nat → Bool :=
  let m := addInteractionBoxes trav.targetBoxes resp trav.list1 resp
  let m := addInteractionBoxes trav.ttpBoxes (fun b => resp b || anc b) trav.list4 m
  if targetsHaveExtent then
    let m := match trav.list3Close with
      | some bl => addInteractionBoxes trav.targetBoxes resp bl m
      | none => m
    match trav.list4Close with
      | some bl => addInteractionBoxes trav.targetBoxes (fun b => resp b || anc b) bl m
      | none => m
  else m

/-- `get_multipole_src_boxes_mask`, `/repo/boxtree/distributed/partition.py:255-297`. -/
def multipoleSrcMask (trav : Traversal) (nlevels : Nat) (resp anc : Nat → Bool) : Nat → Bool :=
  let m := addInteractionBoxes trav.ttpBoxes (fun b => resp b || anc b) trav.list2 fun _ => false
  (List.range nlevels).foldl (fun m l =>
    addInteractionBoxes (trav.list3Targets.getD l []) resp (trav.list3.getD l ⟨[], []⟩) m) m

/-- `BoxMasks`, `/repo/boxtree/distributed/partition.py:300-327`. -/
structure BoxMasks where
  responsible : Nat → Bool
  ancestor : Nat → Bool
  pointSrc : Nat → Bool
  multipoleSrc : Nat → Bool

/-- `get_box_masks`, `/repo/boxtree/distributed/partition.py:330-357`. -/
def getBoxMasks (t : BoxTree) (trav : Traversal) (targetsHaveExtent : Bool)
    (responsibleBoxes : List Nat) : BoxMasks :=
  let resp := listMask responsibleBoxes
  let anc := ancestorMask t resp
  { responsible := resp
    ancestor := anc
    pointSrc := pointSrcMask trav targetsHaveExtent resp anc
    multipoleSrc := multipoleSrcMask trav t.nlevels resp anc }

end Boxtree.Dist
