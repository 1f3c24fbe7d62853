import Verif.Model.FmmLib

/-!
# Positions in arrays with one row per child or axis

`box_child_ids`, `box_centers` and the bounding boxes of boxes are arrays of several rows with one entry per
box.  The kernels compute positions in them as `row * aligned_nboxes + box_id` in the type of box ids,
which `TreeBuilder` fixes as `np.int32` (`/repo/boxtree/tree_build.py:260`).
-/

namespace Boxtree
open FmmLib (wrap32)

/-- `aligned_nboxes = div_ceil(nboxes_post_prune, 32)*32`, `/repo/boxtree/tree_build.py:1641`. -/
def alignedNboxes (nboxes : Nat) : Nat := (nboxes + 31) / 32 * 32

/-- Memory of an array of shape `(nrows, aligned_nboxes)` in C order whose first `nboxes` columns are
filled and whose other entries are zero, `/repo/boxtree/tree_build.py:1643-1654`. -/
def flatBoxArray {α : Type} [Zero α] (nrows nboxes : Nat) (a : Nat → Nat → α) : List α :=
  (List.range nrows).flatMap fun r =>
    (List.range (alignedNboxes nboxes)).map fun b => if b < nboxes then a r b else 0

/-- `row * aligned_nboxes + box_id` in 32-bit integers, `/repo/boxtree/traversal.py:112`, `:169`, `:187`,
`:581`, `/repo/boxtree/area_query.py:277`, `:447`, `/repo/boxtree/tree_build_kernels.py:1374-1396`.
Simplification: overflow, undefined in C, wraps around. -/
def flatIndex32 (nboxes row box : Nat) : ℤ :=
  wrap32 (wrap32 ((row : ℤ) * (alignedNboxes nboxes : ℤ)) + (box : ℤ))

/-- Load from a device array; `none` is an access outside of it.  Loads of
`/repo/boxtree/traversal.py:111-112`, `:169`, `:186-187`, `:580-581`. -/
def load {α : Type} (mem : List α) (i : ℤ) : Option α := if i < 0 then none else mem[i.toNat]?

end Boxtree
