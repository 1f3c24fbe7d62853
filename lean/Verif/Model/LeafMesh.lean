import Verif.Model.TreeOfBoxes

/-!
# `make_meshmode_mesh_from_leaves`
-/

namespace Boxtree

/-- `np.repeat(a, k)` along the last axis.  Used at `/repo/boxtree/tree_of_boxes.py:487-488`. -/
def npRepeat {α : Type} (a : List α) (k : Nat) : List α := a.flatMap (List.replicate k)

/-- `np.tile(a, (1, k))`.  Used at `/repo/boxtree/tree_of_boxes.py:488`. -/
def npTile {α : Type} (a : List α) (k : Nat) : List α := (List.replicate k a).flatten

/-- What `make_meshmode_mesh_from_leaves` hands to `meshmode`, and its second result,
`/repo/boxtree/tree_of_boxes.py:466-505`. -/
structure LeafMesh where
  vertices : List (Nat → ℚ)
  vertexIndices : List (List Nat)
  elementBoxes : List Nat

namespace Tob

/-- `make_meshmode_mesh_from_leaves`, `/repo/boxtree/tree_of_boxes.py:466-505`.  `nodes` is the answer of
`modepy.tensor_product_nodes` for the nodes -1, 1 (`:483`).  Simplifications: `meshmode`'s own processing of
the arrays is left out; vertex numbers are unbounded. -/
def leafMesh (t : Tob) (nodes : List (Nat → ℚ)) : LeafMesh :=
  let lfboxes := t.leafBoxes
  let centers := npRepeat (lfboxes.map t.center) (2 ^ t.dims)
  let radii := npRepeat (lfboxes.map t.leafRadius) (2 ^ t.dims)
  let offsets := List.zipWith (fun r s => fun i => r * s i) radii (npTile nodes lfboxes.length)
  { vertices := List.zipWith (fun c o => fun i => c i + o i) centers offsets
    vertexIndices := (List.range lfboxes.length).map fun e =>
      (List.range (2 ^ t.dims)).map fun k => e * 2 ^ t.dims + k
    elementBoxes := lfboxes }

end Tob
end Boxtree
