import Verif.Model.LeafMesh
import Mathlib.Logic.ExistsUnique

/-!
# Specification vocabulary for the mesh of the leaves
-/

namespace Boxtree

/-- What `modepy.tensor_product_nodes(d, [-1, 1])` promises, in whatever order: `2^d` points with
coordinates -1 and 1, each such point once. -/
structure IsTensorNodes (d : Nat) (nodes : List (Nat → ℚ)) : Prop where
  length : nodes.length = 2 ^ d
  signs : ∀ v ∈ nodes, ∀ i, i < d → v i = -1 ∨ v i = 1
  once : ∀ s : Nat → Bool, ∃! k : Nat, ∃ v : Nat → ℚ,
    nodes[k]? = some v ∧ ∀ i, i < d → v i = if s i then 1 else -1

/-- Vertex `k` of element `e` of a mesh. -/
def LeafMesh.corner (M : LeafMesh) (e k : Nat) : Option (Nat → ℚ) := do
  let idx ← M.vertexIndices[e]?
  let j ← idx[k]?
  M.vertices[j]?

/-- The point `x` lies in the (half-open) axis-parallel box spanned by the vertices of element `e`. -/
def LeafMesh.InElement (M : LeafMesh) (d e : Nat) (x : Nat → ℚ) : Prop :=
  ∀ i, i < d → (∃ k v, M.corner e k = some v ∧ v i ≤ x i) ∧ (∃ k v, M.corner e k = some v ∧ x i < v i)

end Boxtree
