import Verif.Model.Partition
import Verif.Spec.Traversal

/-!
# Specification vocabulary: depth-first orders
-/

namespace Boxtree

/-- A depth-first order of the boxes: every box occurs exactly once, and the boxes of every
subtree form one contiguous block that starts with the root of the subtree. -/
structure IsDepthFirst (t : BoxTree) (order : List Nat) : Prop where
  perm : order.Perm (List.range t.nboxes)
  block : ∀ b, b < t.nboxes → ∃ pre blk post, order = pre ++ (b :: blk) ++ post ∧
    ∀ x, x < t.nboxes → (x ∈ b :: blk ↔ t.IsAncOrSelf b x)

/-- `a` is a strict ancestor of `b`. -/
def BoxTree.IsProperAnc (t : BoxTree) (a b : Nat) : Prop :=
  t.level a < t.level b ∧ t.ancAt b (t.level a) = a

end Boxtree
