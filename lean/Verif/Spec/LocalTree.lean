import Verif.Spec.Tree
import Verif.Spec.Partition

/-!
# Specification vocabulary: particle ranges of boxes
-/

namespace Boxtree

/-- Particle `p` is in the range of `count b` particles beginning at `start b`. -/
def InRange (start count : Nat → Nat) (b p : Nat) : Prop := start b ≤ p ∧ p < start b + count b

instance (start count : Nat → Nat) (b p : Nat) : Decidable (InRange start count b p) :=
  inferInstanceAs (Decidable (_ ∧ _))

/-- The particle ranges of a tree with `n` particles: the particles of a box and its descendants
are the `cumul b` particles from `start b` on; the first `count b` of them belong to the box
itself, the others to its children; no particle belongs to two boxes. -/
structure RangesOK (t : BoxTree) (n : Nat) (start count cumul : Nat → Nat) : Prop where
  within : ∀ b, b < t.nboxes → start b + cumul b ≤ n
  count_le : ∀ b, b < t.nboxes → count b ≤ cumul b
  child : ∀ b, b < t.nboxes → b ≠ 0 →
    start (t.parent b) + count (t.parent b) ≤ start b ∧
    start b + cumul b ≤ start (t.parent b) + cumul (t.parent b)
  exhaustive : ∀ b, b < t.nboxes → ∀ p, start b + count b ≤ p → p < start b + cumul b →
    ∃ c, c < t.nboxes ∧ c ≠ 0 ∧ t.parent c = b ∧ InRange start cumul c p
  disjoint : ∀ b, b < t.nboxes → ∀ b', b' < t.nboxes → ∀ p, InRange start count b p →
    InRange start count b' p → b = b'

end Boxtree
