import Verif.Model.Fmm
import Verif.Spec.Traversal

/-!
# Specification vocabulary: particles in boxes
-/

namespace Boxtree

/-- What the driver needs to know about the particle arrays of a tree: the `nonchild` source
slices of the source boxes split `0..nsources`, the `nonchild` target slices of the target
boxes split `0..ntargets`, `user_source_ids` permutes `0..nsources`, and
`sorted_target_ids` has values below `ntargets`. -/
structure Particles.OK (t : BoxTree) (q : Particles) : Prop where
  src_le : ∀ b, b < t.nboxes → t.isSource b = true → q.srcStart b + q.srcCount b ≤ q.nsources
  src_cover : ∀ j, j < q.nsources → ∃ b, b < t.nboxes ∧ t.isSource b = true ∧
    q.srcStart b ≤ j ∧ j < q.srcStart b + q.srcCount b
  src_disjoint : ∀ b, b < t.nboxes → t.isSource b = true → ∀ b', b' < t.nboxes →
    t.isSource b' = true → ∀ j, q.srcStart b ≤ j → j < q.srcStart b + q.srcCount b →
    q.srcStart b' ≤ j → j < q.srcStart b' + q.srcCount b' → b = b'
  tgt_cover : ∀ j, j < q.ntargets → ∃ b, b < t.nboxes ∧ t.isTarget b = true ∧
    q.tgtStart b ≤ j ∧ j < q.tgtStart b + q.tgtCount b
  tgt_disjoint : ∀ b, b < t.nboxes → t.isTarget b = true → ∀ b', b' < t.nboxes →
    t.isTarget b' = true → ∀ j, q.tgtStart b ≤ j → j < q.tgtStart b + q.tgtCount b →
    q.tgtStart b' ≤ j → j < q.tgtStart b' + q.tgtCount b' → b = b'
  user_lt : ∀ j, j < q.nsources → q.userSourceIds j < q.nsources
  user_inj : ∀ i, i < q.nsources → ∀ j, j < q.nsources →
    q.userSourceIds i = q.userSourceIds j → i = j
  sorted_lt : ∀ i, i < q.ntargets → q.sortedTargetIds i < q.ntargets

end Boxtree
