import Verif.Spec.TreeBuild

/-!
# Specification vocabulary: trees that could have been built instead
-/

namespace Boxtree.Build

/-- A box tree over the bounding box of the input that the builder could have returned: every box has
all its children or none, the particles in the cube of a leaf are not too heavy together, and, if the
tree is to be level restricted, leaves that touch differ by at most one level. -/
structure Admissible (inp : Input) (t : BoxTree) : Prop where
  wf : t.WF
  dims : t.dims = inp.dims
  extent : t.rootExtent = inp.ext 0
  center : ∀ a < inp.dims, t.center 0 a = inp.lo a + inp.ext 0 / 2
  all_or_none : ∀ b < t.nboxes, (∀ m < t.nch, t.child m b = 0) ∨ ∀ m < t.nch, t.child m b ≠ 0
  light : ∀ b, IsLeaf t b → ∀ ps : List Nat, ps.Nodup →
    (∀ p ∈ ps, p < inp.n ∧ InBox t b fun a => inp.x a p) → (ps.map inp.weight).sum ≤ inp.maxWeight
  balanced : inp.levelRestrict = true → ∀ b c, IsLeaf t b → IsLeaf t c → Touch t b c →
    t.level c ≤ t.level b + 1

/-- Every box of `t` that has children is in `t'`, and has children there. -/
def SplitsWithin (t t' : BoxTree) : Prop :=
  ∀ b < t.nboxes, (∃ m < t.nch, t.child m b ≠ 0) →
    ∃ b' < t'.nboxes, t'.level b' = t.level b ∧ (∀ a < t.dims, t'.center b' a = t.center b a) ∧
      ∃ m < t'.nch, t'.child m b' ≠ 0

end Boxtree.Build
