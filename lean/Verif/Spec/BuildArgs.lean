import Verif.Model.BuildArgs

/-!
# Documented conditions on the arguments of the tree builder

From the docstring of `TreeBuilder.__call__` (`/repo/boxtree/tree_build.py:163-214`).
-/

namespace Boxtree.Build

/-- All entries of a nonempty list of arrays have this dtype and length. -/
def Uniform (l : List Arr) (dtype : String) (n : Nat) : Prop :=
  l ≠ [] ∧ ∀ a ∈ l, a.dtype = dtype ∧ a.len = n

/-- `nt` is the number of separate targets, `dtype` the dtype of the coordinates. -/
structure Args.Shapes (a : Args) (ns nt : Nat) (dtype : String) : Prop where
  kind : a.kind = "adaptive" ∨ a.kind = "adaptive-level-restricted" ∨ a.kind = "non-adaptive"
  norm : a.extentNorm = none ∨ a.extentNorm = some "linf" ∨ a.extentNorm = some "l2"
  particles : Uniform a.particles dtype ns
  /-- the targets have the dimension and dtype of the particles -/
  targets : match a.targets with
    | none => nt = 0
    | some t => Uniform t dtype nt ∧ t.length = a.particles.length
  /-- radii need separate targets -/
  radii : (a.sourceRadii ≠ none ∨ a.targetRadii ≠ none) →
    a.targets ≠ none ∧ a.stickOutFactor ≠ none
  sourceRadii : a.sourceRadii = none ∨ a.sourceRadii = some (dtype, [ns])
  targetRadii : a.targetRadii = none ∨ a.targetRadii = some (dtype, [nt])
  nonempty : ns + nt ≠ 0

/-- The limit is given in exactly one of the two ways, with positive limit and weights between
zero and the limit. -/
def Args.Limit (a : Args) (n : Nat) : Prop :=
  (∃ m, a.maxParticlesInBox = some m ∧ a.refineWeights = none ∧ a.maxLeafRefineWeight = none ∧
    1 ≤ m) ∨
  (∃ w m, a.maxParticlesInBox = none ∧ a.refineWeights = some ("int32", w) ∧
    a.maxLeafRefineWeight = some m ∧ w.length = n ∧ 0 < m ∧ ∀ x ∈ w, 0 ≤ x ∧ (x : ℚ) ≤ m)

end Boxtree.Build
