import Verif.Model.Geometry

/-!
# Specification vocabulary: what a box tree is

Used in the statements of the properties; independent of the kernels.
-/

namespace Boxtree

/-- `+1` if bit `dims-1-axis` of the Morton number `m` is set, `-1` otherwise: axis 0 is the
most significant bit. -/
def mortonSign (dims m axis : Nat) : ℚ := if m / 2 ^ (dims - 1 - axis) % 2 = 1 then 1 else -1

namespace BoxTree

/-- A well-formed box tree: ids below `nboxes`, root 0, child and parent pointers inverse to
each other, levels increase by one per generation, each child is the corresponding
half-size sub-box of its parent. -/
structure WF (t : BoxTree) : Prop where
  ext_pos : 0 < t.rootExtent
  nboxes_pos : 0 < t.nboxes
  level_root : t.level 0 = 0
  parent_root : t.parent 0 = 0
  parent_lt : ∀ b, b < t.nboxes → t.parent b < t.nboxes
  level_parent : ∀ b, b < t.nboxes → b ≠ 0 → t.level b = t.level (t.parent b) + 1
  level_lt : ∀ b, b < t.nboxes → t.level b < t.nlevels
  child_lt : ∀ m, m < t.nch → ∀ b, b < t.nboxes → t.child m b < t.nboxes
  child_parent : ∀ m, m < t.nch → ∀ b, b < t.nboxes → t.child m b ≠ 0 →
    t.parent (t.child m b) = b
  child_inj : ∀ m, m < t.nch → ∀ m', m' < t.nch → ∀ b, b < t.nboxes →
    t.child m b ≠ 0 → t.child m b = t.child m' b → m = m'
  parent_child : ∀ b, b < t.nboxes → b ≠ 0 → ∃ m, m < t.nch ∧ t.child m (t.parent b) = b
  center_child : ∀ m, m < t.nch → ∀ b, b < t.nboxes → t.child m b ≠ 0 →
    ∀ i, i < t.dims → t.center (t.child m b) i =
      t.center b i + mortonSign t.dims m i * t.rad (t.level b + 1)

/-- Every proper ancestor of a source box is flagged as having source children and every
proper ancestor of a target box as having target children. -/
structure FlagsOK (t : BoxTree) : Prop where
  src : ∀ b, b < t.nboxes → b ≠ 0 → (t.isSource b = true ∨ t.hasSourceChild b = true) →
    t.hasSourceChild (t.parent b) = true
  tgt : ∀ b, b < t.nboxes → b ≠ 0 → (t.isTarget b = true ∨ t.hasTargetChild b = true) →
    t.hasTargetChild (t.parent b) = true

/-- The ancestor (or self) of `b` on level `l`. -/
def ancAt (t : BoxTree) (b l : Nat) : Nat := t.parent^[t.level b - l] b

/-- The chain of `b` and all its ancestors up to the root. -/
def ancestorsOrSelf (t : BoxTree) (b : Nat) : List Nat :=
  (List.range (t.level b + 1)).map (t.ancAt b)

/-- `a` is `b` or an ancestor of `b`. -/
def IsAncOrSelf (t : BoxTree) (a b : Nat) : Prop := t.level a ≤ t.level b ∧ t.ancAt b (t.level a) = a

end BoxTree
end Boxtree
