import Verif.Spec.Locate
import Verif.Model.AreaQuery

/-!
# Specification vocabulary: peers, balls, leaves
-/

namespace Boxtree
namespace BoxTree
variable (t : BoxTree)

/-- `b` has no children. -/
def IsLeaf (b : Nat) : Prop := ∀ m, m < t.nch → t.child m b = 0

/-- A box carries one of the two "has child" flags exactly if it has children. -/
def ChildFlagsOK : Prop :=
  ∀ b, b < t.nboxes → ((t.hasSourceChild b = true ∨ t.hasTargetChild b = true) ↔ ¬ t.IsLeaf b)

/-- `q` is adjacent to or overlaps `b` and is at least as large. -/
def AdjacentNotSmaller (b q : Nat) : Prop := t.Touch b q ∧ t.width b ≤ t.width q

/-- `q` is a peer of `b`: adjacent and at least as large, with no child that is both
(`PeerListFinder`, documentation). -/
def IsPeer (b q : Nat) : Prop :=
  q < t.nboxes ∧ t.AdjacentNotSmaller b q ∧
    ∀ m, m < t.nch → t.child m q ≠ 0 → ¬ t.AdjacentNotSmaller b (t.child m q)

/-- The closed box `b` and the closed `l^∞` ball have a point in common. -/
def MeetsBall (b : Nat) (c : Nat → ℚ) (r : ℚ) : Prop :=
  ∃ y : Nat → ℚ, ∀ i, i < t.dims → (t.lo b i ≤ y i ∧ y i ≤ t.hi b i) ∧ |y i - c i| ≤ r

/-- Every leaf box contains a point (in a built tree: a particle) of the bounding box before it
was stretched by `1 + 1e-4`. -/
def LeavesOccupied : Prop :=
  ∀ b, b < t.nboxes → t.IsLeaf b → ∃ x : Nat → ℚ, ∀ i, i < t.dims →
    (t.lo b i ≤ x i ∧ x i ≤ t.hi b i) ∧ x i ≤ t.lo 0 i + t.rootExtent / (1 + 1 / 10000)

end BoxTree
end Boxtree
