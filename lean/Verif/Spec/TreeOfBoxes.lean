import Verif.Model.TreeOfBoxes
import Verif.Spec.Tree

/-!
# Specification vocabulary for trees of boxes
-/

namespace Boxtree

/-- What `np.argsort` promises: a permutation of the positions along which the values do not
decrease. -/
def IsArgsort (argsort : List Nat → List Nat) : Prop :=
  ∀ l : List Nat, (argsort l).Perm (List.range l.length) ∧
    ((argsort l).map fun k => l.getD k 0).Pairwise (· ≤ ·)

namespace Tob

/-- Half the side length of a box of level `l`. -/
def rad (t : Tob) (l : Nat) : ℚ := t.rootExtent / (2 : ℚ) ^ (l + 1)

/-- The boxes in `A` form a full dyadic tree with root 0: parent and child ids are inverse to each
other, levels count generations, a box has all `2^d` children or none, children are the half-size
sub-boxes. -/
structure Core (t : Tob) (A : Nat → Prop) : Prop where
  dims_pos : 0 < t.dims
  ext_pos : 0 < t.rootExtent
  root : A 0
  parent_root : t.parent 0 = -1
  level_root : t.level 0 = 0
  parent_alive : ∀ b, A b → b ≠ 0 → ∃ p : Nat, A p ∧ t.parent b = p ∧ t.level b = t.level p + 1 ∧
    ∃ m, m < t.nch ∧ t.child m p = b
  child_alive : ∀ b, A b → ∀ m, m < t.nch → t.child m b ≠ 0 →
    A (t.child m b) ∧ t.parent (t.child m b) = b
  child_inj : ∀ b, A b → ∀ m, m < t.nch → ∀ m', m' < t.nch →
    t.child m b ≠ 0 → t.child m b = t.child m' b → m = m'
  all_or_none : ∀ b, A b → (∀ m, m < t.nch → t.child m b = 0) ∨ (∀ m, m < t.nch → t.child m b ≠ 0)
  center_child : ∀ b, A b → ∀ m, m < t.nch → t.child m b ≠ 0 → ∀ i, i < t.dims →
    t.center (t.child m b) i = t.center b i + mortonSign t.dims m i * t.rad (t.level b + 1)

/-- A valid tree of boxes: all box ids form a full dyadic tree and levels do not decrease with the
box id. -/
structure Valid (t : Tob) : Prop extends Core t (· < t.nboxes) where
  level_mono : ∀ a b, a ≤ b → b < t.nboxes → t.level a ≤ t.level b

/-- The tree has a box of level `l` with center `c`. -/
def HasBox (t : Tob) (l : Nat) (c : Nat → ℚ) : Prop :=
  ∃ b, b < t.nboxes ∧ t.level b = l ∧ ∀ i, i < t.dims → t.center b i = c i

/-- `t` and `u` are the same tree up to a renumbering `f` of the boxes. -/
structure SameUpTo (t u : Tob) (f : Nat → Nat) : Prop where
  dims : u.dims = t.dims
  extent : u.rootExtent = t.rootExtent
  nboxes : u.nboxes = t.nboxes
  lt : ∀ b, b < t.nboxes → f b < u.nboxes
  inj : ∀ a b, a < t.nboxes → b < t.nboxes → f a = f b → a = b
  root : f 0 = 0
  level : ∀ b, b < t.nboxes → u.level (f b) = t.level b
  center : ∀ b, b < t.nboxes → ∀ i, i < t.dims → u.center (f b) i = t.center b i
  parent : ∀ b, b < t.nboxes → b ≠ 0 → u.parent (f b) = f (t.parent b).toNat
  child : ∀ b, b < t.nboxes → ∀ m, m < t.nch → u.child m (f b) = f (t.child m b)

/-- The tree as seen by the traversal builder (the root's parent id -1 is not a box). -/
def toBoxTree (t : Tob) (nlevels : Nat) : BoxTree where
  dims := t.dims
  nboxes := t.nboxes
  nlevels := nlevels
  rootExtent := t.rootExtent
  parent := fun b => (t.parent b).toNat
  child := t.child
  level := t.level
  center := t.center
  flags := t.flags
  srcCountCumul := fun _ => 0
  tgtMin := fun _ _ => 0
  tgtMax := fun _ _ => 0
  levelStart := fun _ => 0

end Tob
end Boxtree

namespace Boxtree.Tob

/-- The answer of `np.argsort` in a call. -/
def Request.argsort : Request → List Nat → List Nat
  | .refineAndCoarsen s _ _ _ => s
  | .refine s _ => s
  | .uniformlyRefine s => s
  | .coarsen s _ _ => s

/-- Does the call ask for box `b` of `t` to be refined? -/
def Request.refines (t : Tob) (b : Nat) : Request → Prop
  | .refineAndCoarsen _ rf _ _ => rf b = true
  | .refine _ rf => rf b = true
  | .uniformlyRefine _ => ∀ m, m < t.nch → t.child m b = 0
  | .coarsen _ _ _ => False

/-- No call of the history refines a box of level `lvBits - 3` (29 for `np.int32`) or deeper. -/
def Shallow (t : Tob) : List Request → Prop
  | [] => True
  | r :: rs => (∀ b, b < t.nboxes → r.refines t b → t.level b + 3 < t.lvBits) ∧
      ∀ u, t.perform r = .ok u → u.Shallow rs

/-- Box `b` has no children. -/
def NoChildren (t : Tob) (b : Nat) : Prop := ∀ m, m < t.nch → t.child m b = 0

/-- Box `c` has the same parent as box `b` (`b` itself included); the root has no siblings. -/
def Sibling (t : Tob) (b c : Nat) : Prop :=
  c < t.nboxes ∧ c ≠ 0 ∧ b ≠ 0 ∧ t.parent c = t.parent b

/-- The coarsening flag of box `b` can be honoured: no sibling has children or is being refined. -/
def Effective (t : Tob) (rf : Nat → Bool) (b : Nat) : Prop :=
  ∀ c, t.Sibling b c → t.NoChildren c ∧ rf c = false

/-- The point `x` lies in the (half-open) mesh cell of the leaf `b`. -/
def InLeafCell (t : Tob) (b : Nat) (x : Nat → ℚ) : Prop :=
  ∀ i, i < t.dims → t.center b i - t.leafRadius b ≤ x i ∧ x i < t.center b i + t.leafRadius b

end Boxtree.Tob
