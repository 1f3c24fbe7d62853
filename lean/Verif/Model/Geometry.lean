import Mathlib.Data.Rat.Defs
import Mathlib.Algebra.Order.Field.Rat
import Mathlib.Algebra.Order.Group.Unbundled.Abs

/-!
# Boxes, centers, radii, adjacency

Model of the tree arrays read by the traversal kernels and of the geometric predicates
in `HELPER_FUNCTION_TEMPLATE` and `FROM_SEP_BIGGER_TEMPLATE`.

Simplifications (stated once for the whole file): coordinates are exact rationals instead
of IEEE floats; arrays are total functions on `Nat`, and the well-formedness predicate
restricts what is known about them to indices below `nboxes` (`dims`, `2^dims`).
-/

namespace Boxtree

/-- Models the attributes of `Tree`/`TreeOfBoxes` that the traversal reads:
`/repo/boxtree/tree.py:154-290` (`TreeOfBoxes`) and `:298-520` (`Tree`), flags
`/repo/boxtree/tree.py:109-145`.  `flags` is the bit field `box_flags`, `child m b` is
`box_child_ids[m, b]` (0 = no child), `center b i` is `box_centers[i, b]`. -/
structure BoxTree where
  dims : Nat
  nboxes : Nat
  nlevels : Nat
  rootExtent : ℚ
  parent : Nat → Nat
  child : Nat → Nat → Nat
  level : Nat → Nat
  center : Nat → Nat → ℚ
  flags : Nat → Nat
  /-- `box_source_counts_cumul` -/
  srcCountCumul : Nat → Nat
  /-- `box_target_bounding_box_min` / `_max` -/
  tgtMin : Nat → Nat → ℚ
  tgtMax : Nat → Nat → ℚ
  /-- `level_start_box_nrs` (length `nlevels + 1`) -/
  levelStart : Nat → Nat

/-- `box_flags_enum.IS_SOURCE_BOX`, `/repo/boxtree/tree.py:133`. -/
def flagIsSource : Nat := 1
/-- `box_flags_enum.IS_TARGET_BOX`, `/repo/boxtree/tree.py:134`. -/
def flagIsTarget : Nat := 2
/-- `box_flags_enum.HAS_SOURCE_CHILD_BOXES`, `/repo/boxtree/tree.py:136`. -/
def flagHasSourceChild : Nat := 4
/-- `box_flags_enum.HAS_TARGET_CHILD_BOXES`, `/repo/boxtree/tree.py:137`. -/
def flagHasTargetChild : Nat := 8
/-- `box_flags_enum.IS_LEAF_BOX`, `/repo/boxtree/tree.py:142`. -/
def flagIsLeaf : Nat := 16

/-- `flags & mask` used as a C truth value.  `/repo/boxtree/traversal.py:330-352`; values of the
flags `/repo/boxtree/tree.py:109-145`. -/
def hasFlag (flags mask : Nat) : Bool := (flags &&& mask) != 0

namespace BoxTree
variable (t : BoxTree)

/-- `2**dimensions`.  `/repo/boxtree/traversal.py:119`. -/
def nch : Nat := 2 ^ t.dims

/-- `BOX_IS_SOURCE_BOX`, `/repo/boxtree/tree.py:109-145`. -/
def isSource (b : Nat) : Bool := hasFlag (t.flags b) flagIsSource
/-- `BOX_IS_TARGET_BOX`, `/repo/boxtree/tree.py:109-145`. -/
def isTarget (b : Nat) : Bool := hasFlag (t.flags b) flagIsTarget
/-- `BOX_HAS_SOURCE_CHILD_BOXES`, `/repo/boxtree/tree.py:136`. -/
def hasSourceChild (b : Nat) : Bool := hasFlag (t.flags b) flagHasSourceChild
/-- `BOX_HAS_TARGET_CHILD_BOXES`, `/repo/boxtree/tree.py:137`. -/
def hasTargetChild (b : Nat) : Bool := hasFlag (t.flags b) flagHasTargetChild

/-- `LEVEL_TO_RAD(level)`, `/repo/boxtree/traversal.py:234-235`.
Simplification: the C code computes `1 << (level + 1)` in 32-bit `int`; here it is the
mathematical power of two (see `Props/DeepLevels.lean` for what happens past level 30). -/
def rad (l : Nat) : ℚ := t.rootExtent / (2 : ℚ) ^ (l + 1)

/-- The unrolled `l_inf_dist = fmax(l_inf_dist, fabs(a_i - b_i))` loop,
`/repo/boxtree/traversal.py:296-302` (also `:963-969`, `:206-211`). -/
def linf (x y : Nat → ℚ) : ℚ :=
  (List.range t.dims).foldl (fun acc i => max acc |x i - y i|) 0

/-- `is_adjacent_or_overlapping_with_neighborhood`, `/repo/boxtree/traversal.py:279-305`. -/
def adjNbhd (tc : Nat → ℚ) (tl : Nat) (n : ℚ) (sc : Nat → ℚ) (sl : Nat) : Bool :=
  let targetRad := t.rad tl
  let sourceRad := t.rad sl
  let radSum := (2 * (n - 1) + 1) * targetRad + sourceRad
  let slack := radSum + min targetRad sourceRad
  decide (t.linf tc sc ≤ slack)

/-- `is_adjacent_or_overlapping`, `/repo/boxtree/traversal.py:307-319`. -/
def adjOver (tc : Nat → ℚ) (tl : Nat) (sc : Nat → ℚ) (sl : Nat) : Bool :=
  t.adjNbhd tc tl 1 sc sl

/-- `meets_sep_bigger_criterion`, `/repo/boxtree/traversal.py:933-972`;
`eps` is `COORD_T_MACH_EPS`. -/
def meetsSepBigger (tc : Nat → ℚ) (tl : Nat) (sc : Nat → ℚ) (sl : Nat)
    (stickOut eps : ℚ) : Bool :=
  let targetRad := t.rad tl
  let sourceRad := t.rad sl
  let maxAllowed := 3 * (1 + stickOut) * targetRad + sourceRad
  decide (maxAllowed * (1 - 8 * eps) ≤ t.linf tc sc)

end BoxTree
end Boxtree
