import Verif.Model.Geometry

/-!
# 32-bit evaluation of `1 << (level + 1)`

`LEVEL_TO_RAD` and the box splitter divide by `(coord_t) (1 << (level + 1))`, where `1` is a
32-bit `int`.  OpenCL C (6.3.j) takes the shift amount modulo 32 and `int` is two's complement.
-/

namespace Boxtree

/-- OpenCL C `1 << n` for the `int` literal 1: shift amount modulo 32, result read as a signed
32-bit number.  Macro `LEVEL_TO_RAD`, `/repo/boxtree/traversal.py:234-235`. -/
def shl32 (n : Nat) : Int := (BitVec.ofNat 32 (2 ^ (n % 32))).toInt

/-- `LEVEL_TO_RAD(level)`, `/repo/boxtree/traversal.py:234-235` (same macro in
`/repo/boxtree/translation_classes.py:66-67`), with the integer evaluated as OpenCL does. -/
def BoxTree.rad32 (t : BoxTree) (l : Nat) : ℚ := t.rootExtent * 1 / (shl32 (l + 1) : ℚ)

/-- `is_adjacent_or_overlapping`, `/repo/boxtree/traversal.py:279-319`, with 32-bit radii. -/
def BoxTree.adjOver32 (t : BoxTree) (tc : Nat → ℚ) (tl : Nat) (sc : Nat → ℚ) (sl : Nat) : Bool :=
  let targetRad := t.rad32 tl
  let sourceRad := t.rad32 sl
  let radSum := (2 * ((1 : ℚ) - 1) + 1) * targetRad + sourceRad
  decide (t.linf tc sc ≤ radSum + min targetRad sourceRad)

end Boxtree
