import Verif.Model.IntShift
import Verif.Model.Morton32
import Mathlib.Data.Rat.Floor

/-!
# Box centers with 32-bit shifts

The box splitter moves the center of a box by `root_extent / (coord_t) (1 << (1 + new_level))`, where
`1` is a 32-bit `int`, `/repo/boxtree/tree_build_kernels.py:697-708`.  One axis; without rounding.
-/

namespace Boxtree

/-- `radius` in the box splitter for a box on level `newLevel`,
`/repo/boxtree/tree_build_kernels.py:698`, with the value of `1 << n` as a parameter. -/
def splitRadius (shl : Nat → Int) (ext : ℚ) (newLevel : Nat) : ℚ := ext * 1 / (shl (1 + newLevel) : ℚ)

/-- Center of a child on level `newLevel` from that of its parent and the bit of the child's Morton
number, `/repo/boxtree/tree_build_kernels.py:700-708`. -/
def splitCenter (shl : Nat → Int) (ext : ℚ) (newLevel : Nat) (parent : ℚ) (bit : Nat) : ℚ :=
  if bit = 1 then parent + splitRadius shl ext newLevel else parent - splitRadius shl ext newLevel

/-- The bit of the Morton number of a particle at `x` in a box on level `l`,
`/repo/boxtree/tree_build_kernels.py:374-376`, `:439-445`. -/
def mortonBit (lo ext x : ℚ) (l : Nat) : Nat := (⌊(x - lo) / ext * (Build.shift32 l : ℚ)⌋.toNat) % 2

/-- Center of the box on level `l` into which the builder puts a particle at `x`, if it gets that
far: root at `/repo/boxtree/tree_build.py:585-588`, children at
`/repo/boxtree/tree_build_kernels.py:697-708`. -/
def boxCenter (shl : Nat → Int) (lo ext x : ℚ) : Nat → ℚ
  | 0 => lo + ext / 2
  | l + 1 => splitCenter shl ext (l + 1) (boxCenter shl lo ext x l) (mortonBit lo ext x l)

end Boxtree
