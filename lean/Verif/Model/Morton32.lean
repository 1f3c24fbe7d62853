import Verif.Model.Morton

/-!
# 32-bit evaluation of `1U << (1 + particle_level)` in the Morton numbers

`MORTON_NR_SCAN_PREAMBLE_TPL`, `/repo/boxtree/tree_build_kernels.py:304-470`, scales the coordinates
with `1U << (1 + particle_level)`, a 32-bit `unsigned`; OpenCL C (6.3.j) takes the shift amount modulo
32.  `Model/Morton.lean` has the true powers of two.  Here the arithmetic of the kernel is a function
of the scale factors.  The radii of the boxes (`1 << (1 + new_level)`, `:698`, `:967`) are not changed
here; see `Model/IntShift.lean`.
-/

namespace Boxtree.Build

/-- `1U << (1 + particle_level)`, `/repo/boxtree/tree_build_kernels.py:329`, `:376`, as OpenCL
evaluates it. -/
def shift32 (l : Nat) : Nat := 1 * 2 ^ ((1 + l) % 32) % 2 ^ 32

/-- The value meant by `1U << (1 + particle_level)`, `/repo/boxtree/tree_build_kernels.py:329`,
`:376`. -/
def shiftTrue (l : Nat) : Nat := 2 ^ (1 + l)

namespace Arith

section
variable (sh : Nat → Nat) (dims : Nat) (x : Nat → ℚ) (r : ℚ) (lo ext : Nat → ℚ) (sigma : ℚ)
  (bits : Nat → Nat) (l : Nat)

/-- `next_level_box_center_${ax}`, `/repo/boxtree/tree_build_kernels.py:379-383`. -/
def centerS (a : Nat) : ℚ := lo a + ext a * (bits a + 1 / 2) * (1 / sh l)

/-- `next_level_box_stick_out_radius_${ax}`, `/repo/boxtree/tree_build_kernels.py:341-345,389-392`. -/
def stickOutRadiusS (a : Nat) : ℚ := (1 + sigma) * (1 / 2) * ext a * (1 / sh l)

/-- `stop_srcntgt_descent` for the maximum norm, `/repo/boxtree/tree_build_kernels.py:387-402`. -/
def sticksInfS : Bool :=
  (List.range dims).any fun a =>
    decide (centerS sh lo ext bits l a + stickOutRadiusS sh ext sigma l a ≤ x a + r) ||
    decide (x a - r < centerS sh lo ext bits l a - stickOutRadiusS sh ext sigma l a)

/-- `stop_srcntgt_descent` for the Euclidean norm, `/repo/boxtree/tree_build_kernels.py:404-427`,
without the root as in `sticksL2`. -/
def sticksL2S : Bool :=
  let S := ((List.range dims).map fun a =>
    (x a - centerS sh lo ext bits l a) * (x a - centerS sh lo ext bits l a)).sum
  let R := stickOutRadiusS sh ext sigma l 0
  let T := dims * R * R - S - r * r
  decide (T ≤ 0) || decide (T * T ≤ 4 * r * r * S)

end

/-- Without rounding, with the scale factors `sh`: arithmetic of
`/repo/boxtree/tree_build_kernels.py:326-427`. -/
def exactS (sh : Nat → Nat) : Arith where
  scaled x lo ext l := (x - lo) / ext * sh l
  sticks l2 dims x r lo ext sigma bits l :=
    if l2 then sticksL2S sh dims x r lo ext sigma bits l
    else sticksInfS sh dims x r lo ext sigma bits l

/-- The kernel on a device without rounding but with 32-bit integers,
`/repo/boxtree/tree_build_kernels.py:326-427`. -/
def exact32 : Arith := exactS shift32

section
variable (sh : Nat → Nat) (fl rt : ℚ → ℚ) (dims : Nat) (x : Nat → ℚ) (r : ℚ) (lo ext : Nat → ℚ)
  (sigma : ℚ) (bits : Nat → Nat) (l : Nat)

/-- `next_level_box_center_${ax}`, `/repo/boxtree/tree_build_kernels.py:379-383`. -/
def centerFS (a : Nat) : ℚ :=
  fl (lo a + fl (fl (extF fl lo ext a * fl (bits a + 1 / 2)) * (1 / sh l)))

/-- `next_level_box_stick_out_radius_${ax}`, `/repo/boxtree/tree_build_kernels.py:341-345,389-392`. -/
def stickOutRadiusFS (a : Nat) : ℚ :=
  fl (fl (fl (fl (1 + sigma) * (1 / 2)) * extF fl lo ext a) * (1 / sh l))

/-- `stop_srcntgt_descent` for the maximum norm, `/repo/boxtree/tree_build_kernels.py:387-402`. -/
def sticksInfFS : Bool :=
  (List.range dims).any fun a =>
    decide (fl (centerFS sh fl lo ext bits l a + stickOutRadiusFS sh fl lo ext sigma l a) ≤ fl (x a + r)) ||
    decide (fl (x a - r) < fl (centerFS sh fl lo ext bits l a - stickOutRadiusFS sh fl lo ext sigma l a))

/-- `stop_srcntgt_descent` for the Euclidean norm, `/repo/boxtree/tree_build_kernels.py:404-427`. -/
def sticksL2FS : Bool :=
  let S := (List.range dims).foldl (fun s a => fl (s +
    fl (fl (x a - centerFS sh fl lo ext bits l a) * fl (x a - centerFS sh fl lo ext bits l a)))) 0
  let D := fl (rt S + r)
  let R := stickOutRadiusFS sh fl lo ext sigma l 0
  decide (fl (fl (dims * R) * R) ≤ fl (D * D))

end

/-- With rounding after each operation and the scale factors `sh`: arithmetic of
`/repo/boxtree/tree_build_kernels.py:326-427`.  Products with a scale factor are rounded; the factor
itself and its inverse are powers of two. -/
def roundedS (sh : Nat → Nat) (fl rt : ℚ → ℚ) : Arith where
  scaled x lo ext l := fl (fl (fl (x - lo) / fl (fl (lo + ext) - lo)) * sh l)
  sticks l2 dims x r lo ext sigma bits l :=
    if l2 then sticksL2FS sh fl rt dims x r lo ext sigma bits l
    else sticksInfFS sh fl dims x r lo ext sigma bits l
  fl := fl

/-- The kernel on a device with rounding and 32-bit integers,
`/repo/boxtree/tree_build_kernels.py:326-427`. -/
def rounded32 (fl rt : ℚ → ℚ) : Arith := roundedS shift32 fl rt

end Arith
end Boxtree.Build
