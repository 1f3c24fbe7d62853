import Verif.Model.TreeFinish
import Mathlib.Data.Rat.Floor

/-!
# The tree builder as a function of the particles

Model of the Morton numbers (`MORTON_NR_SCAN_PREAMBLE_TPL`,
`/repo/boxtree/tree_build_kernels.py:304-470`) and of `TreeBuilder.__call__` after the checks of its
arguments and the choice of the bounding box (`Model/BuildArgs.lean`).

Coordinates are rationals.  How the device evaluates the floating point expressions of the kernel is
a parameter (`Arith`): `Arith.exact` has no rounding, `Arith.rounded` rounds after each operation.
`1U << (1 + particle_level)` is the power of two; past level 30 it wraps around in the code, see
`Model/Morton32.lean`.
-/

namespace Boxtree.Build

/-- How the device evaluates the floating point expressions of
`/repo/boxtree/tree_build_kernels.py:329-437`. -/
structure Arith where
  /-- `((srcntgt - global_min) / global_extent) * (1U << (1 + particle_level))`, `:370-372`, from the
  coordinate, the bounding box and the level -/
  scaled : ℚ → ℚ → ℚ → Nat → ℚ
  /-- `stop_srcntgt_descent`, `:384-427`, from `extent_norm == "l2"`, the dimension, the particle,
  its radius, the lower corner and extents of the bounding box, the stick-out factor, the bits and
  the level -/
  sticks : Bool → Nat → (Nat → ℚ) → ℚ → (Nat → ℚ) → (Nat → ℚ) → ℚ → (Nat → Nat) → Nat → Bool
  /-- rounding after an operation on box centers and radii, `:697-706`, `:876-877`, `:1355-1364` -/
  fl : ℚ → ℚ := id

namespace Arith

/-! ### Without rounding -/

section
variable (dims : Nat) (x : Nat → ℚ) (r : ℚ) (lo ext : Nat → ℚ) (sigma : ℚ) (bits : Nat → Nat) (l : Nat)

/-- `next_level_box_center_${ax}`, `/repo/boxtree/tree_build_kernels.py:376-380`. -/
def center (a : Nat) : ℚ := lo a + ext a * (bits a + 1 / 2) * (1 / 2 ^ (1 + l))

/-- `next_level_box_stick_out_radius_${ax}`, `/repo/boxtree/tree_build_kernels.py:341-345,386-389`. -/
def stickOutRadius (a : Nat) : ℚ := (1 + sigma) * (1 / 2) * ext a * (1 / 2 ^ (1 + l))

/-- `stop_srcntgt_descent` for the maximum norm, `/repo/boxtree/tree_build_kernels.py:384-401`. -/
def sticksInf : Bool :=
  (List.range dims).any fun a =>
    decide (center lo ext bits l a + stickOutRadius ext sigma l a ≤ x a + r) ||
    decide (x a - r < center lo ext bits l a - stickOutRadius ext sigma l a)

/-- Square of the distance from the particle to the center of the next box,
`/repo/boxtree/tree_build_kernels.py:410-414`. -/
def sqDist : ℚ :=
  ((List.range dims).map fun a =>
    (x a - center lo ext bits l a) * (x a - center lo ext bits l a)).sum

/-- `stop_srcntgt_descent` for the Euclidean norm, `/repo/boxtree/tree_build_kernels.py:403-427`:
`(sqrt(S) + r)² ≥ dims·R²` without the root, for `r ≥ 0` (`stopL2_iff` in `Lemmas/Morton.lean`). -/
def sticksL2 : Bool :=
  let S := sqDist dims x lo ext bits l
  let R := stickOutRadius ext sigma l 0
  let T := dims * R * R - S - r * r
  decide (T ≤ 0) || decide (T * T ≤ 4 * r * r * S)

end

/-- Without rounding.  Arithmetic of `/repo/boxtree/tree_build_kernels.py:341-470` and `:646-712`.
-/
def exact : Arith where
  scaled x lo ext l := (x - lo) / ext * 2 ^ (1 + l)
  sticks l2 dims x r lo ext sigma bits l :=
    if l2 then sticksL2 dims x r lo ext sigma bits l
    else sticksInf dims x r lo ext sigma bits l

/-! ### With rounding -/

section
variable (fl rt : ℚ → ℚ) (dims : Nat) (x : Nat → ℚ) (r : ℚ) (lo ext : Nat → ℚ) (sigma : ℚ)
  (bits : Nat → Nat) (l : Nat)

/-- `global_extent_${ax}`, `/repo/boxtree/tree_build_kernels.py:357-358`: the difference of the
corners of the bounding box; the upper corner of an automatic bounding box is itself a rounded sum
(`/repo/boxtree/tree_build.py:474-476`), that of a given one is taken to be the same sum (`Call.Documented` asks for that). -/
def extF (a : Nat) : ℚ := fl (fl (lo a + ext a) - lo a)

/-- `next_level_box_center_${ax}`, `/repo/boxtree/tree_build_kernels.py:376-380`. -/
def centerF (a : Nat) : ℚ :=
  fl (lo a + fl (fl (extF fl lo ext a * fl (bits a + 1 / 2)) * (1 / 2 ^ (1 + l))))

/-- `next_level_box_stick_out_radius_${ax}`, `/repo/boxtree/tree_build_kernels.py:341-345,386-389`. -/
def stickOutRadiusF (a : Nat) : ℚ :=
  fl (fl (fl (fl (1 + sigma) * (1 / 2)) * extF fl lo ext a) * (1 / 2 ^ (1 + l)))

/-- `stop_srcntgt_descent` for the maximum norm, `/repo/boxtree/tree_build_kernels.py:384-401`. -/
def sticksInfF : Bool :=
  (List.range dims).any fun a =>
    decide (fl (centerF fl lo ext bits l a + stickOutRadiusF fl lo ext sigma l a) ≤ fl (x a + r)) ||
    decide (fl (x a - r) < fl (centerF fl lo ext bits l a - stickOutRadiusF fl lo ext sigma l a))

/-- Square of the distance from the particle to the center of the next box,
`/repo/boxtree/tree_build_kernels.py:410-414`. -/
def sqDistF : ℚ :=
  (List.range dims).foldl (fun s a => fl (s +
    fl (fl (x a - centerF fl lo ext bits l a) * fl (x a - centerF fl lo ext bits l a)))) 0

/-- `stop_srcntgt_descent` for the Euclidean norm, `/repo/boxtree/tree_build_kernels.py:403-427`. -/
def sticksL2F : Bool :=
  let D := fl (rt (sqDistF fl dims x lo ext bits l) + r)
  let R := stickOutRadiusF fl lo ext sigma l 0
  decide (fl (fl (dims * R) * R) ≤ fl (D * D))

end

/-- Rounding with `fl` after each operation; `rt` is the square root.  The product with a power of
two is rounded like the others.  Arithmetic of `/repo/boxtree/tree_build_kernels.py:341-470` and
`:646-712`. -/
def rounded (fl rt : ℚ → ℚ) : Arith where
  scaled x lo ext l := fl (fl (fl (x - lo) / fl (fl (lo + ext) - lo)) * 2 ^ (1 + l))
  sticks l2 dims x r lo ext sigma bits l :=
    if l2 then sticksL2F fl rt dims x r lo ext sigma bits l
    else sticksInfF fl dims x r lo ext sigma bits l
  fl := fl

end Arith

/-- What is left of the arguments after the checks, and the bounding box.
`/repo/boxtree/tree_build.py:145-511`. -/
structure Input where
  dims : Nat
  /-- `nsrcntgts`: sources first, then targets if they are separate -/
  n : Nat
  sourcesAreTargets : Bool
  nsources : Nat
  /-- coordinate per axis and particle -/
  x : Nat → Nat → ℚ
  /-- `srcntgt_radii`, not negative; zero where there is no radius, `/repo/boxtree/tree_build.py:316-344` -/
  radius : Nat → ℚ
  sourcesHaveExtent : Bool
  targetsHaveExtent : Bool
  /-- `extent_norm` is `"l2"`, not `"linf"` -/
  l2 : Bool
  stickOut : ℚ
  weight : Nat → Nat
  maxWeight : Nat
  adaptive : Bool
  levelRestrict : Bool
  /-- 106 in double precision, 48 in single precision, `/repo/boxtree/tree_build.py:622` -/
  nlevelsMax : Nat
  /-- lower corner and extents of the bounding box; `root_extent` is the extent of axis 0 -/
  lo : Nat → ℚ
  ext : Nat → ℚ
  skipPrune : Bool
  /-- padding boxes at the end of each level, `/repo/boxtree/tree_build.py:812-823` -/
  pad : Nat → Nat
  /-- floating point arithmetic of the device -/
  arith : Arith := .exact

namespace Input
variable (inp : Input)

/-- `srcntgts_have_extent`, `/repo/boxtree/tree_build.py:247`. -/
def haveExtent : Bool := inp.sourcesHaveExtent || inp.targetsHaveExtent

/-- `${ax}_bits` for a particle on level `l`, `/repo/boxtree/tree_build_kernels.py:370-372`. -/
def bits (a p l : Nat) : Nat := ⌊inp.arith.scaled (inp.x a p) (inp.lo a) (inp.ext a) l⌋.toNat

/-- `stop_srcntgt_descent`, `/repo/boxtree/tree_build_kernels.py:384-437`. -/
def stop (p l : Nat) : Bool :=
  inp.arith.sticks inp.l2 inp.dims (fun a => inp.x a p) (inp.radius p) inp.lo inp.ext inp.stickOut
    (fun a => inp.bits a p l) l

/-- `level_morton_number`, `/repo/boxtree/tree_build_kernels.py:439-452`: axis 0 is the most
significant bit; `none` is `-1`. -/
def morton (p l : Nat) : Option Nat :=
  if inp.haveExtent && inp.stop p l then none
  else some ((List.range inp.dims).map fun a => inp.bits a p l % 2 * 2 ^ (inp.dims - 1 - a)).sum

/-- What the level loop reads.  `/repo/boxtree/tree_build.py:697-1275`. -/
def params : Params where
  dims := inp.dims
  n := inp.n
  mort := inp.morton
  weight := inp.weight
  maxWeight := inp.maxWeight
  adaptive := inp.adaptive
  levelRestrict := inp.levelRestrict
  haveExtent := inp.haveExtent
  nlevelsMax := inp.nlevelsMax
  rootExtent := inp.ext 0
  rootCenter := fun a => inp.lo a + inp.ext a / 2
  fl := inp.arith.fl
  storedRoot := fun a => rootCenterF inp.arith.fl (inp.lo a) (inp.ext a)

/-- What the rest reads.  `/repo/boxtree/tree_build.py:1276-1876`. -/
def cloud : Cloud where
  sourcesAreTargets := inp.sourcesAreTargets
  nsources := inp.nsources
  x := inp.x
  radius := inp.radius
  sourcesHaveExtent := inp.sourcesHaveExtent
  targetsHaveExtent := inp.targetsHaveExtent

/-- `TreeBuilder.__call__` from the bounding box on, `/repo/boxtree/tree_build.py:512-1880`. -/
def build : Except String Built :=
  match buildLevels inp.params with
  | .error e => .error e
  | .ok (L, s) =>
    .ok (finish inp.params inp.cloud inp.skipPrune (fun l => s.used l + inp.pad l) L s)

end Input
end Boxtree.Build
