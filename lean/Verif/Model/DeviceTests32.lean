import Verif.Model.DeviceTests
import Verif.Model.IntShift
import Verif.Model.Traversal

/-!
# The geometric tests with rounding and 32-bit shifts

`Model/DeviceTests` with `1 << (level + 1)` evaluated as OpenCL does, in the tests and in the centers that
the tree builder stores.  The conversion of the integer to `coord_t` is exact.
-/

namespace Boxtree
namespace BoxTree
variable (fl rt : ℚ → ℚ) (t : BoxTree)

/-- `LEVEL_TO_RAD`, `/repo/boxtree/traversal.py:234-235`, and `radius`,
`/repo/boxtree/tree_build_kernels.py:698`. -/
def radF32 (l : Nat) : ℚ := fl (t.rootExtent * 1 / (shl32 (l + 1) : ℚ))

/-- `box_centers` of a box on level `l`: the root center `c0`
(`/repo/boxtree/tree_build.py:585-588`), then one addition or subtraction per level
(`/repo/boxtree/tree_build_kernels.py:697-706`). -/
def centerF32 (c0 : Nat → ℚ) : Nat → Nat → Nat → ℚ
  | 0, _, a => c0 a
  | l + 1, b, a =>
      if t.mortonOf b / 2 ^ (t.dims - 1 - a) % 2 = 1
      then fl (centerF32 c0 l (t.parent b) a + t.radF32 fl (l + 1))
      else fl (centerF32 c0 l (t.parent b) a - t.radF32 fl (l + 1))

/-- `box_centers[:, b]`.  `load_center`, `/repo/boxtree/traversal.py:162-175`; stored by
`/repo/boxtree/tree_build_kernels.py:646-712`. -/
def storedCenter32 (c0 : Nat → ℚ) (b : Nat) : Nat → ℚ := t.centerF32 fl c0 (t.level b) b

/-- `is_adjacent_or_overlapping_with_neighborhood`, `/repo/boxtree/traversal.py:279-305`. -/
def adjF32 (tc : Nat → ℚ) (tl n : Nat) (sc : Nat → ℚ) (sl : Nat) : Bool :=
  let targetRad := t.radF32 fl tl
  let sourceRad := t.radF32 fl sl
  let radSum := fl (fl ((2 * ((n : ℚ) - 1) + 1) * targetRad) + sourceRad)
  let slack := fl (radSum + min targetRad sourceRad)
  decide (t.linfF fl tc sc ≤ slack)

/-- `meets_sep_bigger_criterion`, `/repo/boxtree/traversal.py:933-972`. -/
def sepBiggerF32 (stickOut eps : ℚ) (tc : Nat → ℚ) (tl : Nat) (sc : Nat → ℚ) (sl : Nat) : Bool :=
  let targetRad := t.radF32 fl tl
  let sourceRad := t.radF32 fl sl
  let maxAllowed := fl (fl (fl (3 * fl (1 + stickOut)) * targetRad) + sourceRad)
  decide (fl (maxAllowed * fl (1 - fl (8 * eps))) ≤ t.linfF fl tc sc)

/-- `tgt_stickout_l_inf_rad`, `/repo/boxtree/traversal.py:620-623`. -/
def stickRadF32 (stickOut : ℚ) (tl : Nat) : ℚ := fl (fl (1 + stickOut) * t.radF32 fl tl)

/-- Right hand side `(2 - 8 * COORD_T_MACH_EPS) * source_rad` of the list-3 criteria,
`/repo/boxtree/traversal.py:733-734`, `:754-755`, `:807`. -/
def needF32 (eps : ℚ) (sl : Nat) : ℚ := fl (fl (2 - fl (8 * eps)) * t.radF32 fl sl)

/-- `static_linf`, `/repo/boxtree/traversal.py:716-735`. -/
def staticLinfF32 (stickOut eps : ℚ) (tc : Nat → ℚ) (tl : Nat) (sc : Nat → ℚ) (sl : Nat) : Bool :=
  let dist := (List.range t.dims).foldl (fun acc i =>
    max acc (fl (fl (|fl (tc i - sc i)| - t.stickRadF32 fl stickOut tl) - t.radF32 fl sl))) 0
  decide (t.needF32 fl eps sl ≤ dist)

/-- `precise_linf`, `/repo/boxtree/traversal.py:736-756`, with `load_true_box_extent`, `:177-195`;
`emin` and `emax` are `box_target_bounding_box_min/max` of the target box. -/
def preciseLinfF32 (eps : ℚ) (emin emax : Nat → ℚ) (sc : Nat → ℚ) (sl : Nat) : Bool :=
  let dist := (List.range t.dims).foldl (fun acc i =>
    let extCenter := fl (1 / 2 * fl (emin i + emax i))
    let radius := fl (1 / 2 * fl (emax i - emin i))
    max acc (fl (fl (|fl (extCenter - sc i)| - radius) - t.radF32 fl sl))) 0
  decide (t.needF32 fl eps sl ≤ dist)

/-- `static_l2`, `/repo/boxtree/traversal.py:758-811`. -/
def staticL2F32 (stickOut eps : ℚ) (tc : Nat → ℚ) (tl : Nat) (sc : Nat → ℚ) (sl : Nat) : Bool :=
  let d2 := (List.range t.dims).foldl (fun acc i =>
    fl (acc + fl (fl (tc i - sc i) * fl (tc i - sc i)))) 0
  let rhs := fl (fl (rt d2 - fl (rt t.dims * t.stickRadF32 fl stickOut tl)) - t.radF32 fl sl)
  decide (t.needF32 fl eps sl ≤ rhs)

end BoxTree

/-- The tests with rounding and 32-bit shifts, `/repo/boxtree/traversal.py:234-235`, `:279-318`, `:709-816`,
`:933-972`. -/
def Device.rounded32 (fl rt : ℚ → ℚ) (t : BoxTree) (crit : SmallerCrit) (stickOut eps : ℚ)
    (c0 : Nat → ℚ) (emin emax : Nat → Nat → ℚ) : Device where
  adj a la n b lb := t.adjF32 fl (t.storedCenter32 fl c0 a) la n (t.storedCenter32 fl c0 b) lb
  sepBigger a la b lb :=
    t.sepBiggerF32 fl stickOut eps (t.storedCenter32 fl c0 a) la (t.storedCenter32 fl c0 b) lb
  sepSmaller a b :=
    match crit with
    | .staticLinf => t.staticLinfF32 fl stickOut eps (t.storedCenter32 fl c0 a) (t.level a)
        (t.storedCenter32 fl c0 b) (t.level b)
    | .preciseLinf => t.preciseLinfF32 fl eps (emin a) (emax a) (t.storedCenter32 fl c0 b) (t.level b)
    | .staticL2 => t.staticL2F32 fl rt stickOut eps (t.storedCenter32 fl c0 a) (t.level a)
        (t.storedCenter32 fl c0 b) (t.level b)

/-- A call of the traversal builder on such a device, `/repo/boxtree/traversal.py:2000-2345`. -/
def TravInput.withRounded32 (inp : TravInput) (fl rt : ℚ → ℚ) (c0 : Nat → ℚ) (emin emax : Nat → Nat → ℚ) :
    TravInput :=
  { inp with tests := .device (Device.rounded32 fl rt inp.tree (inp.crit.getD .preciseLinf) inp.stickOut
      inp.eps c0 emin emax) }

end Boxtree
