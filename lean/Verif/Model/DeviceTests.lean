import Verif.Model.Lists
import Verif.Spec.Tree

/-!
# The geometric tests in floating point arithmetic

Box centers as the tree builder stores them and the tests of the list kernels as a device computes
them, when every operation is followed by a rounding `fl` and the square root is `rt`.

* Not rounded: products with `1`, the small integers `2*(n-1)+1`, `2` and `3`, which are exact in
  every floating point format, and `min`, `max` and absolute values.
* Overflow, underflow and the fusing of multiplications with additions are not modelled.
* `1 << (level + 1)` is the mathematical power of two, as in `BoxTree.rad`.
-/

namespace Boxtree
namespace BoxTree
variable (fl rt : ℚ → ℚ) (t : BoxTree)

/-- Which child of its parent box `b` is: the Morton number for which
`BOX_SPLITTER_KERNEL_TPL` created it, `/repo/boxtree/tree_build_kernels.py:668-672`. -/
def mortonOf (b : Nat) : Nat :=
  ((List.range t.nch).find? fun m => decide (t.child m (t.parent b) = b)).getD 0

/-- `LEVEL_TO_RAD`, `/repo/boxtree/traversal.py:234-235`, and `radius`,
`/repo/boxtree/tree_build_kernels.py:698`. -/
def radF (l : Nat) : ℚ := fl (t.rootExtent / 2 ^ (l + 1))

/-- `box_centers` of a box on level `l`: the root center `c0`
(`/repo/boxtree/tree_build.py:585-588`), then one addition or subtraction per level
(`/repo/boxtree/tree_build_kernels.py:697-706`). -/
def centerF (c0 : Nat → ℚ) : Nat → Nat → Nat → ℚ
  | 0, _, a => c0 a
  | l + 1, b, a =>
      if t.mortonOf b / 2 ^ (t.dims - 1 - a) % 2 = 1
      then fl (centerF c0 l (t.parent b) a + t.radF fl (l + 1))
      else fl (centerF c0 l (t.parent b) a - t.radF fl (l + 1))

/-- `box_centers[:, b]`.  `load_center`, `/repo/boxtree/traversal.py:162-175`; stored by
`/repo/boxtree/tree_build_kernels.py:646-712`. -/
def storedCenter (c0 : Nat → ℚ) (b : Nat) : Nat → ℚ := t.centerF fl c0 (t.level b) b

/-- `l_inf_dist`, `/repo/boxtree/traversal.py:296-302` and `:963-969`. -/
def linfF (x y : Nat → ℚ) : ℚ :=
  (List.range t.dims).foldl (fun acc i => max acc |fl (x i - y i)|) 0

/-- `is_adjacent_or_overlapping_with_neighborhood`, `/repo/boxtree/traversal.py:279-305`. -/
def adjF (tc : Nat → ℚ) (tl n : Nat) (sc : Nat → ℚ) (sl : Nat) : Bool :=
  let targetRad := t.radF fl tl
  let sourceRad := t.radF fl sl
  let radSum := fl (fl ((2 * ((n : ℚ) - 1) + 1) * targetRad) + sourceRad)
  let slack := fl (radSum + min targetRad sourceRad)
  decide (t.linfF fl tc sc ≤ slack)

/-- `meets_sep_bigger_criterion`, `/repo/boxtree/traversal.py:933-972`. -/
def sepBiggerF (stickOut eps : ℚ) (tc : Nat → ℚ) (tl : Nat) (sc : Nat → ℚ) (sl : Nat) : Bool :=
  let targetRad := t.radF fl tl
  let sourceRad := t.radF fl sl
  let maxAllowed := fl (fl (fl (3 * fl (1 + stickOut)) * targetRad) + sourceRad)
  decide (fl (maxAllowed * fl (1 - fl (8 * eps))) ≤ t.linfF fl tc sc)

/-- `tgt_stickout_l_inf_rad`, `/repo/boxtree/traversal.py:620-623`. -/
def stickRadF (stickOut : ℚ) (tl : Nat) : ℚ := fl (fl (1 + stickOut) * t.radF fl tl)

/-- Right hand side `(2 - 8 * COORD_T_MACH_EPS) * source_rad` of the list-3 criteria,
`/repo/boxtree/traversal.py:733-734`, `:754-755`, `:807`. -/
def needF (eps : ℚ) (sl : Nat) : ℚ := fl (fl (2 - fl (8 * eps)) * t.radF fl sl)

/-- `static_linf`, `/repo/boxtree/traversal.py:716-735`. -/
def staticLinfF (stickOut eps : ℚ) (tc : Nat → ℚ) (tl : Nat) (sc : Nat → ℚ) (sl : Nat) : Bool :=
  let dist := (List.range t.dims).foldl (fun acc i =>
    max acc (fl (fl (|fl (tc i - sc i)| - t.stickRadF fl stickOut tl) - t.radF fl sl))) 0
  decide (t.needF fl eps sl ≤ dist)

/-- `precise_linf`, `/repo/boxtree/traversal.py:736-756`, with `load_true_box_extent`, `:177-195`;
`emin` and `emax` are `box_target_bounding_box_min/max` of the target box. -/
def preciseLinfF (eps : ℚ) (emin emax : Nat → ℚ) (sc : Nat → ℚ) (sl : Nat) : Bool :=
  let dist := (List.range t.dims).foldl (fun acc i =>
    let extCenter := fl (1 / 2 * fl (emin i + emax i))
    let radius := fl (1 / 2 * fl (emax i - emin i))
    max acc (fl (fl (|fl (extCenter - sc i)| - radius) - t.radF fl sl))) 0
  decide (t.needF fl eps sl ≤ dist)

/-- `static_l2`, `/repo/boxtree/traversal.py:758-811`. -/
def staticL2F (stickOut eps : ℚ) (tc : Nat → ℚ) (tl : Nat) (sc : Nat → ℚ) (sl : Nat) : Bool :=
  let d2 := (List.range t.dims).foldl (fun acc i =>
    fl (acc + fl (fl (tc i - sc i) * fl (tc i - sc i)))) 0
  let rhs := fl (fl (rt d2 - fl (rt t.dims * t.stickRadF fl stickOut tl)) - t.radF fl sl)
  decide (t.needF fl eps sl ≤ rhs)

end BoxTree

/-- The bounding box of the tree builder in floating point arithmetic: lower corner `lo`, extent
`ext`, upper corner `hi` and root center `lo + (hi - lo) / 2`
(`/repo/boxtree/tree_build.py:474`, `:587`). -/
def rootCenterF (fl : ℚ → ℚ) (lo ext : ℚ) : ℚ := fl (lo + fl (fl (fl (lo + ext) - lo) / 2))

/-- The tests as a device with rounding `fl` and square root `rt` computes them on the centers it
stores, with root center `c0` and target bounding boxes `emin`, `emax`.
`/repo/boxtree/traversal.py:234-235`, `:279-318`, `:709-816`, `:933-972`. -/
def Device.rounded (fl rt : ℚ → ℚ) (t : BoxTree) (crit : SmallerCrit) (stickOut eps : ℚ)
    (c0 : Nat → ℚ) (emin emax : Nat → Nat → ℚ) : Device where
  adj a la n b lb := t.adjF fl (t.storedCenter fl c0 a) la n (t.storedCenter fl c0 b) lb
  sepBigger a la b lb :=
    t.sepBiggerF fl stickOut eps (t.storedCenter fl c0 a) la (t.storedCenter fl c0 b) lb
  sepSmaller a b :=
    match crit with
    | .staticLinf => t.staticLinfF fl stickOut eps (t.storedCenter fl c0 a) (t.level a)
        (t.storedCenter fl c0 b) (t.level b)
    | .preciseLinf => t.preciseLinfF fl eps (emin a) (emax a) (t.storedCenter fl c0 b) (t.level b)
    | .staticL2 => t.staticL2F fl rt stickOut eps (t.storedCenter fl c0 a) (t.level a)
        (t.storedCenter fl c0 b) (t.level b)

end Boxtree
