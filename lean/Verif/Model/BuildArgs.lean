import Mathlib.Algebra.Order.Field.Rat
import Mathlib.Algebra.Order.Group.Abs
import Mathlib.Data.List.GetD

/-!
# Arguments of the tree builder

Model of the checks at the start of `TreeBuilder.__call__` (`/repo/boxtree/tree_build.py:216-511`)
and of `/repo/boxtree/bounding_box.py`.  An array is represented by its dtype and its length, the
refine weights also by their values.  A raised exception is an `.error` with its type.  Not
modelled: `assert isinstance(actx, PyOpenCLArrayContext)`, the deprecation warning for
`allocator`, and dtypes of coordinates for which no kernel can be generated.
-/

namespace Boxtree.Build

/-- A device array.  Arguments of `/repo/boxtree/tree_build.py:145-162`, as far as the checks
`:253-448` read them. -/
structure Arr where
  dtype : String
  len : Nat
deriving DecidableEq

/-- Arguments of `TreeBuilder.__call__`, `/repo/boxtree/tree_build.py:145-162`. -/
structure Args where
  /-- one array per axis -/
  particles : List Arr
  kind : String
  maxParticlesInBox : Option ℚ
  targets : Option (List Arr)
  /-- dtype and shape -/
  sourceRadii : Option (String × List Nat)
  targetRadii : Option (String × List Nat)
  stickOutFactor : Option ℚ
  /-- dtype and entries -/
  refineWeights : Option (String × List ℤ)
  maxLeafRefineWeight : Option ℚ
  extentNorm : Option String

/-- `pytools.single_valued`: `ValueError` for nothing, `AssertionError` for different values.  Calls
at `/repo/boxtree/tree_build.py:261-267` and `:351`. -/
def singleValued {A : Type} [DecidableEq A] : List A → Except String A
  | [] => .error "ValueError"
  | a :: l => if l.all (fun b => decide (b = a)) then .ok a else .error "AssertionError"

/-- What the rest of the builder uses.  Variables `nsrcntgts`, `nsources`, `stick_out_factor`,
`max_leaf_refine_weight`, … set in `/repo/boxtree/tree_build.py:216-448`. -/
structure Checked where
  extentNorm : Option String
  nsources : Nat
  ntargets : Nat
  coordDtype : String
  stickOutFactor : ℚ
  refineWeights : List ℤ
  maxLeafRefineWeight : ℚ
deriving DecidableEq

/-- Check of one array of radii, `/repo/boxtree/tree_build.py:270-278` and `:280-288`. -/
def checkRadii (radii : Option (String × List Nat)) (n : Nat) (dtype : String) :
    Except String Unit :=
  match radii with
  | none => .ok ()
  | some (dt, shape) =>
    if shape ≠ [n] then .error "ValueError"
    else if dt ≠ dtype then .error "TypeError"
    else .ok ()

/-- `ntargets`, `/repo/boxtree/tree_build.py:263-268`; zero without separate targets. -/
def countTargets (a : Args) : Except String Nat :=
  match a.targets with
  | none => .ok 0
  | some t => singleValued (t.map Arr.len)

/-- `stick_out_factor`, `/repo/boxtree/tree_build.py:290-295`. -/
def stickOut (a : Args) (haveExtent : Bool) : Except String ℚ :=
  if haveExtent then
    match a.stickOutFactor with
    | none => .error "ValueError"
    | some s => .ok s
  else .ok 0

/-- `/repo/boxtree/tree_build.py:225-295`: kind, norm, radii, stick out factor. -/
def checkShapes (a : Args) : Except String (Option String × Nat × Nat × String × ℚ) :=
  if a.kind ∉ ["adaptive", "adaptive-level-restricted", "non-adaptive"] then .error "ValueError"
  else
    let norm := a.extentNorm.getD "linf"
    if norm ∉ ["linf", "l2"] then .error "ValueError"
    else
      let haveExtent := a.sourceRadii.isSome || a.targetRadii.isSome
      if haveExtent && a.targets.isNone then .error "ValueError"
      else do
        let dtype ← singleValued (a.particles.map Arr.dtype)
        let nsources ← singleValued (a.particles.map Arr.len)
        let ntargets ← countTargets a
        checkRadii a.sourceRadii nsources dtype
        checkRadii a.targetRadii ntargets dtype
        let sof ← stickOut a haveExtent
        return (if haveExtent then some norm else none, nsources, ntargets, dtype, sof)

/-- `/repo/boxtree/tree_build.py:351-383`: dtype of the targets, `zip(..., strict=True)`; then
`evt, = user_srcntgt_ids.events` (`:399`), which fails without particles. -/
def checkTargets (a : Args) (nsrcntgts : Nat) (dtype : String) : Except String Unit :=
  match a.targets with
  | none => if nsrcntgts = 0 then .error "ValueError" else .ok ()
  | some t => do
    let tdtype ← singleValued (t.map Arr.dtype)
    if tdtype ≠ dtype then .error "TypeError"
    else if t.length ≠ a.particles.length then .error "ValueError"
    else if nsrcntgts = 0 then .error "ValueError"
    else .ok ()

/-- `/repo/boxtree/tree_build.py:407-448`: refine weights and their limit.  The reductions of an
empty array fail. -/
def checkWeights (a : Args) (nsrcntgts : Nat) : Except String (List ℤ × ℚ) := do
  let (w, m) ← match a.maxParticlesInBox, a.refineWeights, a.maxLeafRefineWeight with
    | some _, some _, some _ => .error "ValueError"
    | some m, _, _ => .ok (List.replicate nsrcntgts (1 : ℤ), m)
    | none, some (dt, w), some m =>
      if dt ≠ "int32" then .error "TypeError" else .ok (w, m)
    | none, _, _ => .error "ValueError"
  if m ≤ 0 then .error "ValueError"
  else if w = [] then .error "ValueError"
  else if w.any (fun x => decide (m < x)) then .error "ValueError"
  else if w.any (fun x => decide (x < 0)) then .error "ValueError"
  else return (w, m)

/-- All checks before the bounding box, `/repo/boxtree/tree_build.py:216-448`. -/
def check (a : Args) : Except String Checked := do
  let (norm, ns, nt, dtype, sof) ← checkShapes a
  let n := if a.targets.isNone then ns else ns + nt
  checkTargets a n dtype
  let (w, m) ← checkWeights a n
  return ⟨norm, ns, nt, dtype, sof, w, m⟩

/-! ### Bounding box -/

/-- `bbox_from_particle` and `agg_bbox` for one axis, `/repo/boxtree/bounding_box.py:74-97`: the
reduction over particles `0..n`.  The neutral element of the reduction (the largest floating point
numbers) is not modelled: the reduction starts from particle 0.  `fl` is the rounding. -/
def autoBox (fl : ℚ → ℚ) (x r : Nat → ℚ) : Nat → ℚ × ℚ
  | 0 => (fl (x 0 - r 0), fl (x 0 + r 0))
  | n + 1 =>
    let p := autoBox fl x r n
    (min p.1 (fl (x (n + 1) - r (n + 1))), max p.2 (fl (x (n + 1) + r (n + 1))))

/-- `ROOT_EXTENT_STRETCH_FACTOR`, `/repo/boxtree/tree_build.py:101`. -/
def stretch : ℚ := 1 / 10 ^ 4

/-- The root box: `bbox_min` and `root_extent`.  `/repo/boxtree/tree_build.py:449-511`. -/
structure Root where
  lo : Nat → ℚ
  ext : ℚ

/-- Maximum of `f 0, …, f n`.  Auxiliary to `root_extent`, `/repo/boxtree/tree_build.py:449-511`. -/
def maxUpto (f : Nat → ℚ) : Nat → ℚ
  | 0 => f 0
  | n + 1 => max (maxUpto f n) (f (n + 1))

/-- `/repo/boxtree/tree_build.py:452-511` for `n + 1` particles in `d + 1` dimensions with
coordinates `x axis particle`: the bounding box is found, or the given one (a dim-by-2 array) is
checked.  Arrays of another length than the dimension are refused (length one would be a
structured array, not modelled).  `fl` is the rounding, on the device and in numpy; the given box is
converted to the precision of the coordinates. -/
def rootBox (fl : ℚ → ℚ) (d n : Nat) (x : Nat → Nat → ℚ) (r : Nat → ℚ)
    (bbox : Option (List (ℚ × ℚ))) : Except String Root :=
  match bbox with
  | none =>
    .ok { lo := fun a => (autoBox fl (x a) r n).1
          ext := fl (maxUpto (fun a => fl ((autoBox fl (x a) r n).2 - (autoBox fl (x a) r n).1)) d
            * fl (1 + stretch)) }
  | some b =>
    let lo := fun a => fl (b.getD a 0).1
    let hi := fun a => fl (b.getD a 0).2
    if b.length ≠ d + 1 then .error "AssertionError"
    else if (List.range (d + 1)).any fun a =>
        !(decide (lo a < hi a) && decide (lo a ≤ (autoBox fl (x a) r n).1) &&
          decide ((autoBox fl (x a) r n).2 ≤ hi a)) then .error "AssertionError"
    else if (List.range (d + 1)).any fun a =>
        !decide (|fl (fl (hi a - lo a) - fl (hi 0 - lo 0))| < fl (1 / 10 ^ 15)) then
      .error "AssertionError"
    else .ok { lo := lo, ext := fl (hi 0 - lo 0) }

end Boxtree.Build
