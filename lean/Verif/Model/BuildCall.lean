import Verif.Model.BuildArgs
import Verif.Model.Morton

/-!
# A call of the tree builder

`TreeBuilder.__call__` (`/repo/boxtree/tree_build.py:145-1886`) as a whole: checks of the arguments,
the bounding box and the level loop with its post-processing.  Coordinates are rationals; how the
device rounds is an argument.
-/

namespace Boxtree.Build

/-- Arguments of `TreeBuilder.__call__` with their contents, `/repo/boxtree/tree_build.py:145-162`.
`skip_prune` is one of the internal `kwargs`; `pad` is how many unused boxes the level-restricted
builder keeps per level (`:812-823`). -/
structure Call where
  args : Args
  /-- `particles` and `targets`, by axis and number -/
  src : Nat → Nat → ℚ
  tgt : Nat → Nat → ℚ
  /-- contents of `source_radii` and `target_radii`, if given -/
  srcRadius : Nat → ℚ
  tgtRadius : Nat → ℚ
  bbox : Option (List (ℚ × ℚ))
  skipPrune : Bool
  pad : Nat → Nat
  /-- floating point arithmetic of the device -/
  arith : Arith := .exact

/-- `nlevels_max`, `/repo/boxtree/tree_build.py:620-623`; `np.finfo` raises for anything else. -/
def levelsMax (dtype : String) : Except String Nat :=
  if dtype = "float64" then .ok (2 * (52 + 1))
  else if dtype = "float32" then .ok (2 * (23 + 1))
  else .error "ValueError"

/-- `nboxes_guess`, `/repo/boxtree/tree_build.py:534-538`. -/
def boxesGuess (dims : Nat) (w : List ℤ) (m : ℚ) : ℤ :=
  2 ^ dims * ⌊(m + w.sum - 1) / m⌋

namespace Call
variable (c : Call)

/-- `srcntgts`: `combine_srcntgt_arrays` of the coordinates, `/repo/boxtree/tree_build.py:360-383`. -/
def coord (ns : Nat) (a p : Nat) : ℚ := if p < ns then c.src a p else c.tgt a (p - ns)

/-- `srcntgt_radii`, `/repo/boxtree/tree_build.py:385-390`: zeros where there are no radii. -/
def rad (ns : Nat) (p : Nat) : ℚ :=
  if p < ns then (if c.args.sourceRadii.isSome then c.srcRadius p else 0)
  else (if c.args.targetRadii.isSome then c.tgtRadius (p - ns) else 0)

/-- What the checks and the bounding box leave for the rest.  The limit is an `int32` argument of the
kernels (`/repo/boxtree/tree_build_kernels.py:1578-1600`).  Simplified: an `Input` has the lower corner
and the extent; where the code reads the upper corner of a given box (`/repo/boxtree/tree_build.py:587`)
the rest of the model takes the rounded sum, which `Call.Documented` asks to be the same. -/
def input (k : Checked) (root : Root) (levels : Nat) : Input where
  dims := c.args.particles.length
  n := k.nsources + k.ntargets
  sourcesAreTargets := c.args.targets.isNone
  nsources := k.nsources
  x := c.coord k.nsources
  radius := c.rad k.nsources
  sourcesHaveExtent := c.args.sourceRadii.isSome
  targetsHaveExtent := c.args.targetRadii.isSome
  l2 := k.extentNorm = some "l2"
  stickOut := k.stickOutFactor
  weight := fun p => (k.refineWeights.getD p 0).toNat
  maxWeight := ⌊k.maxLeafRefineWeight⌋.toNat
  adaptive := c.args.kind ≠ "non-adaptive"
  levelRestrict := c.args.kind = "adaptive-level-restricted"
  nlevelsMax := levels
  lo := root.lo
  ext := fun a =>
    match c.bbox with
    | none => root.ext
    | some b => c.arith.fl (c.arith.fl (b.getD a 0).2 - c.arith.fl (b.getD a 0).1)
  skipPrune := c.skipPrune
  pad := c.pad
  arith := c.arith

/-- `TreeBuilder.__call__`, `/repo/boxtree/tree_build.py:145-1886`, where `body` is everything after
the allocation of the arrays (`:543-1880`), for their length and the input.  `guess` is the argument
`nboxes_guess` of the internal `kwargs`. -/
def runBy (guess : Option ℤ) (body : Nat → Input → Except String Built) : Except String Built := do
  let k ← check c.args
  let root ← rootBox c.arith.fl (c.args.particles.length - 1) (k.nsources + k.ntargets - 1)
    (c.coord k.nsources) (c.rad k.nsources) c.bbox
  let g := guess.getD (boxesGuess c.args.particles.length k.refineWeights k.maxLeafRefineWeight)
  if g ≤ 0 then .error "AssertionError"
  else
    let levels ← levelsMax k.coordDtype
    body g.toNat (c.input k root levels)

/-- `TreeBuilder.__call__`, `/repo/boxtree/tree_build.py:145-1886`, with the boxes numbered per
level. -/
def run : Except String Built := c.runBy none fun _ inp => inp.build

end Call
end Boxtree.Build
