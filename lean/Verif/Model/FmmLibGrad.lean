import Verif.Model.FmmLib

/-!
Output arrays of `FMMLibExpansionWrangler` with and without gradients (`ifgrad`), and `drive_fmm` with
them.  Extends `Model/FmmLib`, which has no gradients; exceptions of `numpy` are values.
-/

namespace Boxtree.FmmLib

variable {A W D C P : Type} [AddCommMonoid C] [AddCommMonoid P]

/-- What `output_zeros` returns: one array, or a one-dimensional object array of arrays.
`/repo/boxtree/pyfmmlib_integration.py:644-657`. -/
inductive Output (P : Type)
  | flat (a : Nat → P)
  | objects (axes : List (Nat → P))

/-- `a[i₁, …, iₙ]`: `numpy` rejects more indices than dimensions.
`/repo/boxtree/pyfmmlib_integration.py:659-664`. -/
def checkIndices (ndim nindices : Nat) : Except String Unit :=
  if nindices ≤ ndim then .ok () else .error "IndexError"

/-- `output_zeros`, `/repo/boxtree/pyfmmlib_integration.py:644-657`. -/
def outputZeros (ifgrad : Bool) (dim : Nat) : Output P :=
  if ifgrad then .objects (List.replicate (1 + dim) fun _ => 0) else .flat fun _ => 0

/-- Both kinds of output arrays have one dimension.
`/repo/boxtree/pyfmmlib_integration.py:644-657`. -/
def Output.ndim : Output P → Nat
  | .flat _ => 1
  | .objects _ => 1

/-- `add_potgrad_onto_output`, `/repo/boxtree/pyfmmlib_integration.py:659-664`, on the target slice of
`b`.  `grad` is a list of components. -/
def addPotgrad (ifgrad : Bool) (q : Particles) (w : Wrangler A D) (out : Output P) (b : Nat)
    (pot : (Nat → ℚ) → P) (grad : List ((Nat → ℚ) → P)) : Except String (Output P) :=
  match ifgrad, out with
  | true, out => do
    -- output[0, output_slice] += pot
    checkIndices out.ndim 2
    -- output[1:, output_slice] += grad
    checkIndices out.ndim 2
    match out with
    | .flat a => return .flat a
    | .objects axes => return .objects (List.zipWith (fun a v => addPot q w a b v) axes (pot :: grad))
  | false, .flat a => .ok (.flat (addPot q w a b pot))
  -- does not happen: `output_zeros` makes a flat array without gradients
  | false, .objects axes => .ok (.objects axes)

/-- `potentials + result`.  `/repo/boxtree/fmm.py:342-533`. -/
def Output.add : Output P → Output P → Output P
  | .flat a, .flat b => .flat fun i => a i + b i
  | .objects a, .objects b => .objects (List.zipWith (fun x y i => x i + y i) a b)
  | a, _ => a

section
variable (ifgrad : Bool) (t : BoxTree) (q : Particles) (R : Lib A W D C P) (w : Wrangler A D)
  (src : Nat → Src W D) (dgrad : List (Src W D) → List ((Nat → ℚ) → P))
  (mgrad tgrad : ℚ → (Nat → ℚ) → List C → List ((Nat → ℚ) → P))

/-- `eval_direct`, `/repo/boxtree/pyfmmlib_integration.py:777-822`.  `dgrad` gives the gradients of the
library; their sum over the sources is not needed in what follows and only the last one is kept. -/
def evalDirectG (boxes : List Nat) (lists : BuiltList) : Except String (Output P) :=
  (List.range boxes.length).foldlM (fun out i =>
    let b := boxes.getD i 0
    if q.tgtCount b = 0 then .ok out
    else addPotgrad ifgrad q w out b (fun x =>
      (lists.row i).foldl (fun r s =>
        if q.srcCount s = 0 then r else r + R.direct (boxSrc q src s) x) 0)
      ((lists.row i).foldl (fun g s => if q.srcCount s = 0 then g else dgrad (boxSrc q src s)) []))
    (outputZeros ifgrad t.dims)

/-- `eval_multipoles`, `/repo/boxtree/pyfmmlib_integration.py:938-979`. -/
def evalMultipolesG (targetsByLevel : List (List Nat)) (listsByLevel : List BuiltList)
    (mp : Nat → C) : Except String (Output P) :=
  (List.range listsByLevel.length).foldlM (fun out lev =>
    let boxes := targetsByLevel.getD lev []
    let lists := listsByLevel.getD lev ⟨[], []⟩
    (List.range boxes.length).foldlM (fun out i =>
      let b := boxes.getD i 0
      if q.tgtCount b = 0 then .ok out
      else addPotgrad ifgrad q w out b (fun x =>
        (lists.row i).foldl (fun r s =>
          r + R.mpeval (levelToRscale t w lev) (t.center s) (getExpn t w mp lev s) x) 0)
        ((lists.row i).foldl (fun _ s =>
          mgrad (levelToRscale t w lev) (t.center s) (getExpn t w mp lev s)) [])) out)
    (outputZeros ifgrad t.dims)

/-- `eval_locals`, `/repo/boxtree/pyfmmlib_integration.py:1109-1145`. -/
def evalLocalsG (ls : List Nat) (boxes : List Nat) (a : Nat → C) : Except String (Output P) :=
  (List.range t.nlevels).foldlM (fun out lev =>
    (Fmm.levelSlice ls boxes lev).foldlM (fun out b =>
      if q.tgtCount b = 0 then .ok out
      else addPotgrad ifgrad q w out b (fun x =>
        R.taeval (levelToRscale t w lev) (t.center b) (getExpn t w a lev b) x)
        (tgrad (levelToRscale t w lev) (t.center b) (getExpn t w a lev b))) out)
    (outputZeros ifgrad t.dims)

/-- A close list, if it exists, `/repo/boxtree/fmm.py:452-463,478-487`. -/
def addDirectG (boxes : List Nat) (lists : Option BuiltList) (out : Output P) :
    Except String (Output P) :=
  match lists with
  | some l => do return out.add (← evalDirectG ifgrad t q R w src dgrad boxes l)
  | none => .ok out

/-- Stages 3-8 of `drive_fmm`, `/repo/boxtree/fmm.py:417-508`. -/
def evaluateG (trav : Traversal) (mp : Nat → C) : Except String (Output P) := do
  let pot1 ← evalDirectG ifgrad t q R w src dgrad trav.targetBoxes trav.list1
  let pot2 := pot1.add (← evalMultipolesG ifgrad t q R w mgrad trav.list3Targets trav.list3 mp)
  let pot3 ← addDirectG ifgrad t q R w src dgrad trav.targetBoxes trav.list3Close pot2
  let pot4 ← addDirectG ifgrad t q R w src dgrad trav.targetBoxes trav.list4Close pot3
  let loc := downward t q R w src trav mp
  return pot4.add (← evalLocalsG ifgrad t q R w tgrad trav.levelStartTarget trav.targetBoxes loc)

/-- `reorder_potentials`, `/repo/boxtree/pyfmmlib_integration.py:672-674`, and the scaling: the index
array selects along the first axis. -/
def reorderG (k : Kernel) (ntargets : Nat) (ids : Nat → Nat) : Output P → Except String (Output P)
  | .flat a => .ok (.flat fun i => R.scale k t.dims (a (ids i)))
  | .objects axes =>
    if ∀ i < ntargets, ids i < axes.length then
      .ok (.objects ((List.range ntargets).map fun i => fun j =>
        R.scale k t.dims ((axes.getD (ids i) fun _ => 0) j)))
    else .error "IndexError"

/-- `drive_fmm`, `/repo/boxtree/fmm.py:342-533`. -/
def driveG (trav : Traversal) (weights : Nat → W) : Except String (Output P) :=
  if t.dims = 2 ∨ t.dims = 3 then do
    let treeSrc : Nat → Src W D := fun j =>
      { pos := w.sources j
        weight := weights (q.userSourceIds j)
        dipole := w.dipoleVec.map fun d =>
          if w.dipolesAlreadyReordered then d j else d (q.userSourceIds j) }
    let pot ← evaluateG ifgrad t q R w treeSrc dgrad mgrad tgrad trav (upward t q R w treeSrc trav)
    reorderG t R w.kernel q.ntargets q.sortedTargetIds pot
  else .error "ValueError: unsupported dimensionality"

end
end Boxtree.FmmLib
