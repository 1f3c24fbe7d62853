import Verif.Model.FmmLib

/-!
# Error codes of the `pyfmmlib` routines

Model of what `FMMLibExpansionWrangler` does with the error codes (`ier`) that the Fortran routines return
beside their results, `/repo/boxtree/pyfmmlib_integration.py:173-187,247-261,599-605,706-714,900-903,1038-1052`,
in a run of `drive_fmm`, `/repo/boxtree/fmm.py:342-533`.

The stages are those of `Model/FmmLib` with the tests of the error codes.  Which calls fail is a parameter
(`Status`).  In two dimensions only `formmp` and `formta` return error codes; the direct evaluation
(`potgrad…`, `potfld…`) returns none.
-/

namespace Boxtree.FmmLib.Err

/-- `RuntimeError`, `/repo/boxtree/pyfmmlib_integration.py:184`, `:257`, `:714`, `:1052`;
`AssertionError`, `:601`, `:605`; `ValueError`, `:619-620`. -/
inductive LibError
  | runtimeError | assertionError | valueError
deriving DecidableEq, Repr

/-- Which calls return a nonzero error code; the arguments are those of the routines in `Lib`
(`/repo/boxtree/pyfmmlib_integration.py:155-268`), and for `rot` the order and the angle of a matrix
(`:599-605`). -/
structure Status (A W D C : Type) where
  formmp : ℚ → List (Src W D) → (Nat → ℚ) → Nat → Bool
  mpmp : ℚ → (Nat → ℚ) → List C → ℚ → (Nat → ℚ) → Nat → ℚ → Bool
  mploc : Option A → ℚ → (Nat → ℚ) → List C → ℚ → (Nat → ℚ) → Nat → ℚ → Bool
  formta : ℚ → List (Src W D) → (Nat → ℚ) → Nat → Bool
  locloc : ℚ → (Nat → ℚ) → List C → ℚ → (Nat → ℚ) → Nat → ℚ → Bool
  mpeval : ℚ → (Nat → ℚ) → List C → (Nat → ℚ) → Bool
  taeval : ℚ → (Nat → ℚ) → List C → (Nat → ℚ) → Bool
  rot : ℤ → A → Bool

variable {A W D C P : Type}

/-- `if …: raise RuntimeError(…)`, `/repo/boxtree/pyfmmlib_integration.py:183-184`, `:256-257`,
`:713-714`, `:1051-1052`. -/
def raiseIf {α : Type} (bad : Bool) (v : α) : Except LibError α :=
  if bad then .error .runtimeError else .ok v

section Stages
variable [AddCommMonoid C] [AddCommMonoid P]
variable (t : BoxTree) (q : Particles) (R : Lib A W D C P) (S : Status A W D C) (w : Wrangler A D)
  (src : Nat → Src W D)

/-- `form_multipoles`, `/repo/boxtree/pyfmmlib_integration.py:677-719`. -/
def formMultipoles (ls : List Nat) (boxes : List Nat) : Except LibError (Nat → C) :=
  (List.range t.nlevels).foldlM (fun a lev =>
    (Fmm.levelSlice ls boxes lev).foldlM (fun a b =>
      if q.srcCount b = 0 then .ok a
      else raiseIf
        (S.formmp (levelToRscale t w lev) (boxSrc q src b) (t.center b) (w.order lev))
        (setExpn t w a lev b
          (R.formmp (levelToRscale t w lev) (boxSrc q src b) (t.center b) (w.order lev)))) a)
    (fun _ => 0)

/-- Body of the loop over `source_parent_boxes`,
`/repo/boxtree/pyfmmlib_integration.py:747-773`, with the test of `get_translation_routine`
(`:173-187`). -/
def coarsenBox (sourceLevel : Nat) (a : Nat → C) (b : Nat) : Except LibError (Nat → C) :=
  (List.range t.nch).foldlM (fun a m =>
    let c := t.child m b
    if c ≠ 0 then
      raiseIf (decide (t.dims = 3) &&
        S.mpmp (levelToRscale t w sourceLevel) (t.center c) (getExpn t w a sourceLevel c)
          (levelToRscale t w (sourceLevel - 1)) (t.center b) (w.order (sourceLevel - 1))
          (radius t (sourceLevel - 1)))
        (addExpn t w a (sourceLevel - 1) b
          (R.mpmp (levelToRscale t w sourceLevel) (t.center c) (getExpn t w a sourceLevel c)
            (levelToRscale t w (sourceLevel - 1)) (t.center b) (w.order (sourceLevel - 1))
            (radius t (sourceLevel - 1))))
    else .ok a) a

/-- `coarsen_multipoles`, `/repo/boxtree/pyfmmlib_integration.py:721-776`. -/
def coarsenMultipoles (ls : List Nat) (boxes : List Nat) (a : Nat → C) :
    Except LibError (Nat → C) :=
  (Fmm.coarsenLevels t.nlevels).foldlM (fun a sourceLevel =>
    (Fmm.levelSlice ls boxes (sourceLevel - 1)).foldlM (coarsenBox t R S w sourceLevel) a) a

/-- The assertions of `m2l_rotation_matrices`, `/repo/boxtree/pyfmmlib_integration.py:594-607`. -/
def rotationMatrices : Except LibError Unit :=
  if rotmatOrder t w = -1 then .ok ()
  else
    match w.rotation with
    | none => .ok ()
    | some (_, angles) =>
        if angles.any fun a => S.rot (rotmatOrder t w) a then .error .assertionError else .ok ()

/-- `multipole_to_local`, `/repo/boxtree/pyfmmlib_integration.py:824-935`; the routine reports the
greatest error code over the entries of a row. -/
def multipoleToLocal (ls : List Nat) (boxes : List Nat) (lists : BuiltList) (mp : Nat → C) :
    Except LibError (Nat → C) := do
  rotationMatrices t S w
  (List.range t.nlevels).foldlM (fun a lev =>
    (List.range' (ls.getD lev 0) (ls.getD (lev + 1) 0 - ls.getD lev 0)).foldlM (fun a i =>
      let b := boxes.getD i 0
      raiseIf (decide (t.dims = 3) &&
        ((lists.row i).zipIdx (lists.starts.getD i 0)).any fun sp =>
          S.mploc (rotAngle t w lev sp.2) (levelToRscale t w lev) (t.center sp.1)
            (getExpn t w mp lev sp.1) (levelToRscale t w lev) (t.center b) (w.order lev)
            (radius t lev))
        (addExpn t w a lev b
          (((lists.row i).zipIdx (lists.starts.getD i 0)).foldl (fun e sp =>
            List.zipWith (· + ·) e
              (R.mploc (rotAngle t w lev sp.2) (levelToRscale t w lev) (t.center sp.1)
                (getExpn t w mp lev sp.1) (levelToRscale t w lev) (t.center b) (w.order lev)
                (radius t lev))) (List.replicate (w.size t lev) 0)))) a)
    (fun _ => 0)

/-- The targets of box `b`: `_get_targets(tgt_pslice)`,
`/repo/boxtree/pyfmmlib_integration.py:959`, `:1137`. -/
def boxTargets (b : Nat) : List (Nat → ℚ) :=
  (List.range (q.tgtCount b)).map fun k => w.targets (q.tgtStart b + k)

/-- `eval_multipoles`, `/repo/boxtree/pyfmmlib_integration.py:938-979`, with the test of
`get_expn_eval_routine` (`:250-261`) over the targets of the box. -/
def evalMultipoles (targetsByLevel : List (List Nat)) (listsByLevel : List BuiltList)
    (mp : Nat → C) : Except LibError (Nat → P) :=
  (List.range listsByLevel.length).foldlM (fun pot lev =>
    let boxes := targetsByLevel.getD lev []
    let lists := listsByLevel.getD lev ⟨[], []⟩
    (List.range boxes.length).foldlM (fun pot i =>
      let b := boxes.getD i 0
      if q.tgtCount b = 0 then .ok pot
      else raiseIf (decide (t.dims = 3) && (lists.row i).any fun s => (boxTargets q w b).any fun x =>
          S.mpeval (levelToRscale t w lev) (t.center s) (getExpn t w mp lev s) x)
        (addPot q w pot b fun x =>
          (lists.row i).foldl (fun r s =>
            r + R.mpeval (levelToRscale t w lev) (t.center s) (getExpn t w mp lev s) x) 0)) pot)
    (fun _ => 0)

/-- `form_locals`, `/repo/boxtree/pyfmmlib_integration.py:981-1058`; the routine reports an error code
per box. -/
def formLocals (ls : List Nat) (boxes : List Nat) (lists : BuiltList) :
    Except LibError (Nat → C) :=
  (List.range t.nlevels).foldlM (fun a lev =>
    (List.range' (ls.getD lev 0) (ls.getD (lev + 1) 0 - ls.getD lev 0)).foldlM (fun a i =>
      let b := boxes.getD i 0
      raiseIf ((lists.row i).any fun s =>
          S.formta (levelToRscale t w lev) (boxSrc q src s) (t.center b) (w.order lev))
        (setExpn t w a lev b
          ((lists.row i).foldl (fun e s =>
            List.zipWith (· + ·) e
              (R.formta (levelToRscale t w lev) (boxSrc q src s) (t.center b) (w.order lev)))
            (List.replicate (w.size t lev) 0)))) a)
    (fun _ => 0)

/-- `refine_locals`, `/repo/boxtree/pyfmmlib_integration.py:1061-1106`. -/
def refineLocals (ls : List Nat) (boxes : List Nat) (a : Nat → C) : Except LibError (Nat → C) :=
  ((List.range t.nlevels).filter fun l => 1 ≤ l).foldlM (fun a lev =>
    (Fmm.levelSlice ls boxes lev).foldlM (fun a b =>
      raiseIf (decide (t.dims = 3) &&
        S.locloc (levelToRscale t w (lev - 1)) (t.center (t.parent b))
          (getExpn t w a (lev - 1) (t.parent b))
          (levelToRscale t w lev) (t.center b) (w.order lev) (radius t lev))
        (addExpn t w a lev b
          (R.locloc (levelToRscale t w (lev - 1)) (t.center (t.parent b))
            (getExpn t w a (lev - 1) (t.parent b))
            (levelToRscale t w lev) (t.center b) (w.order lev) (radius t lev)))) a) a

/-- `eval_locals`, `/repo/boxtree/pyfmmlib_integration.py:1109-1145`. -/
def evalLocals (ls : List Nat) (boxes : List Nat) (a : Nat → C) : Except LibError (Nat → P) :=
  (List.range t.nlevels).foldlM (fun pot lev =>
    (Fmm.levelSlice ls boxes lev).foldlM (fun pot b =>
      if q.tgtCount b = 0 then .ok pot
      else raiseIf (decide (t.dims = 3) && (boxTargets q w b).any fun x =>
          S.taeval (levelToRscale t w lev) (t.center b) (getExpn t w a lev b) x)
        (addPot q w pot b fun x =>
          R.taeval (levelToRscale t w lev) (t.center b) (getExpn t w a lev b) x)) pot)
    (fun _ => 0)

/-- `drive_fmm`, `/repo/boxtree/fmm.py:342-533`, with `FMMLibExpansionWrangler` and error codes. -/
def drive (trav : Traversal) (weights : Nat → W) : Except LibError (Nat → P) :=
  if t.dims = 2 ∨ t.dims = 3 then do
    let treeSrc : Nat → Src W D := fun j =>
      { pos := w.sources j
        weight := weights (q.userSourceIds j)
        dipole := w.dipoleVec.map fun d =>
          if w.dipolesAlreadyReordered then d j else d (q.userSourceIds j) }
    let mp ← formMultipoles t q R S w treeSrc trav.levelStartSource trav.sourceBoxes
    let mp ← coarsenMultipoles t R S w trav.levelStartSourceParent trav.sourceParentBoxes mp
    let pot := evalDirect q R w treeSrc trav.targetBoxes trav.list1
    let loc ← multipoleToLocal t R S w trav.levelStartTtp trav.ttpBoxes trav.list2 mp
    let pot3 ← evalMultipoles t q R S w trav.list3Targets trav.list3 mp
    let pot := addDirect q R w treeSrc trav.targetBoxes trav.list3Close fun i => pot i + pot3 i
    let loc4 ← formLocals t q R S w treeSrc trav.levelStartTtp trav.ttpBoxes trav.list4
    let pot := addDirect q R w treeSrc trav.targetBoxes trav.list4Close pot
    let loc ← refineLocals t R S w trav.levelStartTtp trav.ttpBoxes fun k => loc k + loc4 k
    let potl ← evalLocals t q R S w trav.levelStartTarget trav.targetBoxes loc
    return fun i => R.scale w.kernel t.dims
      ((fun i => pot i + potl i) (q.sortedTargetIds i))
  else .error .valueError

end Stages
end Boxtree.FmmLib.Err
