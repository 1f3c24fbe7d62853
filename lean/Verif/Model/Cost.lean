import Verif.Model.Fmm
import Mathlib.Algebra.Order.Field.Rat
import Mathlib.Algebra.Ring.Rat

/-!
# Cost model

Model of `/repo/boxtree/cost.py`: the OpenCL implementation `FMMCostModel`, the numpy
implementation `_PythonFMMCostModel`, and the calibration.  Costs live in an arbitrary commutative
semiring `K` (the code uses `float64`); an array is a list or a function on indices.  Overflow of
the integer counts is not modelled.  `tc` is the argument `box_target_counts_nonchild`.
-/

namespace Boxtree.Cost

section
variable {K : Type} [CommSemiring K] (t : BoxTree) (q : Particles) (trav : Traversal)

/-- `process_form_multipoles`, `/repo/boxtree/cost.py:725-776`. -/
def formMultipoles (p2m : Nat → K) : List K :=
  trav.sourceBoxes.map fun b => (q.srcCount b : K) * p2m (t.level b)

/-- Number of nonzero entries of `box_child_ids[:, b]`.  `/repo/boxtree/cost.py:782-826` and
`:1387-1412`. -/
def nChildren (b : Nat) : Nat := ((List.range t.nch).filter fun m => t.child m b ≠ 0).length

/-- `process_coarsen_multipoles`, `/repo/boxtree/cost.py:782-849`. -/
def coarsenMultipoles (m2m : Nat → K) : K :=
  (trav.sourceParentBoxes.map fun b =>
    if t.level b ≤ 1 then 0 else (nChildren t b : K) * m2m (t.level b)).sum

/-- One call of the kernel `get_ndirect_sources`, `/repo/boxtree/cost.py:857-892`: added to entry
`i`. -/
def nDirectOf (lists : BuiltList) (i : Nat) : Nat := ((lists.row i).map q.srcCount).sum

/-- The guards `if traversal.<close>_starts is not None`, `/repo/boxtree/cost.py:922`, `:932`. -/
def nDirectOfOpt (lists : Option BuiltList) (i : Nat) : Nat :=
  match lists with
  | some l => nDirectOf q l i
  | none => 0

/-- `get_ndirect_sources_per_target_box`, `/repo/boxtree/cost.py:894-939`. -/
def nDirect : List Nat :=
  (List.range trav.targetBoxes.length).map fun i =>
    nDirectOf q trav.list1 i + nDirectOfOpt q trav.list3Close i + nDirectOfOpt q trav.list4Close i

/-- `process_direct`, `/repo/boxtree/cost.py:941-951`. -/
def direct (tc : Nat → Nat) (ndirect : List Nat) (p2p : K) : List K :=
  (List.range trav.targetBoxes.length).map fun i =>
    ((ndirect.getD i 0 * tc (trav.targetBoxes.getD i 0) : Nat) : K) * p2p

/-- `process_list2`, `/repo/boxtree/cost.py:957-1009`. -/
def list2 (m2l : Nat → K) : List K :=
  (List.range trav.ttpBoxes.length).map fun i =>
    ((trav.list2.starts.getD (i + 1) 0 - trav.list2.starts.getD i 0 : Nat) : K)
      * m2l (t.level (trav.ttpBoxes.getD i 0))

/-- `process_list3`, `/repo/boxtree/cost.py:1015-1072`: an array over all boxes. -/
def list3 (tc : Nat → Nat) (m2p : Nat → K) : Nat → K :=
  (List.range trav.list3.length).foldl (fun a l =>
    let boxes := trav.list3Targets.getD l []
    let starts := (trav.list3.getD l ⟨[], []⟩).starts
    (List.range boxes.length).foldl (fun a i =>
      let b := boxes.getD i 0
      Function.update a b
        (a b + ((tc b * (starts.getD (i + 1) 0 - starts.getD i 0) : Nat) : K) * m2p l)) a)
    (fun _ => 0)

/-- `process_list4`, `/repo/boxtree/cost.py:1078-1136`. -/
def list4 (p2l : Nat → K) : List K :=
  (List.range trav.ttpBoxes.length).map fun i =>
    ((trav.list4.row i).map fun s => (q.srcCount s : K) * p2l (t.level s)).sum

/-- `process_eval_locals`, `/repo/boxtree/cost.py:1142-1194`. -/
def evalLocals (tc : Nat → Nat) (l2p : Nat → K) : List K :=
  trav.targetBoxes.map fun b => (tc b : K) * l2p (t.level b)

/-- `process_refine_locals`, `/repo/boxtree/cost.py:1200-1242`: reduction over the levels
`1..nlevels-1`. -/
def refineLocals (l2l : Nat → K) : K :=
  ((List.range' 1 (t.nlevels - 1)).map fun i =>
    ((trav.levelStartTtp.getD (i + 1) 0 - trav.levelStartTtp.getD i 0 : Nat) : K)
      * l2l (i - 1)).sum

/-- The loop over the levels in `_PythonFMMCostModel`, with the index range of each level taken
from `levelStarts`: entry `i` on level `l` is increased by `v l i`.
`/repo/boxtree/cost.py:1265-1277`, `:1324-1412`. -/
def levelLoop (levelStarts : List Nat) (n : Nat) (v : Nat → Nat → K) : Nat → K :=
  (List.range n).foldl (fun a l =>
    let start := levelStarts.getD l 0
    let stop := levelStarts.getD (l + 1) 0
    (List.range' start (stop - start)).foldl (fun a i => Function.update a i (a i + v l i)) a)
    (fun _ => 0)

/-- `_PythonFMMCostModel.process_form_multipoles`, `/repo/boxtree/cost.py:1265-1277`.  The code
stores the value instead of adding it to the initial zero. -/
def formMultipolesPy (p2m : Nat → K) : List K :=
  (List.range trav.sourceBoxes.length).map
    (levelLoop trav.levelStartSource t.nlevels fun l i =>
      (q.srcCount (trav.sourceBoxes.getD i 0) : K) * p2m l)

/-- `_PythonFMMCostModel.process_eval_locals`, `/repo/boxtree/cost.py:1369-1385`. -/
def evalLocalsPy (tc : Nat → Nat) (l2p : Nat → K) : List K :=
  (List.range trav.targetBoxes.length).map
    (levelLoop trav.levelStartTarget t.nlevels fun l i =>
      (tc (trav.targetBoxes.getD i 0) : K) * l2p l)

/-- `_PythonFMMCostModel.process_coarsen_multipoles`, `/repo/boxtree/cost.py:1387-1412`. -/
def coarsenMultipolesPy (m2m : Nat → K) : K :=
  ((Fmm.coarsenLevels t.nlevels).map fun sourceLevel =>
    m2m (sourceLevel - 1) *
      (((Fmm.levelSlice trav.levelStartSourceParent trav.sourceParentBoxes (sourceLevel - 1)).map
        (nChildren t)).sum : Nat)).sum

/-! The remaining methods of `_PythonFMMCostModel` (`/repo/boxtree/cost.py:1279-1367`,
`:1414-1424`) run the same loops over the same arrays as the kernels and are not modelled a second
time. -/

/-- Translation costs handed to the `process_*` methods.  `/repo/boxtree/cost.py:387-436`. -/
structure Factors (K : Type) where
  p2m : Nat → K
  m2m : Nat → K
  p2p : K
  m2l : Nat → K
  m2p : Nat → K
  p2l : Nat → K
  l2l : Nat → K
  l2p : Nat → K

/-- `result[boxes] += vals` for boxes without repetition.  `/repo/boxtree/cost.py:488-525`. -/
def addAt (boxes : List Nat) (vals : List K) (r : Nat → K) : Nat → K :=
  (List.range boxes.length).foldl (fun r i =>
    Function.update r (boxes.getD i 0) (r (boxes.getD i 0) + vals.getD i 0)) r

/-- `cost_per_box`, `/repo/boxtree/cost.py:472-525`, after the evaluation of the factors. -/
def perBox (tc : Nat → Nat) (f : Factors K) : Nat → K :=
  let r0 : Nat → K := fun _ => 0
  let r1 := addAt trav.sourceBoxes (formMultipoles t q trav f.p2m) r0
  let r2 := addAt trav.targetBoxes (direct trav tc (nDirect q trav) f.p2p) r1
  let r3 := addAt trav.ttpBoxes (list2 t trav f.m2l) r2
  let r4 := fun b => r3 b + list3 trav tc f.m2p b
  let r5 := addAt trav.ttpBoxes (list4 t q trav f.p2l) r4
  addAt trav.targetBoxes (evalLocals t trav tc f.l2p) r5

/-- Result of `cost_per_stage`.  `/repo/boxtree/cost.py:527-622`. -/
structure Stages (K : Type) where
  formMultipoles : K
  coarsenMultipoles : K
  evalDirect : K
  multipoleToLocal : K
  evalMultipoles : K
  formLocals : K
  refineLocals : K
  evalLocals : K

/-- `cost_per_stage`, `/repo/boxtree/cost.py:553-622`, after the evaluation of the factors;
`aggregate_over_boxes` is a sum. -/
def perStage (tc : Nat → Nat) (f : Factors K) : Stages K where
  formMultipoles := (formMultipoles t q trav f.p2m).sum
  coarsenMultipoles := coarsenMultipoles t trav f.m2m
  evalDirect := (direct trav tc (nDirect q trav) f.p2p).sum
  multipoleToLocal := (list2 t trav f.m2l).sum
  evalMultipoles := ((List.range t.nboxes).map (list3 trav tc f.m2p)).sum
  formLocals := (list4 t q trav f.p2l).sum
  refineLocals := refineLocals t trav f.l2l
  evalLocals := (evalLocals t trav tc f.l2p).sum

end

/-! ### Calibration -/

/-- `dict.update`, keys keep their first position.  `/repo/boxtree/cost.py:483-484`, `:564-565`. -/
def dictUpdate (d : List (String × String)) (kv : String × String) : List (String × String) :=
  if d.any fun e => e.1 == kv.1 then d.map fun e => if e.1 == kv.1 then kv else e
  else d ++ [kv]

/-- `_FMM_STAGE_TO_CALIBRATION_PARAMETER`, `/repo/boxtree/cost.py:639-648`. -/
def stageToParam : List (String × String) :=
  [("form_multipoles", "c_p2m"), ("coarsen_multipoles", "c_m2m"), ("eval_direct", "c_p2p"),
   ("multipole_to_local", "c_m2l"), ("eval_multipoles", "c_m2p"), ("form_locals", "c_p2l"),
   ("refine_locals", "c_l2l"), ("eval_locals", "c_l2p")]

/-- Entry of `uncalibrated_times[param]` for one model result,
`/repo/boxtree/cost.py:687-691`: stages in dictionary order, later stages overwrite. -/
def uncalibrated (names : List (String × String)) (param : String) (model : List (String × ℚ)) :
    ℚ :=
  names.foldl (fun u sp => if sp.2 = param then (model.lookup sp.1).getD u else u) 0

/-- Entry of `actual_times[param]` for one timing result, `/repo/boxtree/cost.py:693-696`; an
unknown stage is a `KeyError`. -/
def actual (names : List (String × String)) (param : String) (timing : List (String × ℚ)) :
    Except String ℚ :=
  timing.foldlM (fun a st =>
    match names.lookup st.1 with
    | none => .error "KeyError"
    | some p => .ok (if p = param then st.2 else a)) 0

/-- `numpy.dot` of equally long vectors.  `/repo/boxtree/cost.py:700-709`. -/
def dot (u v : List ℚ) : ℚ := (List.zipWith (· * ·) u v).sum

/-- `np.allclose(u, 0)` with the default `atol=1e-8` (and `rtol` times zero).
`/repo/boxtree/cost.py:700-709`. -/
def allcloseZero (u : List ℚ) : Bool := u.all fun x => decide (|x| ≤ 1 / 10 ^ 8)

/-- One parameter of the result, `/repo/boxtree/cost.py:700-709`. -/
def fit (u a : List ℚ) : ℚ := if allcloseZero u then 0 else dot a u / dot u u

/-- `estimate_calibration_params`, `/repo/boxtree/cost.py:650-711`: the entry of the result for
`param`; `none` if there is no such entry. -/
def estimate (models timings : List (List (String × ℚ))) (additional : List (String × String))
    (param : String) : Except String (Option ℚ) :=
  if timings.length ≠ models.length then .error "AssertionError"
  else
    let names := additional.foldl dictUpdate stageToParam
    match timings.mapM (actual names param) with
    | .error e => .error e
    | .ok a =>
      if names.any fun sp => sp.2 == param then
        .ok (some (fit (models.map (uncalibrated names param)) a))
      else .ok none

end Boxtree.Cost
