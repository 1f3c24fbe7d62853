import Verif.Model.Fmm
import Mathlib.Data.List.Sort

/-!
# The `pyfmmlib` expansion wrangler

Model of `FMMLibExpansionWrangler`, `/repo/boxtree/pyfmmlib_integration.py:276-1160`, driven by
`drive_fmm`, `/repo/boxtree/fmm.py:342-533`, without gradients (`ifgrad=False`).

The Fortran routines of `pyfmmlib` are parameters (`Lib`).  Expansions are kept as in the code: one
flat array for all boxes, divided into levels of `nboxes_on_level * expn_size(order)` entries and
addressed through views per level.  Simplifications: a routine with suffix `_imany` is modelled by
its documented effect, the sum over the entries of a CSR row of the single routine; a routine with
suffix `_vec` by the single routine at every target; error codes (`ier`) are not modelled;
lengths, coordinates and scaling factors are rational; potentials live in any commutative monoid.
-/

namespace Boxtree.FmmLib
open Boxtree

/-- `Kernel`, `/repo/boxtree/pyfmmlib_integration.py:125-128`. -/
inductive Kernel
  | laplace
  | helmholtz
deriving DecidableEq, Repr

/-- One source as handed to a routine: position, strength (`charge` or `dipstr`) and dipole
direction; `_get_sources` and `get_source_kwargs`,
`/repo/boxtree/pyfmmlib_integration.py:494-509,538-539`.  The rotation of dipole and strength into
one complex number for the two-dimensional Laplace kernel belongs to the routine here. -/
structure Src (W D : Type) where
  pos : Nat → ℚ
  weight : W
  dipole : Option D

/-- The routines obtained from `get_routine`, `get_translation_routine`,
`get_direct_eval_routine` and `get_expn_eval_routine`,
`/repo/boxtree/pyfmmlib_integration.py:155-268`.  `C` is the type of a coefficient, `P` of a
potential, `A` of a rotation angle.  `radius` is looked at in three dimensions for Helmholtz only;
the code does not pass it otherwise. -/
structure Lib (A W D C P : Type) where
  /-- rscale, sources, center, nterms -/
  formmp : ℚ → List (Src W D) → (Nat → ℚ) → Nat → List C
  /-- rscale1, center1, expn1, rscale2, center2, nterms2, radius -/
  mpmp : ℚ → (Nat → ℚ) → List C → ℚ → (Nat → ℚ) → Nat → ℚ → List C
  /-- rotation angle, if precomputed matrices are used, then as `mpmp` -/
  mploc : Option A → ℚ → (Nat → ℚ) → List C → ℚ → (Nat → ℚ) → Nat → ℚ → List C
  formta : ℚ → List (Src W D) → (Nat → ℚ) → Nat → List C
  locloc : ℚ → (Nat → ℚ) → List C → ℚ → (Nat → ℚ) → Nat → ℚ → List C
  /-- rscale, center, expn, target -/
  mpeval : ℚ → (Nat → ℚ) → List C → (Nat → ℚ) → P
  taeval : ℚ → (Nat → ℚ) → List C → (Nat → ℚ) → P
  /-- sources, target -/
  direct : List (Src W D) → (Nat → ℚ) → P
  /-- multiplication with `scale_factor` and, for the two-dimensional Laplace kernel, the real
  part: `/repo/boxtree/pyfmmlib_integration.py:1134-1155` -/
  scale : Kernel → Nat → P → P

/-- Attributes of the wrangler, `/repo/boxtree/pyfmmlib_integration.py:282-386`. -/
structure Wrangler (A D : Type) where
  kernel : Kernel
  /-- `rscale_factor`: 1 for Laplace, `abs(helmholtz_k)` for Helmholtz -/
  rscaleFactor : ℚ
  /-- `level_orders` -/
  order : Nat → Nat
  /-- `tree.sources` and `tree.targets`: axis `i` of particle `j` is `sources j i` -/
  sources : Nat → Nat → ℚ
  targets : Nat → Nat → ℚ
  /-- `dipole_vec` as passed by the user -/
  dipoleVec : Option (Nat → D)
  dipolesAlreadyReordered : Bool
  /-- `m2l_rotation_lists` and `m2l_rotation_angles`, if `rotation_data` was supplied -/
  rotation : Option (List ℤ × List A)
  /-- `optimized_m2l_precomputation_memory_cutoff_bytes` -/
  cutoff : ℤ

variable {A W D C P : Type}

section Storage
variable (t : BoxTree) (w : Wrangler A D)

/-- `pytools.product(expansion_shape(order))`,
`/repo/boxtree/pyfmmlib_integration.py:610-620`.  Other dimensions raise `ValueError`, see `drive`. -/
def expnSize (k : Kernel) (dims order : Nat) : Nat :=
  if dims = 2 then
    match k with
    | .laplace => order + 1
    | .helmholtz => 2 * order + 1
  else (2 * order + 1) * (order + 1)

/-- Number of coefficients of a box on level `l`.  `expansion_shape`,
`/repo/boxtree/pyfmmlib_integration.py:610-622`. -/
def Wrangler.size (l : Nat) : Nat := expnSize w.kernel t.dims (w.order l)

/-- `_expansions_level_starts`, `/repo/boxtree/pyfmmlib_integration.py:440-453`. -/
def levelStarts : Nat → Nat
  | 0 => 0
  | l + 1 => levelStarts l + w.size t l * (t.levelStart (l + 1) - t.levelStart l)

/-- Position of coefficient 0 of box `b` in the flat array, through the view of level `l`:
`multipole_expansions_view` / `local_expansions_view` and the index `ibox - level_start_ibox`,
`/repo/boxtree/pyfmmlib_integration.py:473-491`. -/
def offset (l b : Nat) : Nat := levelStarts t w l + (b - t.levelStart l) * w.size t l

/-- `view[b - level_start_ibox]`.  `/repo/boxtree/pyfmmlib_integration.py:473-493`. -/
def getExpn (a : Nat → C) (l b : Nat) : List C :=
  (List.range (w.size t l)).map fun i => a (offset t w l b + i)

/-- `view[b - level_start_ibox] = v`.  `/repo/boxtree/pyfmmlib_integration.py:677-719`. -/
def setExpn [Zero C] (a : Nat → C) (l b : Nat) (v : List C) : Nat → C := fun p =>
  if offset t w l b ≤ p ∧ p < offset t w l b + w.size t l then v.getD (p - offset t w l b) 0
  else a p

/-- `view[b - level_start_ibox] += v`.  `/repo/boxtree/pyfmmlib_integration.py:721-775`. -/
def addExpn [AddZeroClass C] (a : Nat → C) (l b : Nat) (v : List C) : Nat → C :=
  setExpn t w a l b (List.zipWith (· + ·) (getExpn t w a l b) v)

/-- `level_to_rscale`, `/repo/boxtree/pyfmmlib_integration.py:393-403`. -/
def levelToRscale (l : Nat) : ℚ :=
  let r := t.rootExtent * (1 / 2 ^ l) * w.rscaleFactor
  let r := if 1 < |r| then 1 else r
  if t.dims = 3 ∧ w.kernel = .laplace then 1 / r else r

/-- `tree.root_extent * 2**(-level)`.  `/repo/boxtree/pyfmmlib_integration.py:393-403`. -/
def radius (l : Nat) : ℚ := t.rootExtent * (1 / 2 ^ l)

end Storage

/-! ### Precomputed rotation matrices -/

/-- Value of a 32-bit signed integer with the bits of `x`.  Arithmetic of `mem_estimate`,
`/repo/boxtree/pyfmmlib_integration.py:578-588`. -/
def wrap32 (x : ℤ) : ℤ := (x + 2 ^ 31) % 2 ^ 32 - 2 ^ 31

/-- `mem_estimate`, `/repo/boxtree/pyfmmlib_integration.py:578-588`.  `order` is an `np.int32`
(an entry of `level_orders`, `:339-341`), so with NumPy 2 the products are `np.int32` too. -/
def memEstimate (order nangles : Nat) : ℤ :=
  wrap32 (8 * (order + 1) ^ 2 * (2 * order + 1) * nangles)

/-- `rotmat_order` of `m2l_rotation_matrices`,
`/repo/boxtree/pyfmmlib_integration.py:560-598`. -/
def rotmatOrder (t : BoxTree) (w : Wrangler A D) : ℤ :=
  -- supports_optimized_m2l, :352-363
  if t.dims = 3 then
    match w.rotation with
    | none => -1
    | some (_, angles) =>
      if angles.length = 0 then -1
      else
        let orders := ((List.range t.nlevels).map w.order).mergeSort (fun a b => decide (b ≤ a))
        match orders.find? fun o => decide (memEstimate o angles.length < w.cutoff) with
        | some o => o
        | none => -1
  else -1

section Stages
variable [AddCommMonoid C] [AddCommMonoid P]
variable (t : BoxTree) (q : Particles) (R : Lib A W D C P) (w : Wrangler A D)
  (src : Nat → Src W D)

/-- `_get_sources(pslice)` and `get_source_kwargs(src_weights, pslice)` for the sources of `b`.
`/repo/boxtree/pyfmmlib_integration.py:496-535`. -/
def boxSrc (b : Nat) : List (Src W D) :=
  (List.range (q.srcCount b)).map fun k => src (q.srcStart b + k)

/-- `add_potgrad_onto_output`, `/repo/boxtree/pyfmmlib_integration.py:657-662`, on the target slice
of `b`. -/
def addPot (pot : Nat → P) (b : Nat) (v : (Nat → ℚ) → P) : Nat → P := fun i =>
  if q.tgtStart b ≤ i ∧ i < q.tgtStart b + q.tgtCount b then pot i + v (w.targets i) else pot i

/-- `form_multipoles`, `/repo/boxtree/pyfmmlib_integration.py:677-717`. -/
def formMultipoles (ls : List Nat) (boxes : List Nat) : Nat → C :=
  (List.range t.nlevels).foldl (fun a lev =>
    (Fmm.levelSlice ls boxes lev).foldl (fun a b =>
      if q.srcCount b = 0 then a
      else setExpn t w a lev b
        (R.formmp (levelToRscale t w lev) (boxSrc q src b) (t.center b) (w.order lev))) a)
    (fun _ => 0)

/-- Body of the loop over `source_parent_boxes`,
`/repo/boxtree/pyfmmlib_integration.py:749-773`. -/
def coarsenBox (sourceLevel : Nat) (a : Nat → C) (b : Nat) : Nat → C :=
  (List.range t.nch).foldl (fun a m =>
    let c := t.child m b
    if c ≠ 0 then
      addExpn t w a (sourceLevel - 1) b
        (R.mpmp (levelToRscale t w sourceLevel) (t.center c) (getExpn t w a sourceLevel c)
          (levelToRscale t w (sourceLevel - 1)) (t.center b) (w.order (sourceLevel - 1))
          (radius t (sourceLevel - 1)))
    else a) a

/-- `coarsen_multipoles`, `/repo/boxtree/pyfmmlib_integration.py:719-775`. -/
def coarsenMultipoles (ls : List Nat) (boxes : List Nat) (a : Nat → C) : Nat → C :=
  (Fmm.coarsenLevels t.nlevels).foldl (fun a sourceLevel =>
    (Fmm.levelSlice ls boxes (sourceLevel - 1)).foldl (coarsenBox t R w sourceLevel) a) a

/-- `eval_direct`, `/repo/boxtree/pyfmmlib_integration.py:777-822`. -/
def evalDirect (boxes : List Nat) (lists : BuiltList) : Nat → P :=
  (List.range boxes.length).foldl (fun pot i =>
    let b := boxes.getD i 0
    if q.tgtCount b = 0 then pot
    else addPot q w pot b fun x =>
      (lists.row i).foldl (fun r s =>
        if q.srcCount s = 0 then r else r + R.direct (boxSrc q src s) x) 0)
    (fun _ => 0)

/-- The rotation angle used for entry `pos` of list 2 on level `lev`,
`/repo/boxtree/pyfmmlib_integration.py:849-868`: the precomputed matrices are used if the order of
the level is not greater than the order of the matrices. -/
def rotAngle (lev pos : Nat) : Option A :=
  if (w.order lev : ℤ) ≤ rotmatOrder t w then
    match w.rotation with
    | none => none
    | some (lists, angles) => angles[(lists.getD pos 0).toNat]?
  else none

/-- `multipole_to_local`, `/repo/boxtree/pyfmmlib_integration.py:824-925`.  Row `i` of the slice
`starts[lstart:lstop+1]` is row `lstart + i` of the list. -/
def multipoleToLocal (ls : List Nat) (boxes : List Nat) (lists : BuiltList) (mp : Nat → C) :
    Nat → C :=
  (List.range t.nlevels).foldl (fun a lev =>
    (List.range' (ls.getD lev 0) (ls.getD (lev + 1) 0 - ls.getD lev 0)).foldl (fun a i =>
      let b := boxes.getD i 0
      addExpn t w a lev b
        (((lists.row i).zipIdx (lists.starts.getD i 0)).foldl (fun e sp =>
          List.zipWith (· + ·) e
            (R.mploc (rotAngle t w lev sp.2) (levelToRscale t w lev) (t.center sp.1)
              (getExpn t w mp lev sp.1) (levelToRscale t w lev) (t.center b) (w.order lev)
              (radius t lev))) (List.replicate (w.size t lev) 0))) a)
    (fun _ => 0)

/-- `eval_multipoles`, `/repo/boxtree/pyfmmlib_integration.py:927-966`. -/
def evalMultipoles (targetsByLevel : List (List Nat)) (listsByLevel : List BuiltList)
    (mp : Nat → C) : Nat → P :=
  (List.range listsByLevel.length).foldl (fun pot lev =>
    let boxes := targetsByLevel.getD lev []
    let lists := listsByLevel.getD lev ⟨[], []⟩
    (List.range boxes.length).foldl (fun pot i =>
      let b := boxes.getD i 0
      if q.tgtCount b = 0 then pot
      else addPot q w pot b fun x =>
        (lists.row i).foldl (fun r s =>
          r + R.mpeval (levelToRscale t w lev) (t.center s) (getExpn t w mp lev s) x) 0) pot)
    (fun _ => 0)

/-- `form_locals`, `/repo/boxtree/pyfmmlib_integration.py:968-1045`. -/
def formLocals (ls : List Nat) (boxes : List Nat) (lists : BuiltList) : Nat → C :=
  (List.range t.nlevels).foldl (fun a lev =>
    (List.range' (ls.getD lev 0) (ls.getD (lev + 1) 0 - ls.getD lev 0)).foldl (fun a i =>
      let b := boxes.getD i 0
      setExpn t w a lev b
        ((lists.row i).foldl (fun e s =>
          List.zipWith (· + ·) e
            (R.formta (levelToRscale t w lev) (boxSrc q src s) (t.center b) (w.order lev)))
          (List.replicate (w.size t lev) 0))) a)
    (fun _ => 0)

/-- `refine_locals`, `/repo/boxtree/pyfmmlib_integration.py:1047-1092`. -/
def refineLocals (ls : List Nat) (boxes : List Nat) (a : Nat → C) : Nat → C :=
  ((List.range t.nlevels).filter fun l => 1 ≤ l).foldl (fun a lev =>
    (Fmm.levelSlice ls boxes lev).foldl (fun a b =>
      addExpn t w a lev b
        (R.locloc (levelToRscale t w (lev - 1)) (t.center (t.parent b))
          (getExpn t w a (lev - 1) (t.parent b))
          (levelToRscale t w lev) (t.center b) (w.order lev) (radius t lev))) a) a

/-- `eval_locals`, `/repo/boxtree/pyfmmlib_integration.py:1094-1132`. -/
def evalLocals (ls : List Nat) (boxes : List Nat) (a : Nat → C) : Nat → P :=
  (List.range t.nlevels).foldl (fun pot lev =>
    (Fmm.levelSlice ls boxes lev).foldl (fun pot b =>
      if q.tgtCount b = 0 then pot
      else addPot q w pot b fun x =>
        R.taeval (levelToRscale t w lev) (t.center b) (getExpn t w a lev b) x) pot)
    (fun _ => 0)

/-- `potentials + eval_direct(...)` for a close list, if it exists,
`/repo/boxtree/fmm.py:452-463,478-487`. -/
def addDirect (boxes : List Nat) (lists : Option BuiltList) (pot : Nat → P) : Nat → P :=
  match lists with
  | some l => fun i => pot i + evalDirect q R w src boxes l i
  | none => pot

/-- Stages 1-2 of `drive_fmm`, `/repo/boxtree/fmm.py:385-409`. -/
def upward (trav : Traversal) : Nat → C :=
  coarsenMultipoles t R w trav.levelStartSourceParent trav.sourceParentBoxes
    (formMultipoles t q R w src trav.levelStartSource trav.sourceBoxes)

/-- Local expansions before the evaluation: list 2, list 4 and the downward pass,
`/repo/boxtree/fmm.py:423-435,467-476,489-497`. -/
def downward (trav : Traversal) (mp : Nat → C) : Nat → C :=
  let loc1 := multipoleToLocal t R w trav.levelStartTtp trav.ttpBoxes trav.list2 mp
  let loc2 := fun k => loc1 k + formLocals t q R w src trav.levelStartTtp trav.ttpBoxes trav.list4 k
  refineLocals t R w trav.levelStartTtp trav.ttpBoxes loc2

/-- Stages 3-8 of `drive_fmm`, `/repo/boxtree/fmm.py:413-514`. -/
def evaluate (trav : Traversal) (mp : Nat → C) : Nat → P :=
  let pot1 := evalDirect q R w src trav.targetBoxes trav.list1
  let pot2 := fun i => pot1 i + evalMultipoles t q R w trav.list3Targets trav.list3 mp i
  let pot3 := addDirect q R w src trav.targetBoxes trav.list3Close pot2
  let pot4 := addDirect q R w src trav.targetBoxes trav.list4Close pot3
  let loc := downward t q R w src trav mp
  fun i => pot4 i + evalLocals t q R w trav.levelStartTarget trav.targetBoxes loc i

/-- `drive_fmm`, `/repo/boxtree/fmm.py:342-533`, with `FMMLibExpansionWrangler` and weights in user
order; the result is in user order.  `reorder_sources` and `reorder_potentials`:
`/repo/boxtree/pyfmmlib_integration.py:668-674`; reordering of the dipole vectors: `:374-384`.
Dimensions other than 2 and 3 raise `ValueError`, `:619-620`. -/
def drive (trav : Traversal) (weights : Nat → W) : Except String (Nat → P) :=
  if t.dims = 2 ∨ t.dims = 3 then
    let treeSrc : Nat → Src W D := fun j =>
      { pos := w.sources j
        weight := weights (q.userSourceIds j)
        dipole := w.dipoleVec.map fun d =>
          if w.dipolesAlreadyReordered then d j else d (q.userSourceIds j) }
    let pot := evaluate t q R w treeSrc trav (upward t q R w treeSrc trav)
    .ok fun i => R.scale w.kernel t.dims (pot (q.sortedTargetIds i))
  else .error "ValueError: unsupported dimensionality"

end Stages
end Boxtree.FmmLib
