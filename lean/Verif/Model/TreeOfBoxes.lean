import Verif.Model.Geometry
import Verif.Model.Csr

/-!
# Trees of boxes: refinement, coarsening, sorting, pruning

Model of `/repo/boxtree/tree_of_boxes.py`.

Simplifications (stated once for the whole file): coordinates are exact rationals; arrays are
total functions on `Nat` together with the number of boxes `nboxes`, and a flag array is a
function read only below `nboxes`; a vectorised numpy assignment `a[idx] = v` is written as the
function with the updated entries.  Box ids do not overflow `box_id_dtype`.
-/

namespace Boxtree

/-- The attributes of `TreeOfBoxes` used by `tree_of_boxes.py`, `/repo/boxtree/tree.py:154-250`.
`lvBits`/`lvSigned` describe `box_level_dtype` (default `np.int32`: 32, signed).  `parent 0 = -1`
for the root, `child m b` is `box_child_ids[m, b]` (0: no child), `center b i` is
`box_centers[i, b]`. -/
structure Tob where
  dims : Nat
  lvBits : Nat
  lvSigned : Bool
  rootExtent : ℚ
  nboxes : Nat
  center : Nat → Nat → ℚ
  parent : Nat → Int
  child : Nat → Nat → Nat
  level : Nat → Nat

/-- The exceptions of `tree_of_boxes.py` (`:160`, `:226`, `:230`, `:246`, `:382`). -/
inductive TobErr where
  | bothFlags | splitNonLeaf | coarsenNonLeaf | coarsenRoot | flagsIgnored
  deriving DecidableEq, Repr

namespace Tob

/-- `2**dim`, `/repo/boxtree/tree_of_boxes.py:167`. -/
def nch (t : Tob) : Nat := 2 ^ t.dims

/-- `np.iinfo(box_levels.dtype).max`, `/repo/boxtree/tree_of_boxes.py:261`. -/
def sentinel (t : Tob) : Nat := if t.lvSigned then 2 ^ (t.lvBits - 1) - 1 else 2 ^ t.lvBits - 1

/-- `2**k` evaluated by numpy in the level dtype (`2**(1+box_levels[children_i])`,
`/repo/boxtree/tree_of_boxes.py:195`): wraps around.  At `k ≥ lvBits` numpy's result 0 makes the
quotient infinite, the model's rational quotient is then 0. -/
def lvPow (t : Tob) (k : Nat) : ℤ :=
  if t.lvSigned && k + 1 == t.lvBits then -2 ^ k else if k < t.lvBits then 2 ^ k else 0

/-- `np.all(box_child_ids == 0, axis=0)`, `/repo/boxtree/tree_of_boxes.py:77`. -/
def isLeaf (t : Tob) (b : Nat) : Bool := (List.range t.nch).all fun m => t.child m b == 0

/-- `_compute_tob_box_flags`, `/repo/boxtree/tree_of_boxes.py:66-86`.  Every constructor call in
the file recomputes the flags from the child ids, so they are a function of the tree here. -/
def flags (t : Tob) (b : Nat) : Nat :=
  let f := flagIsSource ||| flagIsTarget
  if t.isLeaf b then f ||| flagIsLeaf else f ||| (flagHasSourceChild ||| flagHasTargetChild)

/-- `bin(i)[2:]` as a list of digits, `/repo/boxtree/tree_of_boxes.py:115`. -/
def binDigits (i : Nat) : List Nat :=
  if i < 2 then [i] else binDigits (i / 2) ++ [i % 2]
decreasing_by omega

/-- `_vec_of_signs(dim, i)`, `/repo/boxtree/tree_of_boxes.py:111-118`. -/
def vecOfSigns (dim i : Nat) : List Int :=
  let ds := binDigits i
  (List.replicate (dim - ds.length) 0 ++ ds).map fun (x : Nat) => (x : Int) * 2 - 1

/-- The array part of `_apply_refine_flags_without_sorting`,
`/repo/boxtree/tree_of_boxes.py:167-214`; `ps` is `refine_parents`.  New box
`nboxes + 2^d * k + m` is child `m` of `ps[k]`. -/
def refined (t : Tob) (ps : List Nat) : Tob :=
  let n := t.nboxes
  let par := fun b => ps.getD ((b - n) / t.nch) 0
  let lev := fun b => if b < n then t.level b else t.level (par b) + 1
  { t with
    nboxes := n + ps.length * t.nch
    parent := fun b => if b < n then t.parent b else (par b : Int)
    level := lev
    child := fun m b =>
      if b ∈ ps then n + t.nch * ps.idxOf b + m else if b < n then t.child m b else 0
    center := fun b i =>
      if b < n then t.center b i
      else t.center (par b) i +
        t.rootExtent * ((vecOfSigns t.dims ((b - n) % t.nch)).getD i 0 : ℚ) *
          (1 / (t.lvPow (1 + lev b) : ℚ)) }

/-- `_apply_refine_flags_without_sorting`, `/repo/boxtree/tree_of_boxes.py:152-215`. -/
def refine (t : Tob) (rf : Nat → Bool) : Except TobErr Tob :=
  if (List.range t.nboxes).any fun b => rf b && !t.isLeaf b then .error .splitNonLeaf
  else
    let ps := (List.range t.nboxes).filter rf
    if ps.isEmpty then .ok t else .ok (t.refined ps)

/-- `coarsen_exec_flags` for the flagged box `s`: all boxes `box_child_ids[:, parent(s)]` are
leaves, `/repo/boxtree/tree_of_boxes.py:234-237`. -/
def canCoarsen (t : Tob) (s : Nat) : Bool :=
  (List.range t.nch).all fun m => t.isLeaf (t.child m (t.parent s).toNat)

/-- The array part of `_apply_coarsen_flags`, `/repo/boxtree/tree_of_boxes.py:251-281`; `ex` are
the flagged boxes that are executed. -/
def coarsened (t : Tob) (ex : List Nat) : Tob :=
  let parents := ex.map fun s => (t.parent s).toNat
  let peers := parents.flatMap fun p => (List.range t.nch).map fun m => t.child m p
  { t with
    parent := fun b => if b ∈ peers then -1 else t.parent b
    child := fun m b => if b ∈ parents then 0 else t.child m b
    level := fun b => if b ∈ peers then t.sentinel else t.level b }

/-- `_apply_coarsen_flags`, `/repo/boxtree/tree_of_boxes.py:218-281`. -/
def coarsen (t : Tob) (cf : Nat → Bool) (errorOnIgnored : Bool) : Except TobErr Tob :=
  if (List.range t.nboxes).any fun b => cf b && !t.isLeaf b then .error .coarsenNonLeaf
  else
    let srcs := (List.range t.nboxes).filter cf
    if srcs.any fun s => decide (t.parent s < 0) then .error .coarsenRoot
    else if srcs.isEmpty then .ok t
    else if (srcs.any fun s => !t.canCoarsen s) && errorOnIgnored then .error .flagsIgnored
    else .ok (t.coarsened (srcs.filter fun s => t.canCoarsen s))

/-- `np.any(np.diff(tob.box_levels) < 0)`, `/repo/boxtree/tree_of_boxes.py:285`: differences of an
unsigned dtype are never negative. -/
def levelsDecrease (t : Tob) : Bool :=
  t.lvSigned && (List.range (t.nboxes - 1)).any fun b => decide (t.level (b + 1) < t.level b)

/-- The permuting part of `_sort_boxes_by_level`, `/repo/boxtree/tree_of_boxes.py:289-323`, for
`neworder = no`. -/
def permuted (t : Tob) (no : List Nat) : Tob :=
  let oldToNew := reverseIndexArray no no.length
  { t with
    center := fun b => t.center (no.getD b 0)
    level := fun b => t.level (no.getD b 0)
    parent := fun b =>
      let p := t.parent (no.getD b 0)
      if 0 ≤ p then (oldToNew.getD p.toNat 0 : Int) else p
    child := fun m b =>
      let c := t.child m (no.getD b 0)
      if c ≠ 0 then oldToNew.getD c 0 else c }

/-- `_sort_boxes_by_level`, `/repo/boxtree/tree_of_boxes.py:284-323`.  `argsort` stands for
`np.argsort`, whose default algorithm is not stable. -/
def sortByLevel (argsort : List Nat → List Nat) (t : Tob) : Tob :=
  if t.levelsDecrease then t.permuted (argsort ((List.range t.nboxes).map t.level)) else t

/-- The truncation in `_sort_and_prune_deleted_boxes`, `/repo/boxtree/tree_of_boxes.py:326-350`. -/
def truncated (t : Tob) : Tob :=
  { t with nboxes := t.nboxes - (List.range t.nboxes).countP fun b => t.level b == t.sentinel }

/-- `_sort_and_prune_deleted_boxes`, `/repo/boxtree/tree_of_boxes.py:326-350`. -/
def sortAndPrune (argsort : List Nat → List Nat) (t : Tob) : Tob :=
  (t.sortByLevel argsort).truncated

/-- `_resized_array(coarsen_flags, tob.nboxes)`, `/repo/boxtree/tree_of_boxes.py:88-108, 390`:
the flags of the new boxes are zero. -/
def resizeFlags (oldN : Nat) (f : Nat → Bool) : Nat → Bool := fun b => if b < oldN then f b else false

/-- `refine_and_coarsen_tree_of_boxes`, `/repo/boxtree/tree_of_boxes.py:353-394` (flag arrays
given as `None` are the constant `false`). -/
def refineAndCoarsen (argsort : List Nat → List Nat) (t : Tob) (rf cf : Nat → Bool)
    (errorOnIgnored : Bool := true) : Except TobErr Tob :=
  if (List.range t.nboxes).any fun b => rf b && cf b then .error .bothFlags
  else do
    let t1 ← t.refine rf
    let t2 ← t1.coarsen (resizeFlags t.nboxes cf) errorOnIgnored
    return t2.sortAndPrune argsort

/-- `refine_tree_of_boxes`, `/repo/boxtree/tree_of_boxes.py:122-127`. -/
def refineTree (argsort : List Nat → List Nat) (t : Tob) (rf : Nat → Bool) : Except TobErr Tob :=
  t.refineAndCoarsen argsort rf (fun _ => false)

/-- `uniformly_refine_tree_of_boxes`, `/repo/boxtree/tree_of_boxes.py:130-137`. -/
def uniformlyRefine (argsort : List Nat → List Nat) (t : Tob) : Except TobErr Tob :=
  t.refineTree argsort fun b => hasFlag (t.flags b) flagIsLeaf

/-- `coarsen_tree_of_boxes`, `/repo/boxtree/tree_of_boxes.py:140-152`. -/
def coarsenTree (argsort : List Nat → List Nat) (t : Tob) (cf : Nat → Bool)
    (errorOnIgnored : Bool := true) : Except TobErr Tob :=
  t.refineAndCoarsen argsort (fun _ => false) cf errorOnIgnored

/-- `make_tree_of_boxes_root`, `/repo/boxtree/tree_of_boxes.py:401-463`.  Simplification: the
bounding box is exactly square (the code accepts `np.allclose` extents and uses the first). -/
def root (dims lvBits : Nat) (lvSigned : Bool) (bboxLo bboxHi : Nat → ℚ) : Tob where
  dims := dims
  lvBits := lvBits
  lvSigned := lvSigned
  rootExtent := bboxHi 0 - bboxLo 0
  nboxes := 1
  center := fun _ i => (bboxLo i + bboxHi i) * (1 / 2)
  parent := fun _ => -1
  child := fun _ _ => 0
  level := fun _ => 0

/-- `TreeOfBoxes.leaf_boxes`, `/repo/boxtree/tree.py:266-269`. -/
def leafBoxes (t : Tob) : List Nat :=
  (List.range t.nboxes).filter fun b => hasFlag (t.flags b) flagIsLeaf

/-- `lfradii` in `make_meshmode_mesh_from_leaves`, `/repo/boxtree/tree_of_boxes.py:483`; the mesh
element of leaf `b` is the cube with corners `center ± radius` (`:490-493`). -/
def leafRadius (t : Tob) (b : Nat) : ℚ := t.rootExtent / 2 / (t.lvPow (t.level b) : ℚ)

/-- One call of the public interface, with the answer `np.argsort` gives in it.
`/repo/boxtree/tree_of_boxes.py:123-152`, `:351-389`. -/
inductive Request where
  | refineAndCoarsen (argsort : List Nat → List Nat) (rf cf : Nat → Bool) (errorOnIgnored : Bool)
  | refine (argsort : List Nat → List Nat) (rf : Nat → Bool)
  | uniformlyRefine (argsort : List Nat → List Nat)
  | coarsen (argsort : List Nat → List Nat) (cf : Nat → Bool) (errorOnIgnored : Bool)

/-- Perform one call.  `/repo/boxtree/tree_of_boxes.py:123-152`, `:351-389`. -/
def perform (t : Tob) : Request → Except TobErr Tob
  | .refineAndCoarsen s rf cf e => t.refineAndCoarsen s rf cf e
  | .refine s rf => t.refineTree s rf
  | .uniformlyRefine s => t.uniformlyRefine s
  | .coarsen s cf e => t.coarsenTree s cf e

/-- A sequence of calls, each applied to the tree returned by the previous one.
`/repo/boxtree/tree_of_boxes.py:123-152`, `:351-389`. -/
def history (t : Tob) : List Request → Except TobErr Tob
  | [] => .ok t
  | r :: rs => do (← t.perform r).history rs

end Tob
end Boxtree
