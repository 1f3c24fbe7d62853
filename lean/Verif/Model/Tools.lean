import Verif.Model.Csr
import Mathlib.Order.Defs.LinearOrder

/-!
# Device helpers of `boxtree/tools.py`

Parallel element-wise kernels are modelled as a fold over an explicit list `order` of work
items: every permutation of the index range is a possible interleaving of the single-word
writes.  Arrays are lists; an out-of-range read yields the default, an out-of-range write is
dropped, and the theorems about them carry in-range hypotheses.
-/

namespace Boxtree.Tools

/-- The loop of `bsearch`, `/repo/boxtree/tools.py:598-629`.  `arr` is the array, `len` its
length; the loop has no bound in the code, `fuel` bounds the number of iterations and `none`
means that it has not returned yet. -/
def bsearchLoop {α : Type} [LinearOrder α] (arr : Nat → α) (len : Nat) (val : α) :
    Nat → Nat → Nat → Option Nat
  | 0, _, _ => none
  | fuel + 1, l, r =>
      let i := l + (r - l) / 2
      if arr i ≤ val ∧ (i = len - 1 ∨ val < arr (i + 1)) then some i
      else if arr i ≤ val then bsearchLoop arr len val fuel i r
      else bsearchLoop arr len val fuel l i

/-- `bsearch(arr, len, val)`, `/repo/boxtree/tools.py:594-630`.  The C return type is `size_t`
and "not found" is `(size_t) -1`; here it is the integer `-1`. -/
def bsearch {α : Type} [LinearOrder α] (arr : Nat → α) (len : Nat) (val : α) (fuel : Nat) :
    Option Int :=
  if val < arr 0 then some (-1)
  else (bsearchLoop arr len val fuel 0 len).map Int.ofNat

/-- `reverse_index_array(indices, target_size, result_fill_value)`,
`/repo/boxtree/tools.py:82-111`: fill with `fill` (0 if `result_fill_value is None`), then
`multi_put` stores `k` at `indices[k]`, the work items running in the order `order`. -/
def reverseIndexArrayIn (order : List Nat) (indices : List Nat) (targetSize fill : Nat) :
    List Nat :=
  order.foldl (fun r k => r.set (indices.getD k 0) k) (List.replicate targetSize fill)

/-- One work item of `GAPPY_COPY_TPL`, `/repo/boxtree/tools.py:417-438`. -/
def gappyItem {α : Type} [Inhabited α] (ary : List α) (src dst : Option (List Nat))
    (valueMap : Option (α → α)) (out : List α) (i : Nat) : List α :=
  let from_ := match src with
    | some s => s.getD i 0
    | none => i
  let val := ary.getD from_ default
  let val := match valueMap with
    | some f => f val
    | none => val
  let to_ := match dst with
    | some d => d.getD i 0
    | none => i
  out.set to_ val

/-- `GappyCopyAndMapKernel.__call__`, `/repo/boxtree/tools.py:486-534`; `range` is the optional
`range` argument (a slice `0:n`), `mkOrder n` the interleaving chosen for `n` work items.
`map_values` is an array used as a lookup table, here the function `valueMap`; `default` stands
for the zero the result is filled with.  The `debug` assertions are left out. -/
def gappyCopyAndMap {α : Type} [Inhabited α] (mkOrder : Nat → List Nat) (newLen : Nat)
    (ary : List α) (src dst : Option (List Nat)) (valueMap : Option (α → α))
    (range : Option Nat) : Except String (List α) :=
  let n : Except String Nat :=
    match src, dst with
    | none, none => .error "ValueError: must specify at least one of src or dest indices"
    | some s, none => .ok (range.getD s.length)
    | none, some d => .ok (range.getD d.length)
    | some _, some _ =>
        match range with
        | none => .error "ValueError: must supply range when passing both src and dest indices"
        | some k => .ok k
  n.map fun n =>
    (mkOrder n).foldl (gappyItem ary src dst valueMap) (List.replicate newLen default)

/-- `MapValuesKernel.__call__` with `dst=None` (in place), `/repo/boxtree/tools.py:544-584`. -/
def mapValuesInPlace (order : List Nat) (table : Nat → Nat) (src : List Nat) : List Nat :=
  order.foldl (fun a i => a.set i (table (a.getD i 0))) src

/-- `MapValuesKernel.__call__` with a separate `dst`, `/repo/boxtree/tools.py:544-584`. -/
def mapValues (order : List Nat) (table : Nat → Nat) (src dst : List Nat) : List Nat :=
  order.foldl (fun a i => a.set i (table (src.getD i 0))) dst

/-- `realloc_array(new_shape, ary)`, `/repo/boxtree/tools.py:57-79`: a zero array, then the
whole old array is copied to its beginning.  Copying into a smaller buffer is an error. -/
def reallocArray {α : Type} [Inhabited α] (order : List Nat) (newLen : Nat) (ary : List α) :
    Except String (List α) :=
  if newLen < ary.length then .error "LogicError: copy exceeds buffer"
  else .ok (order.foldl (fun a i => a.set i (ary.getD i default)) (List.replicate newLen default))

/-- A one-dimensional mask, `MASK_LIST_COMPRESSOR_BODY` and `__call__`,
`/repo/boxtree/tools.py:648-656,734-737`: only the `lists` part is returned. -/
def compressMask (mask : List Bool) : List Nat :=
  (buildLists ((List.range mask.length).map fun i => if mask.getD i false then [i] else [])).lists

/-- The loop over `j` of `MASK_MATRIX_COMPRESSOR_BODY`, `/repo/boxtree/tools.py:659-670`, with
`n` columns left, the next one being `j`; `buf` is the memory the device pointer refers to
(addressed relative to it, in units of entries). -/
def matrixRow (buf : Int → Bool) (outerStride innerStride : Int) (i : Nat) : Nat → Nat → List Nat
  | 0, _ => []
  | n + 1, j =>
      if buf (outerStride * i + j * innerStride) then
        j :: matrixRow buf outerStride innerStride i n (j + 1)
      else matrixRow buf outerStride innerStride i n (j + 1)

/-- A two-dimensional mask stored in `buf` with the given strides, `__call__`,
`/repo/boxtree/tools.py:738-747`. -/
def compressMatrix (buf : Int → Bool) (nrows ncols : Nat) (outerStride innerStride : Int) :
    BuiltList :=
  buildLists ((List.range nrows).map fun i => matrixRow buf outerStride innerStride i ncols 0)

/-- `MaskCompressorKernel.__call__`, `/repo/boxtree/tools.py:714-749`, by the number of axes. -/
inductive CompressResult
  | list (l : List Nat)
  | csr (bl : BuiltList)

/-- `MaskCompressorKernel.__call__`, `/repo/boxtree/tools.py:734-749`: `shape` and `strides` of
the mask array. -/
def maskCompress (buf : Int → Bool) (shape : List Nat) (strides : List Int) :
    Except String CompressResult :=
  match shape, strides with
  | [n], _ => .ok (.list (compressMask ((List.range n).map fun (i : Nat) => buf i)))
  | [n, m], [s0, s1] => .ok (.csr (compressMatrix buf n m s0 s1))
  | _, _ => .error "ValueError: unsupported dimensionality"

/-- `bbox_t` of `/repo/boxtree/bounding_box.py:35-51`: one min and one max per axis. -/
structure BBox (K : Type) (dim : Nat) where
  min : Fin dim → K
  max : Fin dim → K

/-- `bbox_neutral`, `/repo/boxtree/bounding_box.py:65-73`; `big` is the largest finite value
`FLT_MAX`/`DBL_MAX` of the coordinate type. -/
def bboxNeutral {K : Type} [Neg K] {dim : Nat} (big : K) : BBox K dim :=
  ⟨fun _ => big, fun _ => -big⟩

/-- `bbox_from_particle`, `/repo/boxtree/bounding_box.py:75-88`; `radius` is 0 without radii
(lines 115-119). -/
def bboxFromParticle {K : Type} [Sub K] [Add K] {dim : Nat} (x : Fin dim → K) (radius : K) :
    BBox K dim :=
  ⟨fun a => x a - radius, fun a => x a + radius⟩

/-- `agg_bbox`, `/repo/boxtree/bounding_box.py:90-97`. -/
def aggBbox {K : Type} [LinearOrder K] {dim : Nat} (a b : BBox K dim) : BBox K dim :=
  ⟨fun i => Min.min (a.min i) (b.min i), fun i => Max.max (a.max i) (b.max i)⟩

/-- A schedule of the parallel reduction of `ReductionTemplate`
(`/repo/boxtree/bounding_box.py:54-122`): leaves are the neutral element or one particle,
inner nodes apply `reduce_expr`. -/
inductive RedTree
  | neutral
  | item (i : Nat)
  | node (l r : RedTree)

/-- The particle numbers appearing in a reduction schedule.  Auxiliary to the reductions of
`/repo/boxtree/bounding_box.py:141-163`. -/
def RedTree.items : RedTree → List Nat
  | .neutral => []
  | .item i => [i]
  | .node l r => l.items ++ r.items

/-- `BoundingBoxFinder.__call__` under the reduction schedule `s`,
`/repo/boxtree/bounding_box.py:163-174`.  Floating point `x ± r` is modelled by an ordered
field; the reduction itself only compares. -/
def findBBox {K : Type} [LinearOrder K] [Sub K] [Add K] [Neg K] {dim : Nat} (big : K)
    (x : Nat → Fin dim → K) (radius : Nat → K) : RedTree → BBox K dim
  | .neutral => bboxNeutral big
  | .item i => bboxFromParticle (x i) (radius i)
  | .node l r => aggBbox (findBBox big x radius l) (findBBox big x radius r)

/-- Attributes of `AllReduceCommPattern`, `/repo/boxtree/tools.py:779-788`. -/
structure Comm where
  rank : Nat
  left : Nat
  right : Nat
  midpoint : Nat
deriving DecidableEq, Repr

namespace Comm

/-- `__init__`, `/repo/boxtree/tools.py:779-788`. -/
def init (rank size : Nat) : Comm := ⟨rank, 0, size, size / 2⟩

/-- `sources`, `/repo/boxtree/tools.py:790-812` (the set as a list).  Ranks and bounds are
integers in the code; `right - 1` and the like are rewritten without subtraction so that
naturals compute the same. -/
def sources (c : Comm) : List Nat :=
  if c.rank < c.midpoint then
    let partner := c.midpoint + (c.rank - c.left)
    if c.rank + 1 = c.midpoint ∧ partner = c.right then []
    else if c.rank + 1 = c.midpoint ∧ partner + 2 = c.right then [partner, partner + 1]
    else [partner]
  else
    let partner := c.left + (c.rank - c.midpoint)
    if c.rank + 1 = c.right ∧ partner = c.midpoint then []
    else if c.rank + 1 = c.right ∧ partner + 2 = c.midpoint then [partner, partner + 1]
    else [partner]

/-- `sinks`, `/repo/boxtree/tools.py:814-827`. -/
def sinks (c : Comm) : List Nat :=
  if c.rank < c.midpoint then
    let partner := c.midpoint + (c.rank - c.left)
    [if partner = c.right then partner - 1 else partner]
  else
    let partner := c.left + (c.rank - c.midpoint)
    [if partner = c.midpoint then partner - 1 else partner]

/-- `messages`, `/repo/boxtree/tools.py:829-837`: a half-open range of ranks. -/
def messages (c : Comm) : Nat × Nat :=
  if c.rank < c.midpoint then (c.midpoint, c.right) else (c.left, c.midpoint)

/-- `done`, `/repo/boxtree/tools.py:852-855`. -/
def done (c : Comm) : Bool := c.left + 1 == c.right

/-- `advance`, `/repo/boxtree/tools.py:839-850`. -/
def advance (c : Comm) : Except String Comm :=
  if c.done then .error "RuntimeError: finished communicating"
  else if c.rank < c.midpoint then
    .ok { c with right := c.midpoint, midpoint := (c.midpoint + c.left) / 2 }
  else
    .ok { c with left := c.midpoint, midpoint := (c.midpoint + c.right) / 2 }

/-- The object of rank `rank` after `k` calls of `advance` that did not raise.
`AllReduceCommPattern`, `/repo/boxtree/tools.py:756-853`. -/
def after (rank size : Nat) : Nat → Except String Comm
  | 0 => .ok (init rank size)
  | k + 1 => (after rank size k).bind advance

end Comm

end Boxtree.Tools
