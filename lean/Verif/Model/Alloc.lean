import Verif.Model.BuildCall

/-!
# The level loop with its flat, growing arrays

`Model/TreeBuild` numbers a box by its level and its position on the level.  The code keeps all
boxes in flat arrays of length `nboxes_guess`.  When they are too short it enlarges them, and when a
level above the newest one needs more room (level restriction) it moves all boxes and renumbers
them; in both cases the trip through the loop starts again (`/repo/boxtree/tree_build.py:796-1005`).
This is the model of that code: `Buf` are the arrays, and the loop stops with `IndexError` if a
kernel would access an entry that does not exist.

* An array is a function on indices; `cap` is the length of the arrays with one entry per box.
* The lists `level_start_box_nrs`, `level_used_box_counts` and `level_leaf_counts` and their copies
  on the device are functions on levels; the loop reads and writes entries that exist only.
* Kernels that scatter: a cell is written by the first index that targets it, as in
  `Model/TreeBuild`.
-/

namespace Boxtree.Build

/-- The variables of the level loop, `/repo/boxtree/tree_build.py:512-675`. -/
structure Buf where
  /-- `nboxes_guess` -/
  cap : Nat
  /-- `level_start_box_nrs` -/
  lstart : Nat → Nat
  /-- `level_used_box_counts` -/
  used : Nat → Nat
  /-- `level_leaf_counts` -/
  leaf : Nat → Int
  /-- `lr_lookbehind_levels` has been assigned -/
  lookSet : Bool
  /-- `user_srcntgt_ids` -/
  ids : Nat → Nat
  /-- `srcntgt_box_ids` -/
  box : Nat → Nat
  /-- `box_start_flags` -/
  flag : Nat → Bool
  /-- `box_srcntgt_starts` -/
  start : Nat → Nat
  /-- `box_srcntgt_counts_cumul` -/
  count : Nat → Nat
  /-- `box_morton_bin_counts` -/
  bins : Nat → Bins
  /-- `box_parent_ids` -/
  parent : Nat → Nat
  /-- `box_child_ids`, by Morton number; zero for no child -/
  child : Nat → Nat → Nat
  /-- centers without rounding, by axis last; no kernel reads them -/
  center : Nat → Nat → ℚ
  /-- `box_centers`, by axis last -/
  stored : Nat → Nat → ℚ
  /-- `box_has_children` -/
  hasCh : Nat → Bool
  /-- `force_split_box` -/
  force : Nat → Bool
  /-- `box_levels` -/
  lev : Nat → Nat
  /-- `have_oversize_split_box` -/
  oversize : Bool

/-- `while nboxes_guess < nboxes_new: nboxes_guess *= 2`, `/repo/boxtree/tree_build.py:918-919`;
`fuel` bounds the number of iterations. -/
def grow (need : Nat) : Nat → Nat → Nat
  | 0, guess => guess
  | fuel + 1, guess => if guess < need then grow need fuel (guess * 2) else guess

/-- `realloc_array`, `/repo/boxtree/tools.py:56-78`: zeros after the `cap` old entries. -/
def extend {α : Type} (zero : α) (cap : Nat) (a : Nat → α) : Nat → α :=
  fun i => if i < cap then a i else zero

/-- `GappyCopyAndMapKernel` with `dst_indices`, `/repo/boxtree/tools.py:417-438`, `:486-534`: the
first `old` entries go to their new places in an array of zeros. -/
def gappy {α : Type} (zero : α) (old : Nat) (dst : Nat → Nat) (a : Nat → α) : Nat → α :=
  fun j => match (List.range old).find? fun i => decide (dst i = j) with
    | some i => a i
    | none => zero

namespace Buf
section
variable (P : Params)

/-- State before the loop, `/repo/boxtree/tree_build.py:515-675`. -/
def init (guess : Nat) : Buf where
  cap := guess
  lstart := fun l => if l = 0 then 0 else 1
  used := fun l => if l = 0 then 1 else 0
  leaf := fun l => if l = 0 then 1 else 0
  lookSet := false
  ids := fun i => i
  box := fun _ => 0
  flag := fun _ => false
  start := fun _ => 0
  count := fun b => if b = 0 then P.n else 0
  bins := fun _ => Bins.zero
  parent := fun _ => 0
  child := fun _ _ => 0
  center := fun b a => if b = 0 then P.rootCenter a else 0
  stored := fun b a => if b = 0 then P.storedRoot a else 0
  hasCh := fun _ => false
  force := fun _ => false
  lev := fun _ => 0
  oversize := false

variable (B : Buf)

/-! ### The scans -/

/-- `morton_nrs[i]`.  `/repo/boxtree/tree_build_kernels.py:439-467`. -/
def mortonNr (i : Nat) : Option Nat := P.mort (B.ids i) (B.lev (B.box i))

/-- `morton_count_scan`, `/repo/boxtree/tree_build_kernels.py:1555-1581`. -/
def scanItem : Nat → Bins
  | 0 => fromParticle P (B.ids 0) (B.lev (B.box 0))
  | i + 1 =>
    let b := fromParticle P (B.ids (i + 1)) (B.lev (B.box (i + 1)))
    if B.flag (i + 1) then b else (scanItem i).add b

/-- Output statement of the scan, `/repo/boxtree/tree_build_kernels.py:480-508`. -/
def writeBins : Buf :=
  { B with bins := fun b =>
      match (List.range P.n).find? fun i =>
        decide (B.box i = b ∧ (scanItem P B i).total P.nch = B.count b) with
      | some i => scanItem P B i
      | none => B.bins b }

/-- Whether box `b` is to be split, `/repo/boxtree/tree_build_kernels.py:577-596`. -/
def want (level b : Nat) : Bool :=
  (decide (B.lev b + 1 = level) &&
    if P.adaptive then decide (P.maxWeight < (B.bins b).weight P.nch)
    else decide ((0 : ℤ) ≤ (B.count b : ℤ) - ((B.bins b).nonchild : ℤ))) ||
  (P.levelRestrict && B.force b)

/-- Side effects of `count_new_boxes_needed`, `/repo/boxtree/tree_build_kernels.py:534-614`, for all
boxes of the levels above `level`, with the padding.  `lr_lookbehind_levels` is assigned if there is
an oversize box and level restriction, `/repo/boxtree/tree_build.py:817-819`. -/
def markSplit (level : Nat) : Buf :=
  let o := B.oversize || (List.range (B.lstart level)).any fun b =>
      B.want P level b && decide (P.maxWeight < (B.bins b).maxWeight P.nch)
  { B with
    hasCh := fun b => B.hasCh b || (decide (b < B.lstart level) && B.want P level b)
    oversize := o
    lookSet := B.lookSet || (P.levelRestrict && o) }

/-- Result of `count_new_boxes_needed`, `/repo/boxtree/tree_build_kernels.py:534-614`. -/
def need (level b : Nat) : Nat :=
  (if b = B.lstart (B.lev b) then B.lstart (B.lev b + 1) + B.used (B.lev b + 1) else 0) +
    (if B.want P level b then P.nch else 0)

/-- `split_box_ids`: the scan of `need`, restarted where the level changes,
`/repo/boxtree/tree_build_kernels.py:630-640`. -/
def splitId (level : Nat) : Nat → Nat
  | 0 => B.need P level 0
  | b + 1 => if B.lev (b + 1) ≠ B.lev b then B.need P level (b + 1)
      else splitId level b + B.need P level (b + 1)

/-- `new_level_used_box_counts`, `/repo/boxtree/tree_build.py:769-776`. -/
def newUsed (level l : Nat) : Nat :=
  if l = 0 then 1
  else if l ≤ level then B.splitId P level (B.lstart l - 1) - B.lstart l
  else 0

/-- `new_level_leaf_counts`, `/repo/boxtree/tree_build.py:778-789`. -/
def newLeaf (level l : Nat) : Int :=
  let diff : Nat → Int := fun l => (B.newUsed P level l : Int) - B.used l
  if l < level then B.leaf l + diff l - diff (l + 1) / (P.nch : Int)
  else if l = level then diff level
  else 0

/-! ### Room for the boxes -/

/-- The boxes reserved on a level for leaves of the `look` levels above that may be split later,
`/repo/boxtree/tree_build.py:820-822` and `:843-846`. -/
def padding (look level l : Nat) : Int :=
  ((List.range (min l look)).map fun j =>
    (2 : Int) ^ ((j + 1) * P.dims) * B.newLeaf P level (l - (j + 1))).sum

/-- `minimal_new_level_length`, `/repo/boxtree/tree_build.py:807`, `:816-821`. -/
def newLength (look level : Nat) : Int :=
  B.newUsed P level level +
    if P.levelRestrict && B.oversize then B.padding P look level level else 0

/-- `curr_upper_level_lengths`, `/repo/boxtree/tree_build.py:804`. -/
def levelLength (l : Nat) : Nat := B.lstart (l + 1) - B.lstart l

/-- `minimal_upper_level_lengths`, `/repo/boxtree/tree_build.py:805-806`. -/
def minLength (level l : Nat) : Nat := max (B.newUsed P level l) (B.levelLength l)

/-- `needs_renumbering`, `/repo/boxtree/tree_build.py:826-827`. -/
def needsRenumbering (level : Nat) : Bool :=
  (List.range level).any fun l => decide (B.levelLength l < B.minLength P level l)

/-- `new_level_start_box_nrs`, `/repo/boxtree/tree_build.py:838-857`. -/
def newStart (look level l : Nat) : Nat :=
  levelStart (fun l => ((B.newUsed P level l : Int) + max (B.padding P look level l)
    ((B.minLength P level l : Int) - B.newUsed P level l)).toNat) l

/-- `nboxes_minimal`, `/repo/boxtree/tree_build.py:823-824`. -/
def nboxesMinimal (look level : Nat) : Nat :=
  (((levelStart (B.minLength P level) level : Nat) : Int) + B.newLength P look level).toNat

/-- `dst_box_id`, `/repo/boxtree/tree_build.py:865-880`. -/
def dst (look level b : Nat) : Nat :=
  match (List.range level).find? fun l =>
    decide (B.lstart l ≤ b ∧ b < B.lstart l + B.levelLength l) with
  | some l => B.newStart P look level l + (b - B.lstart l)
  | none => 0

/-- Moving and renumbering all boxes, `/repo/boxtree/tree_build.py:882-1000`. -/
def move (look level cap : Nat) : Buf :=
  let d := B.dst P look level
  let old := B.lstart level
  let ns := B.newStart P look level
  { B with
    cap := cap
    lstart := fun l => if l ≤ level then ns l else B.lstart l
    bins := gappy Bins.zero old d B.bins
    force := gappy false old d B.force
    start := gappy 0 old d B.start
    count := gappy 0 old d B.count
    hasCh := gappy false old d B.hasCh
    center := fun b a => gappy 0 old d (fun b => B.center b a) b
    stored := fun b a => gappy 0 old d (fun b => B.stored b a) b
    child := fun m => gappy 0 old d fun b => d (B.child m b)
    parent := gappy 0 old d fun b => d (B.parent b)
    lev := fun b => ((List.range level).find? fun l => decide (ns l ≤ b ∧ b < ns (l + 1))).getD 0
    box := fun i => d (B.box i) }

/-- Enlarging the arrays without renumbering, `/repo/boxtree/tree_build.py:921-985`. -/
def enlarge (cap : Nat) : Buf :=
  { B with
    cap := cap
    bins := extend Bins.zero B.cap B.bins
    force := extend false B.cap B.force
    start := extend 0 B.cap B.start
    count := extend 0 B.cap B.count
    hasCh := extend false B.cap B.hasCh
    center := fun b a => extend 0 B.cap (fun b => B.center b a) b
    stored := fun b a => extend 0 B.cap (fun b => B.stored b a) b
    child := fun m => extend 0 B.cap (B.child m)
    parent := extend 0 B.cap B.parent
    lev := extend 0 B.cap B.lev }

/-! ### Splitting -/

/-- `do_split_box`, `/repo/boxtree/tree_build_kernels.py:649-654`, `:752-757`. -/
def doSplit (level b : Nat) : Bool :=
  (B.hasCh b && decide (B.lev b + 1 = level)) || (P.levelRestrict && B.force b)

/-- First child of a split box, `/repo/boxtree/tree_build_kernels.py:666`. -/
def firstChild (level b : Nat) : Nat := B.splitId P level b - P.nch

/-- `new_box_start`, `/repo/boxtree/tree_build_kernels.py:684-691`. -/
def childStart (b m : Nat) : Nat :=
  B.start b + (B.bins b).nonchild + ((List.range m).map (B.bins b).pcnt).sum

/-- The box below `nnew` among whose new children box `c` is.  Inverse of the loop over new children
of `BOX_SPLITTER_KERNEL_TPL`, `/repo/boxtree/tree_build_kernels.py:646-712`. -/
def writer (level nnew c : Nat) : Option Nat :=
  (List.range nnew).find? fun b => B.doSplit P level b &&
    decide (B.firstChild P level b ≤ c) && decide (c < B.firstChild P level b + P.nch)

/-- `BOX_SPLITTER_KERNEL_TPL`, `/repo/boxtree/tree_build_kernels.py:646-712`, for the boxes below
`nnew`, then the levels of the padding, `/repo/boxtree/tree_build.py:1089-1090`. -/
def splitBoxes (level nnew : Nat) : Buf :=
  { B with
    parent := fun c => match B.writer P level nnew c with
      | some b => b
      | none => B.parent c
    child := fun m b =>
      if b < nnew ∧ m < P.nch ∧ B.doSplit P level b = true then B.firstChild P level b + m
      else B.child m b
    lev := fun c =>
      if B.lstart level + B.newUsed P level level ≤ c ∧ c < nnew then level
      else match B.writer P level nnew c with
        | some b => B.lev b + 1
        | none => B.lev c
    count := fun c => match B.writer P level nnew c with
      | some b => (B.bins b).pcnt (c - B.firstChild P level b)
      | none => B.count c
    start := fun c => match B.writer P level nnew c with
      | some b =>
        let m := c - B.firstChild P level b
        if 0 < (B.bins b).pcnt m then B.childStart b m else B.start c
      | none => B.start c
    flag := fun i => B.flag i || (List.range nnew).any fun b =>
      B.doSplit P level b && (List.range P.nch).any fun m =>
        decide (0 < (B.bins b).pcnt m) && decide (B.childStart b m = i)
    center := fun c a => match B.writer P level nnew c with
      | some b =>
        let m := c - B.firstChild P level b
        let radius := P.rootExtent / 2 ^ (1 + (B.lev b + 1))
        if m / 2 ^ (P.dims - 1 - a) % 2 = 1 then B.center b a + radius else B.center b a - radius
      | none => B.center c a
    stored := fun c a => match B.writer P level nnew c with
      | some b =>
        let m := c - B.firstChild P level b
        let radius := P.fl (P.rootExtent / 2 ^ (1 + (B.lev b + 1)))
        if m / 2 ^ (P.dims - 1 - a) % 2 = 1 then P.fl (B.stored b a + radius)
        else P.fl (B.stored b a - radius)
      | none => B.stored c a }

/-- `tgt_particle_idx`, `/repo/boxtree/tree_build_kernels.py:768-795`. -/
def target (level i : Nat) : Nat :=
  let b := B.box i
  if B.doSplit P level b then
    let mnr := B.mortonNr P i
    let own := B.bins b
    B.start b + getCount (B.scanItem P i) mnr - 1
      + (match mnr with | none => 0 | some _ => own.nonchild)
      + (match mnr with | none => 0 | some m => ((List.range m).map own.pcnt).sum)
  else i

/-- New box of particle `i`, `/repo/boxtree/tree_build_kernels.py:805-818`. -/
def newBox (level i : Nat) : Nat :=
  let b := B.box i
  if B.doSplit P level b then
    match B.mortonNr P i with
    | none => b
    | some m => B.firstChild P level b + m
  else b

/-- The particle that is moved to position `j`.  Inverse of `tgt_particle_idx`,
`/repo/boxtree/tree_build_kernels.py:768-795`. -/
def mover (level j : Nat) : Option Nat :=
  (List.range P.n).find? fun i => decide (B.target P level i = j)

/-- One trip from the bookkeeping to the particle renumbering, `/repo/boxtree/tree_build.py:1030-1118`:
the splitter and the renumberer both read the arrays from before the splitter. -/
def splitStep (level nnew : Nat) : Buf :=
  { B.splitBoxes P level nnew with
    lstart := fun l => if l = level + 1 then nnew else B.lstart l
    used := B.newUsed P level
    leaf := B.newLeaf P level
    ids := fun j => match B.mover P level j with
      | some i => B.ids i
      | none => 0
    box := fun j => match B.mover P level j with
      | some i => B.newBox P level i
      | none => 0 }

/-! ### Level restriction -/

/-- The boxes as the level restriction kernel sees them after `level` has been built.  Arguments of
the kernel at `/repo/boxtree/tree_build.py:1180-1190`. -/
def tree (level : Nat) : BoxTree where
  dims := P.dims
  nboxes := B.lstart (level + 1)
  nlevels := level + 1
  rootExtent := P.rootExtent
  parent := B.parent
  child := B.child
  level := B.lev
  center := B.center
  flags := fun _ => 0
  srcCountCumul := fun _ => 0
  tgtMin := fun _ _ => 0
  tgtMax := fun _ _ => 0
  levelStart := B.lstart

/-- The level restriction kernel for the used boxes of level `u`,
`/repo/boxtree/tree_build_kernels.py:828-912`, `/repo/boxtree/tree_build.py:1164-1185`. -/
def restrictLevel (t : BoxTree) (force : Nat → Bool) (u : Nat) : Nat → Bool := fun b =>
  if B.lstart u ≤ b ∧ b < B.lstart u + B.used u then
    force b || (!B.hasCh b && (walk t (restrictVisit P.fl t B.stored B.hasCh force u b) 0 != []))
  else force b

/-- Whether the kernel has set `have_upper_level_split_box` on level `u`.
`/repo/boxtree/tree_build.py:1177-1199`, `/repo/boxtree/tree_build_kernels.py:907`. -/
def anyForced (force : Nat → Bool) (u : Nat) : Bool :=
  (List.range (B.used u)).any fun k => force (B.lstart u + k)

/-- The upward pass over levels `u, u-1, …, 1`, `/repo/boxtree/tree_build.py:1157-1198`. -/
def upward (t : BoxTree) : Nat → (Nat → Bool) → Nat → Bool
  | 0, force => force
  | u + 1, force =>
    let f := B.restrictLevel P t force (u + 1)
    if B.anyForced f (u + 1) then upward t u f else f

/-- Level restriction after `level` has been built, `/repo/boxtree/tree_build.py:1138-1212`. -/
def restrict (level : Nat) : Buf :=
  { B with force := B.upward P (B.tree P level) (level - 2) fun _ => false }

/-- `did_upper_level_split`.  `/repo/boxtree/tree_build.py:1157-1202`. -/
def didSplit (level : Nat) : Bool :=
  decide (0 < level - 2) && B.anyForced B.force (level - 2)

/-! ### Accesses -/

/-- The scans access existing entries: the boxes of the particles, the boxes above `level`, the
particles, and the level arrays up to `level`.  Accesses of
`/repo/boxtree/tree_build_kernels.py:439-508` and `:546-640`. -/
def ScanOK (level : Nat) : Prop :=
  B.lstart level ≤ B.cap ∧ (∀ i < P.n, B.box i < B.cap ∧ B.ids i < P.n) ∧
    (∀ b < B.lstart level, B.lev b < level) ∧ ∀ l < level, 1 ≤ B.lstart (l + 1)

/-- Moving accesses existing entries: the new places exist, and all box numbers that are mapped are
among the old ones.  Accesses of the moves at `/repo/boxtree/tree_build.py:861-1000`. -/
def MoveOK (look level cap : Nat) : Prop :=
  (∀ b < B.lstart level, B.dst P look level b < cap ∧ B.parent b < B.lstart level ∧
    ∀ m < P.nch, B.child m b < B.lstart level) ∧ (∀ i < P.n, B.box i < B.lstart level) ∧
  B.newStart P look level level ≤ cap

/-- The splitter and the renumberer access existing entries.  Accesses of
`/repo/boxtree/tree_build_kernels.py:646-712` and `:744-818`. -/
def SplitOK (level nnew : Nat) : Prop :=
  nnew ≤ B.cap ∧
  (∀ b < nnew, B.doSplit P level b = true → P.nch ≤ B.splitId P level b ∧
    B.splitId P level b ≤ nnew ∧
    ∀ m < P.nch, 0 < (B.bins b).pcnt m → B.childStart b m < P.n) ∧
  ∀ i < P.n, B.target P level i < P.n

/-- The walks of the level restriction kernel access existing entries.  Accesses of
`LEVEL_RESTRICT_TPL`, `/repo/boxtree/tree_build_kernels.py:825-915`. -/
def WalkOK (level : Nat) : Prop :=
  B.lstart (level + 1) ≤ B.cap ∧
    ∀ b < B.lstart (level + 1), ∀ m < P.nch, B.child m b < B.lstart (level + 1)

/-- Decidability of the accesses of `/repo/boxtree/tree_build.py:697-1275`. -/
instance (level : Nat) : Decidable (B.ScanOK P level) := by unfold ScanOK; infer_instance
/-- Decidability of the accesses of `/repo/boxtree/tree_build.py:697-1275`. -/
instance (look level cap : Nat) : Decidable (B.MoveOK P look level cap) := by
  unfold MoveOK; infer_instance
/-- Decidability of the accesses of `/repo/boxtree/tree_build.py:697-1275`. -/
instance (level nnew : Nat) : Decidable (B.SplitOK P level nnew) := by
  unfold SplitOK; infer_instance
/-- Decidability of the accesses of `/repo/boxtree/tree_build.py:697-1275`. -/
instance (level : Nat) : Decidable (B.WalkOK P level) := by unfold WalkOK; infer_instance

end

/-! ### The loop -/

/-- What a trip does after the scans, `/repo/boxtree/tree_build.py:796-1030`. -/
inductive Plan where
  /-- an exception -/
  | fail (e : String)
  /-- move and renumber, with the new length of the arrays -/
  | move (cap : Nat)
  /-- enlarge to the new length -/
  | enlarge (cap : Nat)
  /-- leave the loop, no new boxes -/
  | stop
  /-- split, with `nboxes_new` -/
  | split (nnew : Nat)

/-- The decision, `/repo/boxtree/tree_build.py:796-1030`; `look` is `lr_lookbehind`. -/
def plan (P : Params) (look level : Nat) (final : Bool) (B : Buf) : Plan :=
  if B.needsRenumbering P level then
    if P.levelRestrict = false then .fail "AssertionError"
    else if B.lookSet = false then .fail "UnboundLocalError"
    else if ∀ l ≤ level, B.lstart l = B.newStart P look level l then .fail "AssertionError"
    else
      let nnew := ((B.newStart P look level level : Int) + B.newLength P look level).toNat
      .move (grow nnew nnew B.cap)
  else
    let nnew := B.nboxesMinimal P look level
    if B.cap < nnew then .enlarge (grow nnew nnew B.cap)
    else if B.lstart level = nnew ∧ final = false then
      if P.haveExtent then .stop else .fail "AssertionError"
    else .split nnew

/-- The loop `while level`, `/repo/boxtree/tree_build.py:697-1245`; `fuel` bounds the number of
trips. -/
def loop (P : Params) (look : Nat) : Nat → Nat → Bool → Buf → Except String (Nat × Buf)
  | 0, _, _, _ => .error "out of fuel"
  | fuel + 1, level, final, B =>
    if P.nlevelsMax ≤ level + 1 then .error "MaxLevelsExceeded"
    else if ¬ B.ScanOK P level then .error "IndexError"
    else
      let B := (B.writeBins P).markSplit P level
      match B.plan P look level final with
      | .fail e => .error e
      | .move cap =>
        if B.MoveOK P look level cap then loop P look fuel level final (B.move P look level cap)
        else .error "IndexError"
      | .enlarge cap => loop P look fuel level final (B.enlarge cap)
      | .stop => .ok (level - 1, B)
      | .split nnew =>
        if ¬ B.SplitOK P level nnew then .error "IndexError"
        else
          let B := B.splitStep P level nnew
          if final then
            if B.oversize ∨ B.used level ≠ 0 then .error "AssertionError" else .ok (level - 1, B)
          else if P.levelRestrict ∧ ¬ B.WalkOK P level then .error "IndexError"
          else
            let B := if P.levelRestrict then B.restrict P level else B
            if B.oversize = false then
              if P.levelRestrict ∧ B.didSplit level = true then loop P look fuel (level + 1) true B
              else .ok (level, B)
            else loop P look fuel (level + 1) false { B with oversize := false }

/-- The level loop with its entry condition, `/repo/boxtree/tree_build.py:679`.  Every level is
tried at most twice. -/
def buildLevels (P : Params) (guess look : Nat) : Except String (Nat × Buf) :=
  if P.maxWeight < totalWeight P then loop P look (2 * P.nlevelsMax) 1 false (init P guess)
  else .ok (0, init P guess)

/-! ### After the loop -/

/-- The arrays after the loop with deepest level `L`; `nonchild` is what
`EXTRACT_NONCHILD_SRCNTGT_COUNT_TPL` (`/repo/boxtree/tree_build_kernels.py:978-1006`) finds. -/
def flat (P : Params) (L : Nat) (B : Buf) : Flat where
  nboxes := B.lstart (L + 1)
  level := B.lev
  parent := B.parent
  child := B.child
  start := B.start
  count := B.count
  nonchild := fun b =>
    if P.haveExtent then
      if B.lstart L ≤ b then 0 else if B.count b = 0 then 0 else (B.bins b).nonchild
    else 0
  hasCh := B.hasCh
  center := B.center
  stored := B.stored
  pbox := B.box

/-- Boxes that are kept, `/repo/boxtree/tree_build.py:1328-1392`: those with particles, or with
`skip_prune` those in the used part of a level. -/
def keeps (skipPrune : Bool) (L : Nat) (B : Buf) (b : Nat) : Bool :=
  if skipPrune then (List.range (L + 1)).any fun l =>
    decide (B.lstart l ≤ b ∧ b < B.lstart l + B.used l)
  else decide (B.count b ≠ 0)

end Buf

/-- `TreeBuilder.__call__` from the bounding box on, `/repo/boxtree/tree_build.py:512-1880`, with
flat arrays of `guess` entries at first; `look` is the undocumented argument `lr_lookbehind`.  A
`nboxes_guess` that is not positive fails the assertion in line 542. -/
def Input.buildAlloc (inp : Input) (guess look : Nat) : Except String Built :=
  if guess = 0 then .error "AssertionError"
  else
    match Buf.buildLevels inp.params guess look with
    | .error e => .error e
    | .ok (L, B) =>
      .ok (finishFlat inp.params inp.cloud L B.used B.ids
        (prune (B.keeps inp.skipPrune L) (B.flat inp.params L)))

/-- `TreeBuilder.__call__`, `/repo/boxtree/tree_build.py:145-1886`, with the flat arrays, for the
internal arguments `nboxes_guess` and `lr_lookbehind`. -/
def Call.runAlloc (c : Call) (guess : Option ℤ) (look : Nat) : Except String Built :=
  c.runBy guess fun g inp => inp.buildAlloc g look

end Boxtree.Build
