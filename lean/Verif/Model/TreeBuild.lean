import Verif.Model.DeviceTests
import Mathlib.Data.Nat.Count

/-!
# The level loop of the tree builder

Model of the level loop in `TreeBuilder.__call__` (`/repo/boxtree/tree_build.py:515-1245`) and of
its kernels in `/repo/boxtree/tree_build_kernels.py`.

* A box id is a pair of the level and the position on the level.  The code uses the flat number
  `level_start_box_nrs[level] + position`, in arrays that it enlarges and renumbers on demand, with
  padding boxes at the end of a level (`tree_build.py:796-1005`).  `Model/Alloc.lean` is the model of
  that code, and `C66_growing_arrays` shows that it returns the same tree.
* An array is a function on indices; entries that the code never writes keep the initial zero.
* A kernel is applied to all its indices at once.  For the kernels that scatter, a cell is written
  by the first index that targets it; the theorems show that no two indices target the same cell.
* The scans are sequential.  The code runs them in parallel, which gives the same result because
  the operations are associative (`Props/Scans.lean`).
* What happens to a particle in a box is decided by `mort`: the Morton number of the child, or
  `none` for a particle that stays because it sticks out of the child.  `Model/Morton.lean`
  computes it from the coordinates.
* The box centers are there twice: `stored`, the array of the code, computed with the rounding `fl`,
  and `center`, without rounding, which nothing in the loop reads.  Without rounding they are equal
  (`Inv.stored_exact`).
* The overflow of particle counts and of `1 << (1 + level)` is not modelled; the saturation of the
  weights is.
-/

namespace Boxtree.Build

/-- What the level loop reads.  `/repo/boxtree/tree_build.py:697-1275`. -/
structure Params where
  dims : Nat
  /-- `nsrcntgts` -/
  n : Nat
  /-- `level_morton_number` of a particle (user order) that is in a box on the given level, `none`
  for `-1`, `/repo/boxtree/tree_build_kernels.py:289-440` -/
  mort : Nat → Nat → Option Nat
  /-- `refine_weights` -/
  weight : Nat → Nat
  /-- `max_leaf_refine_weight` -/
  maxWeight : Nat
  adaptive : Bool
  levelRestrict : Bool
  /-- `srcntgts_have_extent` -/
  haveExtent : Bool
  nlevelsMax : Nat
  rootExtent : ℚ
  rootCenter : Nat → ℚ
  /-- rounding of the arithmetic operations on centers -/
  fl : ℚ → ℚ := id
  /-- `box_centers[:, 0]`, `/repo/boxtree/tree_build.py:585-588` -/
  storedRoot : Nat → ℚ := rootCenter

/-- `2**dimensions`.  `/repo/boxtree/tree_build_kernels.py:646-712`. -/
def Params.nch (P : Params) : Nat := 2 ^ P.dims

/-- `morton_counts_t`, `/repo/boxtree/tree_build_kernels.py:162-195`.  Without extents the code has
no field `nonchild_srcntgts`; here it is zero then. -/
structure Bins where
  nonchild : Nat
  pcnt : Nat → Nat
  pwt : Nat → Nat

/-- `scan_t_neutral`, `/repo/boxtree/tree_build_kernels.py:251-268`. -/
def Bins.zero : Bins := ⟨0, fun _ => 0, fun _ => 0⟩

/-- `INT_MAX`.  `/repo/boxtree/tree_build_kernels.py:273`. -/
def intMax : Nat := 2 ^ 31 - 1

/-- `my_add_sat`, `/repo/boxtree/tree_build_kernels.py:270-274`, for weights, which are not
negative. -/
def addSat (a b : Nat) : Nat := min (a + b) intMax

/-- `scan_t_add` within a segment, `/repo/boxtree/tree_build_kernels.py:276-302`. -/
def Bins.add (a b : Bins) : Bins :=
  ⟨a.nonchild + b.nonchild, fun m => a.pcnt m + b.pcnt m, fun m => addSat (a.pwt m) (b.pwt m)⟩

/-- All particles counted, `/repo/boxtree/tree_build_kernels.py:482-488`. -/
def Bins.total (nch : Nat) (b : Bins) : Nat :=
  b.nonchild + ((List.range nch).map b.pcnt).sum

/-- `box_refine_weight`, `/repo/boxtree/tree_build_kernels.py:566-571`. -/
def Bins.weight (nch : Nat) (b : Bins) : Nat :=
  (List.range nch).foldl (fun w m => addSat w (b.pwt m)) 0

/-- `max_subbox_refine_weight`, `/repo/boxtree/tree_build_kernels.py:602-607`. -/
def Bins.maxWeight (nch : Nat) (b : Bins) : Nat :=
  (List.range nch).foldl (fun w m => max w (b.pwt m)) 0

/-- The arrays of the level loop, `/repo/boxtree/tree_build.py:515-640`. -/
structure State where
  /-- `user_srcntgt_ids` -/
  ids : Nat → Nat
  /-- `srcntgt_box_ids` -/
  box : Nat → Nat × Nat
  /-- `box_start_flags` -/
  flag : Nat → Bool
  /-- `level_used_box_counts` -/
  used : Nat → Nat
  /-- `box_srcntgt_starts` -/
  start : Nat → Nat → Nat
  /-- `box_srcntgt_counts_cumul` -/
  count : Nat → Nat → Nat
  /-- `box_morton_bin_counts` -/
  bins : Nat → Nat → Bins
  /-- `box_parent_ids`: position on the level above, of the root itself -/
  parent : Nat → Nat → Nat
  /-- `box_child_ids` for a Morton number, level and position: position on the level below -/
  child : Nat → Nat → Nat → Option Nat
  /-- centers without rounding -/
  center : Nat → Nat → Nat → ℚ
  /-- `box_centers` -/
  stored : Nat → Nat → Nat → ℚ
  hasCh : Nat → Nat → Bool
  /-- `force_split_box` -/
  force : Nat → Nat → Bool
  /-- `have_oversize_split_box` -/
  oversize : Bool

section
variable (P : Params)

/-- State before the loop, `/repo/boxtree/tree_build.py:515-675`: one box with all particles. -/
def init : State where
  ids := fun i => i
  box := fun _ => (0, 0)
  flag := fun _ => false
  used := fun l => if l = 0 then 1 else 0
  start := fun _ _ => 0
  count := fun l k => if l = 0 ∧ k = 0 then P.n else 0
  bins := fun _ _ => Bins.zero
  parent := fun _ _ => 0
  child := fun _ _ _ => none
  center := fun l k a => if l = 0 ∧ k = 0 then P.rootCenter a else 0
  stored := fun l k a => if l = 0 ∧ k = 0 then P.storedRoot a else 0
  hasCh := fun _ _ => false
  force := fun _ _ => false
  oversize := false

/-- Scan element of a particle, end of `scan_t_from_particle`,
`/repo/boxtree/tree_build_kernels.py:439-470`. -/
def fromParticle (p l : Nat) : Bins :=
  ⟨if P.mort p l = none then 1 else 0,
   fun m => if P.mort p l = some m then 1 else 0,
   fun m => if P.mort p l = some m then P.weight p else 0⟩

/-- `morton_nrs[i]`.  `/repo/boxtree/tree_build_kernels.py:439-467`. -/
def mortonNr (s : State) (i : Nat) : Option Nat := P.mort (s.ids i) (s.box i).1

/-- `morton_count_scan`, `/repo/boxtree/tree_build_kernels.py:1555-1581`: inclusive scan,
restarted at `box_start_flags`. -/
def scanItem (s : State) : Nat → Bins
  | 0 => fromParticle P (s.ids 0) (s.box 0).1
  | i + 1 =>
    let b := fromParticle P (s.ids (i + 1)) (s.box (i + 1)).1
    if s.flag (i + 1) then b else (scanItem s i).add b

/-- Output statement of the scan, `/repo/boxtree/tree_build_kernels.py:480-508`: the last particle
of a box stores the counts of the box. -/
def writeBins (s : State) : State :=
  { s with bins := fun l k =>
      match (List.range P.n).find? fun i =>
        decide (s.box i = (l, k) ∧ (scanItem P s i).total P.nch = s.count l k) with
      | some i => scanItem P s i
      | none => s.bins l k }

/-- Whether the box is to be split, `/repo/boxtree/tree_build_kernels.py:577-596`. -/
def want (level : Nat) (s : State) (l k : Nat) : Bool :=
  (decide (l + 1 = level) &&
    if P.adaptive then decide (P.maxWeight < (s.bins l k).weight P.nch)
    else decide ((0 : ℤ) ≤ (s.count l k : ℤ) - ((s.bins l k).nonchild : ℤ))) ||
  (P.levelRestrict && s.force l k)

/-- Side effects of `count_new_boxes_needed`, `/repo/boxtree/tree_build_kernels.py:534-614`, run
for all boxes above `level`. -/
def markSplit (level : Nat) (s : State) : State :=
  { s with
    hasCh := fun l k => s.hasCh l k ||
      (decide (l < level) && decide (k < s.used l) && want P level s l k)
    oversize := s.oversize || (List.range level).any fun l => (List.range (s.used l)).any fun k =>
      want P level s l k && decide (P.maxWeight < (s.bins l k).maxWeight P.nch) }

/-- `split_box_ids`, `/repo/boxtree/tree_build_kernels.py:551-559`, `:632-640`: end of the children
of the box, as a position on the level below. -/
def splitEnd (level : Nat) (s : State) (l k : Nat) : Nat :=
  s.used (l + 1) + P.nch * Nat.count (fun k' => want P level s l k' = true) (k + 1)

/-- `new_level_used_box_counts`, `/repo/boxtree/tree_build.py:769-776`. -/
def newUsed (level : Nat) (s : State) (l : Nat) : Nat :=
  if l = 0 then 1
  else if l ≤ level then
    s.used l + P.nch * Nat.count (fun k => want P level s (l - 1) k = true) (s.used (l - 1))
  else 0

/-- `do_split_box`, `/repo/boxtree/tree_build_kernels.py:649-654`, `:779-784`, after `markSplit`. -/
def doSplit (level : Nat) (s : State) (l k : Nat) : Bool :=
  (s.hasCh l k && decide (l + 1 = level)) || (P.levelRestrict && s.force l k)

/-- First child of a split box, `/repo/boxtree/tree_build_kernels.py:666`. -/
def firstChild (level : Nat) (s : State) (l k : Nat) : Nat := splitEnd P level s l k - P.nch

/-- `new_box_start`, `/repo/boxtree/tree_build_kernels.py:684-691`. -/
def childStart (s : State) (l k m : Nat) : Nat :=
  s.start l k + (s.bins l k).nonchild + ((List.range m).map (s.bins l k).pcnt).sum

/-- The box on level `l` among whose new children position `c` is.  Inverse of the loop over new
children of `BOX_SPLITTER_KERNEL_TPL`, `/repo/boxtree/tree_build_kernels.py:646-712`. -/
def writer (level : Nat) (s : State) (l c : Nat) : Option Nat :=
  (List.range (s.used l)).find? fun k =>
    doSplit P level s l k && decide (firstChild P level s l k ≤ c) &&
      decide (c < firstChild P level s l k + P.nch)

/-- `BOX_SPLITTER_KERNEL_TPL`, `/repo/boxtree/tree_build_kernels.py:646-724`.  The centers move by
half the child's size, towards the upper side on axis `a` if bit `dims-1-a` of the Morton number is
set. -/
def splitBoxes (level : Nat) (s : State) : State :=
  { s with
    parent := fun l c => if l = 0 then s.parent l c else
      match writer P level s (l - 1) c with
      | some k => k
      | none => s.parent l c
    child := fun m l k =>
      if l < level ∧ k < s.used l ∧ m < P.nch ∧ doSplit P level s l k = true then
        some (firstChild P level s l k + m)
      else s.child m l k
    count := fun l c => if l = 0 then s.count l c else
      match writer P level s (l - 1) c with
      | some k => (s.bins (l - 1) k).pcnt (c - firstChild P level s (l - 1) k)
      | none => s.count l c
    start := fun l c => if l = 0 then s.start l c else
      match writer P level s (l - 1) c with
      | some k =>
        let m := c - firstChild P level s (l - 1) k
        if 0 < (s.bins (l - 1) k).pcnt m then childStart s (l - 1) k m else s.start l c
      | none => s.start l c
    flag := fun i => s.flag i || (List.range level).any fun l => (List.range (s.used l)).any fun k =>
      doSplit P level s l k && (List.range P.nch).any fun m =>
        decide (0 < (s.bins l k).pcnt m) && decide (childStart s l k m = i)
    center := fun l c a => if l = 0 then s.center l c a else
      match writer P level s (l - 1) c with
      | some k =>
        let m := c - firstChild P level s (l - 1) k
        let radius := P.rootExtent / 2 ^ (1 + l)
        if m / 2 ^ (P.dims - 1 - a) % 2 = 1 then s.center (l - 1) k a + radius
        else s.center (l - 1) k a - radius
      | none => s.center l c a
    stored := fun l c a => if l = 0 then s.stored l c a else
      match writer P level s (l - 1) c with
      | some k =>
        let m := c - firstChild P level s (l - 1) k
        let radius := P.fl (P.rootExtent / 2 ^ (1 + l))
        if m / 2 ^ (P.dims - 1 - a) % 2 = 1 then P.fl (s.stored (l - 1) k a + radius)
        else P.fl (s.stored (l - 1) k a - radius)
      | none => s.stored l c a }

/-- `get_count`, `/repo/boxtree/tree_build_kernels.py:731-757`. -/
def getCount (b : Bins) (m : Option Nat) : Nat :=
  match m with
  | none => b.nonchild
  | some m => b.pcnt m

/-- `tgt_particle_idx`, `/repo/boxtree/tree_build_kernels.py:795-823`; a particle of a box that is
not split stays. -/
def target (level : Nat) (s : State) (i : Nat) : Nat :=
  let l := (s.box i).1
  let k := (s.box i).2
  if doSplit P level s l k then
    let mnr := mortonNr P s i
    let own := s.bins l k
    s.start l k + getCount (scanItem P s i) mnr - 1
      + (match mnr with | none => 0 | some _ => own.nonchild)
      + (match mnr with | none => 0 | some m => ((List.range m).map own.pcnt).sum)
  else i

/-- New box of particle `i`, `/repo/boxtree/tree_build_kernels.py:825-845`. -/
def newBox (level : Nat) (s : State) (i : Nat) : Nat × Nat :=
  let l := (s.box i).1
  let k := (s.box i).2
  if doSplit P level s l k then
    match mortonNr P s i with
    | none => (l, k)
    | some m => (l + 1, firstChild P level s l k + m)
  else (l, k)

/-- The particle that is moved to position `j`.  Inverse of `tgt_particle_idx`,
`/repo/boxtree/tree_build_kernels.py:768-795`. -/
def mover (level : Nat) (s : State) (j : Nat) : Option Nat :=
  (List.range P.n).find? fun i => decide (target P level s i = j)

/-- `PARTICLE_RENUMBERER_KERNEL_TPL`, `/repo/boxtree/tree_build_kernels.py:760-848`: the particles
and their boxes are scattered into zeroed arrays. -/
def renumber (level : Nat) (s : State) : State :=
  { s with
    ids := fun j => match mover P level s j with
      | some i => s.ids i
      | none => 0
    box := fun j => match mover P level s j with
      | some i => newBox P level s i
      | none => (0, 0) }

/-- One trip through the loop up to the particle renumbering: the splitter and the renumberer both
read the arrays from before the splitter.  `/repo/boxtree/tree_build.py:697-1120`. -/
def splitStep (level : Nat) (s : State) : State :=
  let s1 := splitBoxes P level s
  let s2 := renumber P level s
  { s1 with ids := s2.ids, box := s2.box, used := newUsed P level s }

/-! ### Level restriction -/

/-- Number of boxes above level `l`.  `level_start_box_nrs`, `/repo/boxtree/tree_build.py:697-1275`.
-/
def levelStart (used : Nat → Nat) (l : Nat) : Nat := ((List.range l).map used).sum

/-- Level and position of a box number, if `nlevels` levels from `l` on are numbered one after the
other.  Auxiliary: the code has flat box numbers throughout, `/repo/boxtree/tree_build.py:697-1275`.
-/
def locate (used : Nat → Nat) : Nat → Nat → Nat → Nat × Nat
  | 0, l, b => (l, b)
  | nlevels + 1, l, b => if b < used l then (l, b) else locate used nlevels (l + 1) (b - used l)

/-- The boxes of a state with `nlevels` levels as a tree with flat box numbers.  Arguments of the
kernel at `/repo/boxtree/tree_build.py:1180-1190`. -/
def toTree (nlevels : Nat) (s : State) : BoxTree where
  dims := P.dims
  nboxes := levelStart s.used nlevels
  nlevels := nlevels
  rootExtent := P.rootExtent
  parent := fun b =>
    let p := locate s.used nlevels 0 b
    if p.1 = 0 then 0 else levelStart s.used (p.1 - 1) + s.parent p.1 p.2
  child := fun m b =>
    let p := locate s.used nlevels 0 b
    match s.child m p.1 p.2 with
    | some c => levelStart s.used (p.1 + 1) + c
    | none => 0
  level := fun b => (locate s.used nlevels 0 b).1
  center := fun b a =>
    let p := locate s.used nlevels 0 b
    s.center p.1 p.2 a
  flags := fun _ => 0
  srcCountCumul := fun _ => 0
  tgtMin := fun _ _ => 0
  tgtMax := fun _ _ => 0
  levelStart := levelStart s.used

/-- Body of the walk of the level restriction kernel for box `b` on level `u`,
`/repo/boxtree/tree_build_kernels.py:848-925`: what is appended stands for setting
`box_force_split`.  The code ends the walk there; here it goes on, without further effect. -/
def restrictVisit (fl : ℚ → ℚ) (t : BoxTree) (stored : Nat → Nat → ℚ) (has : Nat → Bool)
    (force : Nat → Bool) (u b : Nat) (depth c : Nat) : List Unit × Bool :=
  let childLevel := depth + 1
  if c ≠ b ∧ t.adjF fl (stored c) childLevel 1 (stored b) u = true then
    if has c then ([], decide (childLevel ≤ 1 + u))
    else if childLevel = 2 + u ∨ (childLevel = 1 + u ∧ force c = true) then ([()], false)
    else ([], false)
  else ([], false)

/-- The level restriction kernel for the boxes on level `u`, `/repo/boxtree/tree_build.py:1151-1170`. -/
def restrictLevel (t : BoxTree) (s : State) (force : Nat → Nat → Bool) (u : Nat) :
    Nat → Nat → Bool := fun l k =>
  if l = u then
    let loc := fun b => locate s.used t.nlevels 0 b
    force l k || (decide (k < s.used u) && !s.hasCh u k &&
      (walk t (restrictVisit P.fl t (fun b => s.stored (loc b).1 (loc b).2)
        (fun b => s.hasCh (loc b).1 (loc b).2) (fun b => force (loc b).1 (loc b).2) u
        (levelStart s.used u + k)) 0 != []))
  else force l k

/-- Whether the kernel has set `have_upper_level_split_box` on level `u`.
`/repo/boxtree/tree_build.py:1177-1199`, `/repo/boxtree/tree_build_kernels.py:907`. -/
def anyForced (s : State) (force : Nat → Nat → Bool) (u : Nat) : Bool :=
  (List.range (s.used u)).any (force u)

/-- The upward pass over levels `u, u-1, …, 1`, `/repo/boxtree/tree_build.py:1131-1185`: ends at
the first level without a marked box. -/
def upward (t : BoxTree) (s : State) : Nat → (Nat → Nat → Bool) → Nat → Nat → Bool
  | 0, force => force
  | u + 1, force =>
    let f := restrictLevel P t s force (u + 1)
    if anyForced s f (u + 1) then upward t s u f else f

/-- Level restriction after level `level` has been built, `/repo/boxtree/tree_build.py:1115-1185`. -/
def restrict (level : Nat) (s : State) : State :=
  { s with force := upward P (toTree P (level + 1) s) s (level - 2) fun _ _ => false }

/-- `did_upper_level_split`.  `/repo/boxtree/tree_build.py:1157-1202`. -/
def didSplit (level : Nat) (s : State) : Bool :=
  decide (0 < level - 2) && anyForced s s.force (level - 2)

/-- The loop `while level`, `/repo/boxtree/tree_build.py:700-1245`; `fuel` bounds the number of
trips.  The result is the deepest level with the state.  `nboxes_new` equals the start of the new
level exactly if no box on the level above is split: padding is only added if a split box has an
oversize child (`:817`), and such a box is on the level above. -/
def loop : Nat → Nat → Bool → State → Except String (Nat × State)
  | 0, _, _, _ => .error "out of fuel"
  | fuel + 1, level, final, s =>
    if P.nlevelsMax ≤ level + 1 then .error "MaxLevelsExceeded"
    else
      let s := markSplit P level (writeBins P s)
      if newUsed P level s level = 0 ∧ final = false then
        if P.haveExtent then .ok (level - 1, s) else .error "AssertionError"
      else
        let s := splitStep P level s
        if final then
          if s.oversize ∨ s.used level ≠ 0 then .error "AssertionError" else .ok (level - 1, s)
        else
          let s := if P.levelRestrict then restrict P level s else s
          if s.oversize = false then
            if P.levelRestrict ∧ didSplit level s = true then loop fuel (level + 1) true s
            else .ok (level, s)
          else loop fuel (level + 1) false { s with oversize := false }

/-- `total_refine_weight`.  `/repo/boxtree/tree_build.py:446-448`. -/
def totalWeight : Nat := ((List.range P.n).map P.weight).sum

/-- The level loop with its entry condition, `/repo/boxtree/tree_build.py:679`: no trip if all
particles fit into the root. -/
def buildLevels : Except String (Nat × State) :=
  if P.maxWeight < totalWeight P then loop P P.nlevelsMax 1 false (init P)
  else .ok (0, init P)

end
end Boxtree.Build
