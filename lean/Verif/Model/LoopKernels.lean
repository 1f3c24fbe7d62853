import Verif.Model.Alloc
import Verif.Model.FinishKernels

/-!
# The kernels of the level loop, work item by work item

`Model/Alloc` describes a kernel by the arrays it leaves.  Here are the programs of the work items of the
three elementwise kernels of the level loop: the splitter, the renumberer of the particles and the level
restriction.  The cells of the memory are the entries of the arrays that a kernel changes; arrays that it
only reads are parameters.  `split` and `restrict` run the kernels with any schedule of the work items.
-/

namespace Boxtree.Build
open Boxtree.Par

/-- Cells that the kernels change; arguments of the launches at `/repo/boxtree/tree_build.py:1064-1071`,
`:1104-1109`, `:1181-1188`.  One cell has the coordinates of a center for all axes. -/
inductive Loc where
  /-- `box_parent_ids[b]` -/
  | parent (b : Nat)
  /-- `box_child_ids_mnr_m[b]` -/
  | child (m b : Nat)
  /-- `box_levels[b]` -/
  | lev (b : Nat)
  /-- `box_srcntgt_counts_cumul[b]` -/
  | count (b : Nat)
  /-- `box_srcntgt_starts[b]` -/
  | start (b : Nat)
  /-- `box_start_flags[i]` -/
  | flag (i : Nat)
  /-- the center of box `b` without rounding, not in the code -/
  | center (b : Nat)
  /-- `box_centers[b]` -/
  | stored (b : Nat)
  /-- `new_user_srcntgt_ids[i]` -/
  | newIds (i : Nat)
  /-- `new_srcntgt_box_ids[i]` -/
  | newBox (i : Nat)
  /-- `box_force_split[b]` -/
  | force (b : Nat)
  /-- `have_upper_level_split_box` -/
  | anySplit
  deriving DecidableEq

/-- Types of the entries, `/repo/boxtree/tree_build.py:512-645`. -/
def Loc.T : Loc → Type
  | .parent _ | .child _ _ | .lev _ | .count _ | .start _ | .newIds _ | .newBox _ => Nat
  | .flag _ | .force _ | .anySplit => Bool
  | .center _ | .stored _ => Nat → ℚ

/-- Stores of a work item, e.g. `/repo/boxtree/tree_build_kernels.py:669-672`. -/
abbrev Stores : Type := List ((a : Loc) × a.T)

/-- The part of a work item before its stores, e.g. `/repo/boxtree/tree_build_kernels.py:646-666`. -/
abbrev Loads : Type := Prog Loc Loc.T Stores

namespace Buf
variable (P : Params)

/-- The memory before a launch.  `new_user_srcntgt_ids` and `new_srcntgt_box_ids` are newly allocated,
`/repo/boxtree/tree_build.py:1101-1102`, and `have_upper_level_split_box` is cleared, `:1177`. -/
def mem (B : Buf) : Mem Loc.T
  | .parent b => B.parent b
  | .child m b => B.child m b
  | .lev b => B.lev b
  | .count b => B.count b
  | .start b => B.start b
  | .flag i => B.flag i
  | .center b => B.center b
  | .stored b => B.stored b
  | .newIds _ => (0 : Nat)
  | .newBox _ => (0 : Nat)
  | .force b => B.force b
  | .anySplit => false

/-! ### Splitter -/

/-- Stores for the new box with Morton number `m`, `/repo/boxtree/tree_build_kernels.py:666-708`, with
what has been loaded for box `i`: the counts, the entry of `split_box_ids`, the level, the start and the
center. -/
def childStores (i : Nat) (bins : Bins) (sid l st : Nat) (ce cs : Nat → ℚ) (m : Nat) : Stores :=
  let c := sid - P.nch + m
  let s := st + bins.nonchild + ((List.range m).map bins.pcnt).sum
  [⟨.parent c, i⟩, ⟨.child m i, c⟩, ⟨.lev c, l + 1⟩, ⟨.count c, bins.pcnt m⟩] ++
    (if 0 < bins.pcnt m then [⟨.flag s, true⟩, ⟨.start c, s⟩] else []) ++
    [⟨.center c, fun a =>
        let radius := P.rootExtent / 2 ^ (1 + (l + 1))
        if m / 2 ^ (P.dims - 1 - a) % 2 = 1 then ce a + radius else ce a - radius⟩,
      ⟨.stored c, fun a =>
        let radius := P.fl (P.rootExtent / 2 ^ (1 + (l + 1)))
        if m / 2 ^ (P.dims - 1 - a) % 2 = 1 then P.fl (cs a + radius) else P.fl (cs a - radius)⟩]

/-- A box that is split, `/repo/boxtree/tree_build_kernels.py:663-712`.  The code loads the level, the start
and the center of the box again for each child; here they are loaded once. -/
def splitterBody (level : Nat) (B : Buf) (i : Nat) : Loads :=
  .read (.lev i) fun l => .read (.start i) fun st => .read (.center i) fun ce =>
    .read (.stored i) fun cs => .pure
      ((List.range P.nch).flatMap (childStores P i (B.bins i) (B.splitId P level i) l st ce cs))

/-- `BOX_SPLITTER_KERNEL_TPL`, `/repo/boxtree/tree_build_kernels.py:646-712`.  The level of the box is loaded
only if it has children. -/
def splitter (level : Nat) (B : Buf) (i : Nat) : Loads :=
  let rest := if P.levelRestrict && B.force i then splitterBody P level B i else .pure []
  if B.hasCh i then
    .read (.lev i) fun (l : Nat) => if l + 1 = level then splitterBody P level B i else rest
  else rest

/-- The launch of the splitter, `/repo/boxtree/tree_build.py:1073-1075`, for all boxes below `nnew`, the new
ones among them; then the levels of the padding, `:1089-1090`. -/
def runSplitter (σ : List Nat) (level nnew : Nat) (B : Buf) : Buf :=
  let m := launch σ nnew (fun i => thenStore (splitter P level B i)) B.mem
  { B with
    parent := fun b => m (.parent b)
    child := fun k b => m (.child k b)
    lev := fun b => if B.lstart level + B.newUsed P level level ≤ b ∧ b < nnew then level else m (.lev b)
    count := fun b => m (.count b)
    start := fun b => m (.start b)
    flag := fun i => m (.flag i)
    center := fun b => m (.center b)
    stored := fun b => m (.stored b) }

/-! ### Particles -/

/-- `PARTICLE_RENUMBERER_KERNEL_TPL`, `/repo/boxtree/tree_build_kernels.py:744-818`: `C` are the arrays after
the splitter, `split_box_ids`, `morton_nrs` and `morton_bin_counts` are from the scans before it.  No array
that the kernel changes is loaded. -/
def renumberer (level : Nat) (B C : Buf) (i : Nat) : Stores :=
  let b := C.box i
  if (C.hasCh b && decide (C.lev b + 1 = level)) || (P.levelRestrict && C.force b) then
    let mnr := B.mortonNr P i
    let own := C.bins b
    let tgt := C.start b + getCount (B.scanItem P i) mnr - 1
      + (match mnr with | none => 0 | some _ => own.nonchild)
      + (match mnr with | none => 0 | some m => ((List.range m).map own.pcnt).sum)
    [⟨.newIds tgt, C.ids i⟩,
      ⟨.newBox tgt, match mnr with | none => b | some m => B.splitId P level b - P.nch + m⟩]
  else [⟨.newIds i, C.ids i⟩, ⟨.newBox i, b⟩]

/-- The launches from the bookkeeping to the renumbering of the particles,
`/repo/boxtree/tree_build.py:1030-1118`. -/
def split (σ τ : List Nat) (level nnew : Nat) (B : Buf) : Buf :=
  let C := B.runSplitter P σ level nnew
  let m := launch τ P.n (fun i => thenStore (.pure (renumberer P level B C i))) C.mem
  { C with
    lstart := fun l => if l = level + 1 then nnew else B.lstart l
    used := B.newUsed P level
    leaf := B.newLeaf P level
    ids := fun i => m (.newIds i)
    box := fun i => m (.newBox i) }

/-! ### Level restriction -/

/-- The loop `while (continue_walk)` of `LEVEL_RESTRICT_TPL`,
`/repo/boxtree/tree_build_kernels.py:849-912`, for box `b` of level `u`, with at most `fuel` iterations. -/
def restrictWalk (B : Buf) (t : BoxTree) (u b : Nat) : Nat → WalkState → Loads
  | 0, _ => .pure []
  | fuel + 1, s =>
    if s.cont then
      let c := t.child s.morton s.parent
      let next := restrictWalk B t u b fuel (walkAdvance t.nch s.stack s.parent s.morton)
      let childLevel := s.stack.length + 1
      let hit : Stores := [⟨.force b, true⟩, ⟨.anySplit, true⟩]
      if c = 0 then next
      else if c ≠ b ∧ t.adjF P.fl (B.stored c) childLevel 1 (B.stored b) u = true then
        if B.hasCh c then
          if childLevel ≤ 1 + u then
            restrictWalk B t u b fuel ⟨(s.parent, s.morton) :: s.stack, c, 0, true⟩
          else next
        else if childLevel = 2 + u then .pure hit
        else if childLevel = 1 + u then .read (.force c) fun (v : Bool) => if v then .pure hit else next
        else next
      else next
    else .pure []

/-- `LEVEL_RESTRICT_TPL`, `/repo/boxtree/tree_build_kernels.py:825-912`, for the box with number `i` in the
slice of level `u`.  The walk starts at the root. -/
def restricter (B : Buf) (t : BoxTree) (u i : Nat) : Loads :=
  if B.hasCh (B.lstart u + i) then .pure []
  else restrictWalk P B t u (B.lstart u + i) (walkFuel t) (walkInit 0)

/-- The upward pass over levels `u, u-1, …, 1`, `/repo/boxtree/tree_build.py:1157-1202`; with whether the
first of them has set `have_upper_level_split_box`, that is `did_upper_level_split`. -/
def runUpward (σ : Nat → List Nat) (B : Buf) (t : BoxTree) : Nat → (Nat → Bool) → (Nat → Bool) × Bool
  | 0, force => (force, false)
  | u + 1, force =>
    let m := launch (σ (u + 1)) (B.used (u + 1)) (fun i => thenStore (restricter P B t (u + 1) i))
      { B with force := force }.mem
    let f : Nat → Bool := fun b => m (.force b)
    let any : Bool := m .anySplit
    if any then ((runUpward σ B t u f).1, true) else (f, false)

/-- Level restriction after `level` has been built, `/repo/boxtree/tree_build.py:1138-1202`. -/
def runRestrict (σ : Nat → List Nat) (level : Nat) (B : Buf) : Buf × Bool :=
  let r := B.runUpward P σ (B.tree P level) (level - 2) fun _ => false
  ({ B with force := r.1 }, r.2)

end Buf

/-! ### The loop -/

/-- The turns of the work items in the launches of the tree builder,
`/repo/boxtree/tree_build.py:1073-1802`.  Every level is split once. -/
structure Schedule where
  /-- splitter of a level -/
  split : Nat → List Nat
  /-- renumberer of a level -/
  renumber : Nat → List Nat
  /-- level restriction after a level, for an upper level -/
  restrict : Nat → Nat → List Nat
  /-- after the loop -/
  finish : FinSchedule

namespace Buf

/-- The loop `while level`, `/repo/boxtree/tree_build.py:697-1245`, with kernels that follow a schedule. -/
def runLoop (P : Params) (look : Nat) (σ : Schedule) :
    Nat → Nat → Bool → Buf → Except String (Nat × Buf)
  | 0, _, _, _ => .error "out of fuel"
  | fuel + 1, level, final, B =>
    if P.nlevelsMax ≤ level + 1 then .error "MaxLevelsExceeded"
    else if ¬ B.ScanOK P level then .error "IndexError"
    else
      let B := (B.writeBins P).markSplit P level
      match B.plan P look level final with
      | .fail e => .error e
      | .move cap =>
        if B.MoveOK P look level cap then runLoop P look σ fuel level final (B.move P look level cap)
        else .error "IndexError"
      | .enlarge cap => runLoop P look σ fuel level final (B.enlarge cap)
      | .stop => .ok (level - 1, B)
      | .split nnew =>
        if ¬ B.SplitOK P level nnew then .error "IndexError"
        else
          let B := B.split P (σ.split level) (σ.renumber level) level nnew
          if final then
            if B.oversize ∨ B.used level ≠ 0 then .error "AssertionError" else .ok (level - 1, B)
          else if P.levelRestrict ∧ ¬ B.WalkOK P level then .error "IndexError"
          else
            let r := if P.levelRestrict then B.runRestrict P (σ.restrict level) level else (B, false)
            if r.1.oversize = false then
              if P.levelRestrict ∧ r.2 = true then runLoop P look σ fuel (level + 1) true r.1
              else .ok (level, r.1)
            else runLoop P look σ fuel (level + 1) false { r.1 with oversize := false }

/-- The level loop with its entry condition, `/repo/boxtree/tree_build.py:679`. -/
def runLevels (P : Params) (guess look : Nat) (σ : Schedule) : Except String (Nat × Buf) :=
  if P.maxWeight < totalWeight P then runLoop P look σ (2 * P.nlevelsMax) 1 false (init P guess)
  else .ok (0, init P guess)

end Buf

/-- `TreeBuilder.__call__` from the bounding box on, `/repo/boxtree/tree_build.py:512-1880`, with kernels
that follow a schedule. -/
def Input.buildScheduled (inp : Input) (guess look : Nat) (σ : Schedule) : Except String Built :=
  if guess = 0 then .error "AssertionError"
  else
    match Buf.runLevels inp.params guess look σ with
    | .error e => .error e
    | .ok (L, B) =>
      .ok (finishRun σ.finish inp.params inp.cloud L B.used B.ids
        (prune (B.keeps inp.skipPrune L) (B.flat inp.params L)))

/-- `TreeBuilder.__call__`, `/repo/boxtree/tree_build.py:145-1886`, with kernels that follow a schedule. -/
def Call.runScheduled (c : Call) (guess : Option ℤ) (look : Nat) (σ : Schedule) : Except String Built :=
  c.runBy guess fun g inp => inp.buildScheduled g look σ

end Boxtree.Build
