import Verif.Model.WorkItems
import Verif.Model.LocalTree
import Verif.Model.TranslationClasses

/-!
# Kernels with shared output, work item by work item

`Model/Partition`, `Model/LocalTree`, `Model/TranslationClasses` and `Model/Traversal` describe the kernels that
mark boxes and particles, that find translation classes and that find where levels start by what they leave in
memory.  In these kernels several work items may store in one cell.  Here are the programs of their work
items, launched with any schedule.  Arrays that a launch only loads from are arguments of the programs.
-/

namespace Boxtree.Dist
open Boxtree.Par Tools

/-! ### Box masks -/

/-- `add_parent_boxes_kernel`, `/repo/boxtree/distributed/partition.py:164-171`, on a zeroed output mask. -/
def addParentsRun (σ : List Nat) (t : BoxTree) (current : Nat → Bool) : Nat → Bool :=
  launch (T := fun _ : Nat => Bool) σ t.nboxes (fun i => thenStore (.pure
    (if i ≠ 0 ∧ current i = true then [⟨t.parent i, true⟩] else []))) fun _ => false

/-- The loop of `get_ancestor_boxes_mask`, `/repo/boxtree/distributed/partition.py:186-194`. -/
def ancestorLoopRun (σ : Nat → List Nat) (t : BoxTree) :
    Nat → (Nat → Bool) → (Nat → Bool) → Option (Nat → Bool)
  | n, anc, last =>
      if (List.range t.nboxes).any last then
        match n with
        | 0 => none
        | n + 1 =>
          let new := fun b => addParentsRun (σ n) t last b && !anc b
          ancestorLoopRun σ t n (fun b => anc b || new b) new
      else some anc

/-- `get_ancestor_boxes_mask`, `/repo/boxtree/distributed/partition.py:174-194`. -/
def ancestorMaskRun (σ : Nat → List Nat) (t : BoxTree) (resp : Nat → Bool) : Nat → Bool :=
  (ancestorLoopRun σ t (t.nlevels + 1) (fun _ => false) resp).getD fun _ => false

/-- `add_interaction_list_boxes_kernel`, `/repo/boxtree/distributed/partition.py:135-162`. -/
def addInteractionRun (σ : List Nat) (boxList : List Nat) (mask : Nat → Bool) (lists : BuiltList)
    (src : Nat → Bool) : Nat → Bool :=
  launch (T := fun _ : Nat => Bool) σ boxList.length (fun i => thenStore (.pure
    (if mask (boxList.getD i 0) then (lists.row i).map fun b => ⟨b, true⟩ else []))) src

/-- `get_point_src_boxes_mask`, `/repo/boxtree/distributed/partition.py:197-252`; `σ` has the schedules of the
four launches. -/
def pointSrcMaskRun (σ : Nat → List Nat) (trav : Traversal) (targetsHaveExtent : Bool)
    (resp anc : Nat → Bool) : Nat → Bool :=
  let m := addInteractionRun (σ 0) trav.targetBoxes resp trav.list1 resp
  let m := addInteractionRun (σ 1) trav.ttpBoxes (fun b => resp b || anc b) trav.list4 m
  if targetsHaveExtent then
    let m := match trav.list3Close with
      | some bl => addInteractionRun (σ 2) trav.targetBoxes resp bl m
      | none => m
    match trav.list4Close with
      | some bl => addInteractionRun (σ 3) trav.targetBoxes (fun b => resp b || anc b) bl m
      | none => m
  else m

/-- `get_multipole_src_boxes_mask`, `/repo/boxtree/distributed/partition.py:255-297`; `σ 0` is the schedule of
the launch for list 2, `σ (l + 1)` that for list 3 and level `l`. -/
def multipoleSrcMaskRun (σ : Nat → List Nat) (trav : Traversal) (nlevels : Nat) (resp anc : Nat → Bool) :
    Nat → Bool :=
  let m := addInteractionRun (σ 0) trav.ttpBoxes (fun b => resp b || anc b) trav.list2 fun _ => false
  (List.range nlevels).foldl (fun m l =>
    addInteractionRun (σ (l + 1)) (trav.list3Targets.getD l []) resp (trav.list3.getD l ⟨[], []⟩) m) m

/-- Schedules of the launches of `generate_local_tree`, `/repo/boxtree/distributed/local_tree.py:316-495`. -/
structure LocalSchedule where
  /-- `add_parent_boxes_kernel`, by iterations to go -/
  ancestor : Nat → List Nat
  /-- launches for the mask of point sources -/
  point : Nat → List Nat
  /-- launches for the mask of multipoles -/
  multipole : Nat → List Nat
  /-- `particle_mask_kernel` for sources (`true`) or targets -/
  mask : Bool → List Nat
  /-- `fetch_local_particles_kernel` for sources (`true`) or targets -/
  fetch : Bool → List Nat

/-- `get_box_masks`, `/repo/boxtree/distributed/partition.py:330-357`. -/
def getBoxMasksRun (σ : LocalSchedule) (t : BoxTree) (trav : Traversal) (targetsHaveExtent : Bool)
    (responsibleBoxes : List Nat) : BoxMasks :=
  let resp := listMask responsibleBoxes
  let anc := ancestorMaskRun σ.ancestor t resp
  { responsible := resp
    ancestor := anc
    pointSrc := pointSrcMaskRun σ.point trav targetsHaveExtent resp anc
    multipoleSrc := multipoleSrcMaskRun σ.multipole trav t.nlevels resp anc }

/-! ### Local particles -/

/-- `particle_mask_kernel`, `/repo/boxtree/distributed/local_tree.py:70-91`, on a zeroed mask of `n`
particles. -/
def particleMaskRun (σ : List Nat) (n nboxes : Nat) (boxMask : Nat → Bool) (starts counts : Nat → Nat) :
    List Nat :=
  (List.range n).map (launch (T := fun _ : Nat => Nat) σ nboxes (fun i => thenStore (.pure
    (if boxMask i then (List.range' (starts i) (counts i)).map fun pid => ⟨pid, 1⟩ else []))) fun _ => 0)

/-- `fetch_local_particles_prg`, `/repo/boxtree/distributed/local_tree.py:124-134`. -/
def fetchParticlesRun {α : Type} (σ : List Nat) (zero : α) (n : Nat) (mask scan : List Nat)
    (part : Nat → α) : List α :=
  (List.range (scan.getD n 0)).map (launch (T := fun _ : Nat => α) σ n (fun i => thenStore (.pure
    (if mask.getD i 0 ≠ 0 then [⟨scan.getD i 0, part i⟩] else []))) fun _ => zero)

/-- `construct_local_particles_and_lists`, `/repo/boxtree/distributed/local_tree.py:198-284`. -/
def constructLocalRun {α : Type} (σmask σfetch : List Nat) (zero : α) (n nboxes : Nat)
    (boxMask : Nat → Bool) (part : Nat → α) (starts countsNonchild countsCumul : Nat → Nat) :
    LocalParticles α :=
  let mask := particleMaskRun σmask n nboxes boxMask starts countsNonchild
  let scan := prefixSums 0 mask
  { particles := fetchParticlesRun σfetch zero n mask scan part
    starts := fun b => scan.getD (starts b) 0
    countsNonchild := fun b => if boxMask b then countsNonchild b else 0
    countsCumul := fun b => scan.getD (starts b + countsCumul b) 0 - scan.getD (starts b) 0
    particleIdx := (List.range n).filter fun i => mask.getD i 0 != 0 }

/-- `generate_local_tree`, `/repo/boxtree/distributed/local_tree.py:316-495`, on one rank.  Each work item of
`modify_target_flags_kernel` loads and stores the entry with its own index only. -/
def generateLocalTreeRun (σ : LocalSchedule) (t : BoxTree) (g : GlobalParticles) (trav : Traversal)
    (targetsHaveExtent : Bool) (responsibleBoxes : List Nat) : LocalTree :=
  let masks := getBoxMasksRun σ t trav targetsHaveExtent responsibleBoxes
  let sources := constructLocalRun (σ.mask true) (σ.fetch true) () g.nsources t.nboxes masks.pointSrc
    (fun _ => ()) g.srcStart g.srcCount g.srcCumul
  let targets := constructLocalRun (σ.mask false) (σ.fetch false) () g.ntargets t.nboxes
    masks.responsible (fun _ => ()) g.tgtStart g.tgtCount g.tgtCumul
  { tree := { t with
      flags := modifyTargetFlags targets.countsNonchild targets.countsCumul t.flags
      srcCountCumul := sources.countsCumul }
    sources := sources
    targets := targets
    masks := masks }

end Boxtree.Dist

namespace Boxtree
open Boxtree.Par Tools

/-! ### Translation classes -/

/-- Cells of the output arguments of `TRANSLATION_CLASS_FINDER_TEMPLATE`,
`/repo/boxtree/translation_classes.py:140-143`. -/
inductive ClassLoc where
  /-- `translation_classes[i]` -/
  | cls (i : Nat)
  /-- `translation_class_is_used[c]` -/
  | used (c : ℤ)
  /-- `error_flag[0]` -/
  | error
  deriving DecidableEq

/-- Entries: classes are `int`, the flags that `atomic_or` changes are taken as natural numbers,
`/repo/boxtree/translation_classes.py:140-143`. -/
abbrev ClassVal : ClassLoc → Type
  | .cls _ => ℤ
  | .used _ => Nat
  | .error => Nat

/-- The work item of pair `p`, `/repo/boxtree/translation_classes.py:146-186`; `c` is the class that it
computes, `none` if a check fails. -/
def classItem (p : Nat) (c : Option ℤ) : Prog ClassLoc ClassVal Unit :=
  match c with
  | none => .update .error (fun x : Nat => x ||| 1) (.pure ())
  | some c => .update (.cls p) (fun _ => c) (.update (.used c) (fun x : Nat => x ||| 1) (.pure ()))

/-- The launch of the finder on zeroed arrays, `/repo/boxtree/translation_classes.py:348-369`. -/
def runClasses (σ : List Nat) (n : Nat) (c : Nat → Option ℤ) : Mem ClassVal :=
  launch σ n (fun p => classItem p (c p)) fun
    | .cls _ => (0 : ℤ)
    | .used _ => (0 : Nat)
    | .error => (0 : Nat)

/-- `TranslationClassesBuilder.__call__`, `/repo/boxtree/translation_classes.py:324-440`, with the launch
following a schedule. -/
def buildTranslationClassesRun (σ : List Nat) (t : BoxTree) (n : Nat) (trav : Traversal)
    (perLevel : Bool) (vec : Nat → Nat → Nat → Nat → ℤ := normVec t) (dist : ℤ → Nat → ℚ := classDist t) :
    Except String TranslationClasses :=
  if 1 + 2147483647 < nClassesPerLevel n t.dims then .error "ValueError: would overflow"
  else
    let m := runClasses σ trav.list2.lists.length fun p =>
      classOfPair t n perLevel trav.list2.starts trav.list2.lists trav.ttpBoxes p vec
    if m .error ≠ 0 then .error "ValueError: could not compute translation classes"
    else
      let total := if perLevel then nClassesPerLevel n t.dims * t.nlevels else nClassesPerLevel n t.dims
      let used := fun i : Nat => decide (m (.used i) ≠ 0)
      let st := (List.range total).foldl (fun st i => clsStep t n used st i dist) ClsState.init
      .ok { classes := (List.range trav.list2.lists.length).map fun p => st.map (m (.cls p)).toNat
            distances := st.distances
            levelStarts := Function.update st.levelStarts t.nlevels (some st.count)
            distancesLen := t.dims }

/-! ### Where levels start in a list of boxes -/

/-- The launch of `level_start_box_nrs_extractor`, `/repo/boxtree/traversal.py:361-393`, on the prefilled
result. -/
def levelStartMarksRun (σ : List Nat) (t : BoxTree) (boxList : List Nat) : List Nat :=
  (List.range (t.nlevels + 1)).map (launch (T := fun _ : Nat => Nat) σ boxList.length
    (fun i => thenStore (.pure
      (if isLevelLeading t boxList i then [⟨t.level (boxList.getD i 0), i⟩] else [])))
    fun _ => boxList.length)

/-- `extract_level_start_box_nrs`, `/repo/boxtree/traversal.py:2073-2098`. -/
def extractLevelStartsRun (σ : List Nat) (t : BoxTree) (boxList : List Nat) : List Nat :=
  levelStartPost t.nlevels boxList.length (levelStartMarksRun σ t boxList)

end Boxtree
