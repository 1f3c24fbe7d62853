import Verif.Model.Tools
import Verif.Model.Traversal
import Verif.Model.DeviceTests
import Mathlib.Data.Rat.Floor

/-!
# Translation classes of list 2

Model of `/repo/boxtree/translation_classes.py`.  Coordinates are exact rationals
unless the caller passes functions that round; 32-bit overflow of the class numbers is not modelled except for the explicit check the code makes.
-/

namespace Boxtree
open Tools

/-- C `rint` in the default rounding mode: nearest integer, ties to even.  Called at
`/repo/boxtree/translation_classes.py:71-84`. -/
def rint (q : ℚ) : ℤ :=
  let f := ⌊q⌋
  if q - f < 1 / 2 then f
  else if 1 / 2 < q - f then f + 1
  else if f % 2 = 0 then f else f + 1

/-- `get_normalized_translation_vector`, `/repo/boxtree/translation_classes.py:71-84`. -/
def normVec (t : BoxTree) (level src tgt axis : Nat) : ℤ :=
  rint ((t.center tgt axis - t.center src axis) / (2 * t.rad level))

/-- `get_normalized_translation_vector` on a device that rounds, from the stored box centers:
`rint((target_center - source_center) / diam)` with `diam = 2 * LEVEL_TO_RAD(level)`;
`/repo/boxtree/translation_classes.py:71-84`.  Doubling is exact. -/
def normVecF (fl : ℚ → ℚ) (t : BoxTree) (c0 : Nat → ℚ) (level src tgt axis : Nat) : ℤ :=
  rint (fl (fl (t.storedCenter fl c0 tgt axis - t.storedCenter fl c0 src axis) /
    (2 * t.radF fl level)))

/-- One component of the distance vector of a class,
`unit_vector * tree.root_extent / (1 << level)`, `/repo/boxtree/translation_classes.py:418`. -/
def classDist (t : BoxTree) (v : ℤ) (level : Nat) : ℚ := (v : ℚ) * t.rootExtent / (2 : ℚ) ^ level

/-- The same with rounding: the host's operations round by `hf`, storing the result in an array
of `coord_dtype` rounds by `fl`.  `/repo/boxtree/translation_classes.py:418`. -/
def classDistF (fl hf : ℚ → ℚ) (t : BoxTree) (v : ℤ) (level : Nat) : ℚ :=
  fl (hf (hf ((v : ℚ) * t.rootExtent) / (2 : ℚ) ^ level))

/-- `get_translation_class`, `/repo/boxtree/translation_classes.py:104-124`. -/
def translationClass (dims n : Nat) (vec : Nat → ℤ) : ℤ :=
  let dimBound : ℤ := 2 * n + 1
  if (List.range dims).all (fun i => decide (-dimBound ≤ vec i ∧ vec i ≤ dimBound)) then
    ((List.range dims).foldl
      (fun (st : ℤ × ℤ) i => (st.1 + (2 * n + 1 + vec i) * st.2, st.2 * (4 * n + 3))) (0, 1)).1
  else -1

/-- `ntranslation_classes_per_level`, `/repo/boxtree/translation_classes.py:303-305`. -/
def nClassesPerLevel (n dims : Nat) : Nat := (4 * n + 3) ^ dims

/-- One work item of `TRANSLATION_CLASS_FINDER_TEMPLATE`,
`/repo/boxtree/translation_classes.py:147-189`; `none` means that the error flag is raised.
`vec` computes the normalized vector: exactly unless said otherwise. -/
def classOfPair (t : BoxTree) (n : Nat) (perLevel : Bool) (starts lists ttp : List Nat)
    (p : Nat) (vec : Nat → Nat → Nat → Nat → ℤ := normVec t) : Option ℤ :=
  let src := lists.getD p 0
  match bsearch (fun i => starts.getD i 0) (1 + ttp.length) p (1 + ttp.length) with
  | none => none
  | some itarget =>
      let tgt := ttp.getD itarget.toNat 0
      if t.level src ≠ t.level tgt then none
      else
        let cls := translationClass t.dims n (vec (t.level src) src tgt)
        if cls = -1 then none
        else if perLevel then some (cls + t.level src * nClassesPerLevel n t.dims)
        else some cls

/-- `compute_translation_classes`, `/repo/boxtree/translation_classes.py:324-374`, together with
the overflow check of `get_kernel_info` (`:273-275`): the class of every list 2 pair. -/
def computeClasses (t : BoxTree) (n : Nat) (perLevel : Bool) (starts lists ttp : List Nat)
    (vec : Nat → Nat → Nat → Nat → ℤ := normVec t) : Except String (List ℤ) :=
  if 1 + 2147483647 < nClassesPerLevel n t.dims then .error "ValueError: would overflow"
  else
    let cls := (List.range lists.length).map fun p =>
      classOfPair t n perLevel starts lists ttp p vec
    if cls.any Option.isNone then .error "ValueError: could not compute translation classes"
    else .ok (cls.map fun c => c.getD 0)

/-- `translation_class_to_normalized_vector`, `/repo/boxtree/translation_classes.py:307-322`. -/
def classToVec (n : Nat) : Nat → Nat → List ℤ
  | 0, _ => []
  | d + 1, cls => ((cls % (4 * n + 3) : Nat) - (2 * n + 1 : ℤ)) :: classToVec n d (cls / (4 * n + 3))

/-- Local variables of the numbering loop in `__call__`,
`/repo/boxtree/translation_classes.py:389-403`.  `np.empty` entries are `none` until stored. -/
structure ClsState where
  count : Nat
  prevLevel : ℤ
  levelStarts : Nat → Option Nat
  map : Nat → ℤ
  distances : Nat → Option (Nat → ℚ)

/-- State before the loop, `/repo/boxtree/translation_classes.py:389-403`. -/
def ClsState.init : ClsState := ⟨0, -1, fun _ => none, fun _ => -1, fun _ => none⟩

/-- Body of the loop `for i, used in enumerate(translation_class_is_used)`,
`/repo/boxtree/translation_classes.py:404-418`. -/
def clsStep (t : BoxTree) (n : Nat) (used : Nat → Bool) (st : ClsState) (i : Nat)
    (dist : ℤ → Nat → ℚ := classDist t) : ClsState :=
  let num := nClassesPerLevel n t.dims
  let clsWithoutLevel := i % num
  let level := i / num
  let st := if st.prevLevel ≠ level then
      { st with levelStarts := Function.update st.levelStarts level (some st.count),
                prevLevel := level }
    else st
  if used i then
    { st with
      map := Function.update st.map i st.count
      distances := Function.update st.distances st.count
        (some fun axis => dist ((classToVec n t.dims clsWithoutLevel).getD axis 0) level)
      count := st.count + 1 }
  else st

/-- `TranslationClassesInfo`, `/repo/boxtree/translation_classes.py:194-241`. -/
structure TranslationClasses where
  /-- `from_sep_siblings_translation_classes` -/
  classes : List ℤ
  /-- `from_sep_siblings_translation_class_to_distance_vector[:, cls]`; `none`: uninitialised -/
  distances : Nat → Option (Nat → ℚ)
  /-- `from_sep_siblings_translation_classes_level_starts`; `none`: uninitialised -/
  levelStarts : Nat → Option Nat
  /-- first axis length of the distance array -/
  distancesLen : Nat

/-- `nfrom_sep_siblings_translation_classes`, `/repo/boxtree/translation_classes.py:239-241`:
`len` of a two-dimensional array is the length of its first axis. -/
def TranslationClasses.nClasses (tc : TranslationClasses) : Nat := tc.distancesLen

/-- `TranslationClassesBuilder.__call__`, `/repo/boxtree/translation_classes.py:378-440`.
`translation_class_is_used` is set by `atomic_or`, whose order does not matter.  `vec` and `dist`
compute normalized vectors and distances: exactly unless said otherwise. -/
def buildTranslationClasses (t : BoxTree) (n : Nat) (trav : Traversal) (perLevel : Bool)
    (vec : Nat → Nat → Nat → Nat → ℤ := normVec t) (dist : ℤ → Nat → ℚ := classDist t) :
    Except String TranslationClasses :=
  match computeClasses t n perLevel trav.list2.starts trav.list2.lists trav.ttpBoxes vec with
  | .error e => .error e
  | .ok cls =>
    let total := if perLevel then nClassesPerLevel n t.dims * t.nlevels else nClassesPerLevel n t.dims
    let used := fun i : Nat => cls.any fun c => decide (c = i)
    let st := (List.range total).foldl (fun st i => clsStep t n used st i dist) ClsState.init
    .ok { classes := cls.map fun c => st.map c.toNat
          distances := st.distances
          levelStarts := Function.update st.levelStarts t.nlevels (some st.count)
          distancesLen := t.dims }

end Boxtree
