import Verif.Model.TranslationClasses

/-!
# Rotation classes of list 2

Model of `/repo/boxtree/rotation_classes.py`.  The angle of a vector is a parameter: in the code
it is the `float64` `np.arccos(vec[-1] / np.linalg.norm(vec))`; the theorems use the exact real
number.  The level of a pair plays no role here: classes are computed with
`is_translation_per_level=False`.
-/

namespace Boxtree

/-- `vec_gcd`, `/repo/boxtree/rotation_classes.py:93-103`.  The loop starts from `abs(vec[0])`. -/
def vecGcd : List ℤ → Nat
  | [] => 0
  | v :: vs => vs.foldl (fun g e => Nat.gcd g e.natAbs) v.natAbs

/-- `vec //= self.vec_gcd(vec)`, `/repo/boxtree/rotation_classes.py:138`. -/
def reduceVec (v : List ℤ) : List ℤ := v.map fun e => e / (vecGcd v : ℤ)

/-- Local variables of `compute_rotation_classes`.  `/repo/boxtree/rotation_classes.py:114-162`. -/
structure RotState (A : Type) where
  /-- the dictionary `angle_to_rot_class` -/
  dict : List (A × Nat)
  angles : List A
  /-- `translation_class_to_rot_class` -/
  map : Nat → ℤ

/-- Body of the loop, `/repo/boxtree/rotation_classes.py:121-153`.  The failing assertion
`norm != 0` is an error. -/
def rotStep {A : Type} [DecidableEq A] (angle : List ℤ → A) (n dims : Nat) (st : RotState A)
    (cls : Nat) : Except String (RotState A) :=
  let vec := reduceVec (classToVec n dims cls)
  if vec.all (fun e => decide (e = 0)) then .error "AssertionError"
  else
    let a := angle vec
    match st.dict.lookup a with
    | some rot => .ok { st with map := Function.update st.map cls rot }
    | none => .ok { dict := (a, st.angles.length) :: st.dict
                    angles := st.angles ++ [a]
                    map := Function.update st.map cls st.angles.length }

/-- `compute_rotation_classes`, `/repo/boxtree/rotation_classes.py:105-155`. -/
def computeRotationClasses {A : Type} [DecidableEq A] (angle : List ℤ → A) (n dims : Nat)
    (used : List Nat) : Except String (RotState A) :=
  used.foldlM (rotStep angle n dims) ⟨[], [], fun _ => -1⟩

/-- `RotationClassesInfo`, `/repo/boxtree/rotation_classes.py:55-83`. -/
structure RotationClasses (A : Type) where
  /-- `from_sep_siblings_rotation_classes` -/
  classes : List ℤ
  /-- `from_sep_siblings_rotation_class_to_angle` -/
  angles : List A

/-- `RotationClassesBuilder.__call__`, `/repo/boxtree/rotation_classes.py:157-190`, including the
assertion on the number of classes.  `vec` as in `buildTranslationClasses`. -/
def buildRotationClasses {A : Type} [DecidableEq A] (angle : List ℤ → A) (t : BoxTree) (n : Nat)
    (trav : Traversal) (vec : Nat → Nat → Nat → Nat → ℤ := normVec t) :
    Except String (RotationClasses A) :=
  match computeClasses t n false trav.list2.starts trav.list2.lists trav.ttpBoxes vec with
  | .error e => .error e
  | .ok cls =>
    let used := (List.range (nClassesPerLevel n t.dims)).filter fun i : Nat =>
      cls.any fun c => decide (c = (i : ℤ))
    match computeRotationClasses angle n t.dims used with
    | .error e => .error e
    | .ok st =>
      if 2 ^ (t.dims - 1) * (2 * n + 1) ^ t.dims < st.angles.length then
        .error "AssertionError: too many classes"
      else .ok { classes := cls.map fun c => st.map c.toNat, angles := st.angles }

end Boxtree
