import Verif.Spec.Traversal
import Verif.Spec.Geometry

/-!
# Specification vocabulary: separation criteria

Geometric meaning of the criteria that decide whether a box may use expansions, stated with
quantifiers over axes instead of the accumulated maxima of the code.
-/

namespace Boxtree
open BoxTree

/-- `b` carries sources itself or through descendants. -/
def BoxTree.HasSources (t : BoxTree) (b : Nat) : Prop :=
  t.isSource b = true ∨ t.hasSourceChild b = true

/-- The device's answer to the list-3 criterion, or, in exact arithmetic, one of the three list-3
criteria: along some axis the source box `s` is at least `(2 - 8 eps)` of
its radii away from the (enlarged or exact) target box; for `static_l2`, the Euclidean
center distance `D` satisfies `D ≥ (3 - 8 eps) r_s + sqrt(d) (1+sigma) r_t`, written
without the square root as `D ≥ x` for every `x` whose square is admissible. -/
def FarSmaller (inp : TravInput) (tgt s : Nat) : Prop :=
  let t := inp.tree
  let rs := t.rad (t.level s)
  match inp.tests with
  | .device D => D.sepSmaller tgt s = true
  | .exact =>
    match inp.crit.getD .preciseLinf with
    | .staticLinf => ∃ i, i < t.dims ∧
        (2 - 8 * inp.eps) * rs ≤
          |t.center tgt i - t.center s i| - (1 + inp.stickOut) * t.rad (t.level tgt) - rs
    | .preciseLinf => ∃ i, i < t.dims ∧
        (2 - 8 * inp.eps) * rs ≤
          |(t.tgtMin tgt i + t.tgtMax tgt i) / 2 - t.center s i|
            - (t.tgtMax tgt i - t.tgtMin tgt i) / 2 - rs
    | .staticL2 =>
        let tt := (1 + inp.stickOut) * t.rad (t.level tgt)
        let cc := (3 - 8 * inp.eps) * rs
        let d2 := ((List.range t.dims).map fun i =>
          (t.center tgt i - t.center s i) * (t.center tgt i - t.center s i)).sum
        -- `sqrt d2 ≥ cc + sqrt(d) * tt`, squared twice
        cc * cc + t.dims * (tt * tt) ≤ d2 ∧
          4 * t.dims * (cc * cc) * (tt * tt) ≤ (d2 - cc * cc - t.dims * (tt * tt)) ^ 2

/-- A source box may be used through its multipole expansion at `tgt`. -/
def SepSmaller (inp : TravInput) (tgt s : Nat) : Prop :=
  inp.targetsHaveExtent = true →
    FarSmaller inp tgt s ∧ inp.minNsources.getD 0 ≤ inp.tree.srcCountCumul s

/-- A source box may be used through a local expansion at `b`: without extents always, with
extents if the device says so, or, in exact arithmetic, if along some axis the center distance is at least `3 (1+sigma) r_b + r_s`, up
to the slack `8 eps`. -/
def SepBigger (inp : TravInput) (b s : Nat) : Prop :=
  inp.targetsHaveExtent = true → match inp.tests with
  | .device D => D.sepBigger b (inp.tree.level b) s (inp.tree.level s) = true
  | .exact => ∃ i, i < inp.tree.dims ∧
      (3 * (1 + inp.stickOut) * inp.tree.rad (inp.tree.level b) + inp.tree.rad (inp.tree.level s))
        * (1 - 8 * inp.eps) ≤ |inp.tree.center b i - inp.tree.center s i|

end Boxtree
