import Verif.Model.RotationClasses
import Mathlib.Geometry.Euclidean.Angle.Unoriented.Basic
import Mathlib.Analysis.InnerProductSpace.PiL2

/-!
# Specification vocabulary: angles of translation vectors
-/

namespace Boxtree

/-- The vector of `ℝ^d` with the given coordinates. -/
noncomputable def euclid (d : Nat) (f : Nat → ℝ) : EuclideanSpace ℝ (Fin d) :=
  WithLp.toLp 2 fun i => f i

/-- Unit vector along the last axis of `ℝ^d`. -/
noncomputable def lastAxis (d : Nat) : EuclideanSpace ℝ (Fin d) :=
  euclid d fun i => if i + 1 = d then 1 else 0

/-- The angle between the line from the center of `src` to the center of `tgt` and the last
axis. -/
noncomputable def pairAngle (t : BoxTree) (tgt src : Nat) : ℝ :=
  InnerProductGeometry.angle
    (euclid t.dims fun i => ((t.center tgt i - t.center src i : ℚ) : ℝ)) (lastAxis t.dims)

/-- `np.arccos(vec[-1] / np.linalg.norm(vec))` in exact arithmetic,
`/repo/boxtree/rotation_classes.py:141-143`. -/
noncomputable def exactAngle (v : List ℤ) : ℝ :=
  Real.arccos ((v.getLast?.getD 0 : ℤ) / Real.sqrt ((v.map fun e : ℤ => (e : ℝ) ^ 2).sum))

end Boxtree
