import Verif.Spec.BuildCall

/-!
# Area queries on built trees

Conditions on a run of the tree builder.
-/

namespace Boxtree.Build

/-- No box can be split although all its particles stay in it: particles without extents, or the
plain adaptive mode. -/
def Input.SplitsMove (inp : Input) : Prop :=
  inp.haveExtent = false ∨ inp.adaptive = true ∧ inp.levelRestrict = false

/-- The same for the arguments of a call. -/
def Call.SplitsMove (c : Call) : Prop :=
  c.args.sourceRadii = none ∧ c.args.targetRadii = none ∨ c.args.kind = "adaptive"

/-- No particle is in the outer ten-thousandth of the bounding box, by which an automatic bounding
box is stretched, up to rounding errors. -/
def Input.BelowMargin (inp : Input) (u : ℚ) : Prop := ∀ a < inp.dims, ∀ p < inp.n,
  (inp.x a p - inp.lo a) * (1 + 1 / 10 ^ 4) ≤ (1 + 4 * u) * inp.ext a

end Boxtree.Build
