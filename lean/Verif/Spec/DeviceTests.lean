import Verif.Model.DeviceTests
import Verif.Spec.Rounding
import Verif.Spec.Traversal

/-!
# Specification vocabulary: trees whose boxes are large compared with rounding errors
-/

namespace Boxtree
open BoxTree Build

/-- The smallest boxes of the tree are large compared with rounding errors: `M` bounds the
coordinates, `u` is the unit roundoff, `n` the well-separatedness parameter, and the stored root
center is accurate up to a few roundings. -/
structure FineEnough (t : BoxTree) (c0 : Nat → ℚ) (u M : ℚ) (n : Nat) : Prop where
  size : ∀ a < t.dims, |t.center 0 a| + t.rootExtent ≤ M
  root : ∀ a < t.dims, |c0 a - t.center 0 a| ≤ 5 * u * M
  fine : 5 * (4 * t.nlevels + n + 16) * u * M < t.rad (t.nlevels - 1)

/-- The traversal builder is run on a device that rounds every operation of the geometric tests. -/
structure RoundedTests (inp : TravInput) (fl rt : ℚ → ℚ) (u M : ℚ) (c0 : Nat → ℚ)
    (emin emax : Nat → Nat → ℚ) : Prop where
  tests : inp.tests = .device (Device.rounded fl rt inp.tree (inp.crit.getD .preciseLinf)
    inp.stickOut inp.eps c0 emin emax)
  rounds : Rounds fl u
  wf : inp.tree.WF
  dims : 0 < inp.tree.dims
  fine : FineEnough inp.tree c0 u M inp.nAway
  nAway : 1 ≤ inp.nAway
  stickOut : 0 ≤ inp.stickOut
  eps : 0 ≤ inp.eps
  eps_small : inp.eps ≤ 1 / 24

/-- How much less separated the boxes of lists 3 and 4 can be when the criteria round: at most
`1 + stickOut` times the radius of the smallest box if the tree is `FineEnough`. -/
def sepTol (t : BoxTree) (stickOut u M : ℚ) : ℚ := 20 * (t.nlevels + 4) * (1 + stickOut) * u * M

end Boxtree
