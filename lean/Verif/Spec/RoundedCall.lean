import Verif.Spec.BuildCall
import Verif.Spec.DeviceTests

/-!
# Building a tree and a traversal with the same rounding
-/

namespace Boxtree.Build

/-- The traversal builder is given the tree `t` that the call `c` returned (no masks), and the device
rounds as in the call, on the stored box centers and target bounding boxes; `rt` is its square root. -/
structure Call.TravOf (c : Call) (rt : ℚ → ℚ) (t : Built) (tin : TravInput) : Prop where
  tree : tin.tree = t.tree
  sourcesAreTargets : tin.sourcesAreTargets = c.args.targets.isNone
  nAway : 1 ≤ tin.nAway
  stickOut : 0 ≤ tin.stickOut
  eps : 0 ≤ tin.eps
  eps_small : tin.eps ≤ 1 / 24
  noMask : tin.srcMask = none
  noParentMask : tin.srcParentMask = none
  tests : tin.tests = .device (Device.rounded c.arith.fl rt t.tree (tin.crit.getD .preciseLinf)
    tin.stickOut tin.eps (t.stored 0) t.tgtMinF t.tgtMaxF)

/-- The smallest boxes of the tree are large compared with rounding errors: `M` bounds the
coordinates, `u` is the unit roundoff, `n` the well-separatedness parameter. -/
structure Built.LargeBoxes (t : Built) (u M : ℚ) (n : Nat) : Prop where
  size : ∀ a < t.tree.dims, |t.tree.center 0 a| + t.tree.rootExtent ≤ M
  fine : 5 * (4 * t.tree.nlevels + n + 16) * u * M < t.tree.rootExtent / 2 ^ t.tree.nlevels

end Boxtree.Build
