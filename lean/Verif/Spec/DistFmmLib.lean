import Verif.Model.DistFmmLib
import Verif.Spec.FmmLib
import Verif.Spec.DistFmm

/-!
# Specification vocabulary: the particles of the user in a distributed FMM
-/

namespace Boxtree.FmmLib
open Boxtree Dist

variable {A W D : Type}

/-- The global tree and the arguments of the wranglers hold the particles of the user: `src` are the
sources with their strengths and dipole directions, `x` the targets, both in user order.  The dipole
vectors of a rank are those of its local sources, in the order of the local tree. -/
structure DistHolds (V : World) (w : Wrangler A D) (dip : Nat → Option (Nat → D))
    (weights : Nat → W) (src : Nat → Src W D) (x : Nat → Nat → ℚ) : Prop where
  pos : ∀ j, j < V.g.nsources → w.sources j = (src (V.g.userSourceIds j)).pos
  weight : ∀ j, j < V.g.nsources → (src j).weight = weights j
  dipole : ∀ r, r < V.size → ∀ k, k < (V.localTree r).sources.particleIdx.length →
    (src (V.g.userSourceIds ((V.localTree r).sources.particleIdx.getD k 0))).dipole =
      (dip r).map fun d => d k
  reordered : ∀ r, r < V.size → (dip r).isSome = true → w.dipolesAlreadyReordered = true
  target : ∀ i, i < V.g.ntargets → w.targets (V.g.sortedTargetIds i) = x i

end Boxtree.FmmLib
