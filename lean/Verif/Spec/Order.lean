import Verif.Spec.TreeBuild
import Verif.Model.BuildCall

/-!
# Specification vocabulary: the same particles in another order
-/

namespace Boxtree.Build

/-- The same particles in another order: particle `p` is what was particle `f p`. -/
def Input.reorder (inp : Input) (f : Nat → Nat) : Input :=
  { inp with
    x := fun a p => inp.x a (f p)
    radius := fun p => inp.radius (f p)
    weight := fun p => inp.weight (f p) }

/-- `f` reorders `n` particles; if the first `nsources` of them are the sources and the others the
targets, the sources stay sources. -/
def Reorders (n : Nat) (sourcesAreTargets : Bool) (nsources : Nat) (f : Nat → Nat) : Prop :=
  IsPerm n f ∧ (sourcesAreTargets = false → ∀ p < n, f p < nsources ↔ p < nsources)

/-- The trees `t` and `t'` differ only in the order of the particles in the boxes: `t'` is for the
particles in the order `f`. -/
structure SameUpToOrder (inp : Input) (f : Nat → Nat) (t t' : Built) : Prop where
  /-- boxes, their parents, children, levels, centers, flags, … -/
  tree : t'.tree = t.tree
  stored : t'.stored = t.stored
  /-- bounding boxes -/
  srcMin : t'.srcMin = t.srcMin
  srcMax : t'.srcMax = t.srcMax
  srcMinF : t'.srcMinF = t.srcMinF
  srcMaxF : t'.srcMaxF = t.srcMaxF
  tgtMinF : t'.tgtMinF = t.tgtMinF
  tgtMaxF : t'.tgtMaxF = t.tgtMaxF
  /-- particles per box -/
  nsources : t'.particles.nsources = t.particles.nsources
  ntargets : t'.particles.ntargets = t.particles.ntargets
  srcStart : t'.particles.srcStart = t.particles.srcStart
  srcCount : t'.particles.srcCount = t.particles.srcCount
  srcCumul : t'.particles.srcCumul = t.particles.srcCumul
  tgtStart : t'.particles.tgtStart = t.particles.tgtStart
  tgtCount : t'.particles.tgtCount = t.particles.tgtCount
  tgtCumul : t'.particles.tgtCumul = t.particles.tgtCumul
  /-- a source is in the same boxes, wherever it is in the two orders -/
  sources : ∀ i < t.particles.nsources, ∀ i' < t'.particles.nsources,
    f (t'.particles.userSourceIds i') = t.particles.userSourceIds i → ∀ b < t.tree.nboxes,
      (i' ∈ span t'.particles.srcStart t'.particles.srcCount b ↔
        i ∈ span t.particles.srcStart t.particles.srcCount b) ∧
      (i' ∈ span t'.particles.srcStart t'.particles.srcCumul b ↔
        i ∈ span t.particles.srcStart t.particles.srcCumul b)
  /-- and a target -/
  targets : ∀ j < t.particles.ntargets, ∀ j' < t'.particles.ntargets,
    f (inp.targetNumber j') = inp.targetNumber j → ∀ b < t.tree.nboxes,
      (t'.particles.sortedTargetIds j' ∈ span t'.particles.tgtStart t'.particles.tgtCount b ↔
        t.particles.sortedTargetIds j ∈ span t.particles.tgtStart t.particles.tgtCount b) ∧
      (t'.particles.sortedTargetIds j' ∈ span t'.particles.tgtStart t'.particles.tgtCumul b ↔
        t.particles.sortedTargetIds j ∈ span t.particles.tgtStart t.particles.tgtCumul b)

/-- A call with `ns` sources for the same particles in another order. -/
def Call.reorder (c : Call) (ns : Nat) (f : Nat → Nat) : Call :=
  { c with
    args := { c.args with
      refineWeights := c.args.refineWeights.map fun v =>
        (v.1, (List.range v.2.length).map fun p => v.2.getD (f p) 0) }
    src := fun a i => c.src a (f i)
    tgt := fun a j => c.tgt a (f (ns + j) - ns)
    srcRadius := fun i => c.srcRadius (f i)
    tgtRadius := fun j => c.tgtRadius (f (ns + j) - ns) }

end Boxtree.Build
