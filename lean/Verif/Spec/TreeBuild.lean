import Verif.Model.Morton
import Verif.Spec.Tree
import Mathlib.Analysis.Real.Sqrt

/-!
# Specification vocabulary: what a built tree is

Used in the statements about the tree builder; independent of its kernels.
-/

namespace Boxtree.Build

/-- What the checks of the arguments and the choice of the bounding box guarantee (`C50` in
`Props/BuildArgs.lean`): there is a particle, and the bounding box is a cube of positive size. -/
structure Input.OK (inp : Input) : Prop where
  dims_pos : 0 < inp.dims
  n_pos : 0 < inp.n
  nsources_le : inp.nsources ≤ inp.n
  /-- radii need separate targets -/
  separate : inp.sourcesAreTargets = true → inp.haveExtent = false
  ext_pos : 0 < inp.ext 0
  cube : ∀ a < inp.dims, inp.ext a = inp.ext 0
  radius_nonneg : ∀ p < inp.n, 0 ≤ inp.radius p

/-- Without rounding also the particles with their radii lie in the bounding box, with centers off its
upper faces. -/
structure Input.Placed (inp : Input) : Prop extends inp.OK where
  lower : ∀ a < inp.dims, ∀ p < inp.n, inp.lo a ≤ inp.x a p - inp.radius p
  upper : ∀ a < inp.dims, ∀ p < inp.n, inp.x a p + inp.radius p ≤ inp.lo a + inp.ext a
  off_upper : ∀ a < inp.dims, ∀ p < inp.n, inp.x a p < inp.lo a + inp.ext a

/-- Number of the source `i` (target `j`) in the particles given to the builder: the targets come
after the sources, or are the same particles. -/
def Input.targetNumber (inp : Input) (j : Nat) : Nat :=
  if inp.sourcesAreTargets then j else inp.nsources + j

/-- The level-restricted builder with particle extents can end with boxes that are marked as split
but have no children (`C20_restricted_extent_loses_particles`); the statements about the boxes are
about the other modes. -/
def Input.Regular (inp : Input) : Prop := inp.levelRestrict = false ∨ inp.haveExtent = false

/-- `f` restricted to `0..n` is a permutation of `0..n`. -/
def IsPerm (n : Nat) (f : Nat → Nat) : Prop :=
  (∀ i < n, f i < n) ∧ (∀ i < n, ∀ j < n, f i = f j → i = j) ∧ ∀ j < n, ∃ i < n, f i = j

/-- Positions of the particles of box `b`. -/
def span (start count : Nat → Nat) (b : Nat) : List Nat := List.range' (start b) (count b)

/-- The particles of a box are a contiguous range, first its own, then those of its children in
the order of the children; the root has all, and every particle is owned by exactly one box. -/
structure NestedRanges (t : BoxTree) (n : Nat) (start own cumul : Nat → Nat) : Prop where
  root : span start cumul 0 = List.range n
  nested : ∀ b < t.nboxes, span start cumul b = span start own b ++
    (List.range t.nch).flatMap fun m =>
      if t.child m b = 0 then [] else span start cumul (t.child m b)
  partition : ∀ i < n, ∃ b < t.nboxes, i ∈ span start own b ∧
    ∀ b' < t.nboxes, i ∈ span start own b' → b' = b
  owned_lt : ∀ b < t.nboxes, ∀ i ∈ span start own b, i < n

/-- `y` is in the half-open cube of box `b`. -/
def InBox (t : BoxTree) (b : Nat) (y : Nat → ℚ) : Prop :=
  ∀ a < t.dims, t.center b a - t.rad (t.level b) ≤ y a ∧ y a < t.center b a + t.rad (t.level b)

/-- The ball of radius `r` around `y` (maximum norm) is in box `b`, enlarged by the stick-out
factor. -/
def WithinInf (t : BoxTree) (sigma : ℚ) (b : Nat) (y : Nat → ℚ) (r : ℚ) : Prop :=
  ∀ a < t.dims, t.center b a - (1 + sigma) * t.rad (t.level b) ≤ y a - r ∧
    y a + r ≤ t.center b a + (1 + sigma) * t.rad (t.level b)

/-- The ball of radius `r` around `y` (Euclidean norm) is in the ball around box `b`, enlarged by
the stick-out factor. -/
def WithinL2 (t : BoxTree) (sigma : ℚ) (b : Nat) (y : Nat → ℚ) (r : ℚ) : Prop :=
  Real.sqrt (((List.range t.dims).map fun a => (y a - t.center b a) ^ 2).sum : ℚ) + (r : ℝ)
    ≤ Real.sqrt t.dims * ((1 + sigma) * t.rad (t.level b) : ℚ)

/-- The boxes `lo b`, `hi b` contain the boxes `low a i`, `high a i` of the particles of the subtree
of box `b` and the centers `ctr` of the boxes of the subtree, and no smaller ones do. -/
structure TightAround (t : BoxTree) (ctr : Nat → Nat → ℚ) (start cumul : Nat → Nat)
    (low high : Nat → Nat → ℚ) (lo hi : Nat → Nat → ℚ) : Prop where
  contains : ∀ b < t.nboxes, ∀ a, ∀ i ∈ span start cumul b, lo b a ≤ low a i ∧ high a i ≤ hi b a
  centers : ∀ b < t.nboxes, ∀ a, ∀ c < t.nboxes, t.IsAncOrSelf b c →
    lo b a ≤ ctr c a ∧ ctr c a ≤ hi b a
  greatest : ∀ b < t.nboxes, ∀ a z, (∀ i ∈ span start cumul b, z ≤ low a i) →
    (∀ c < t.nboxes, t.IsAncOrSelf b c → z ≤ ctr c a) → z ≤ lo b a
  least : ∀ b < t.nboxes, ∀ a z, (∀ i ∈ span start cumul b, high a i ≤ z) →
    (∀ c < t.nboxes, t.IsAncOrSelf b c → ctr c a ≤ z) → hi b a ≤ z

/-- The boxes `lo b`, `hi b` contain the particles of the subtree of box `b` with their radii and
the centers of the boxes of the subtree, and no smaller ones do. -/
abbrev TightBoxes (t : BoxTree) (start cumul : Nat → Nat) (x : Nat → Nat → ℚ) (r : Nat → ℚ)
    (lo hi : Nat → Nat → ℚ) : Prop :=
  TightAround t t.center start cumul (fun a i => x a i - r i) (fun a i => x a i + r i) lo hi

/-- Number of particles in the subtree of a box. -/
def Built.population (t : Built) (b : Nat) : Nat := t.particles.srcCumul b + t.particles.tgtCumul b

/-- `t₀` arises from `t₁` by removing the boxes without particles: `old` gives the old numbers of the
boxes that are left, in increasing order; what is known about a box is unchanged, and parents and
children are the old ones, except for children that are removed. -/
structure PrunedFrom (t₁ t₀ : Built) (old : Nat → Nat) : Prop where
  old_lt : ∀ b < t₀.tree.nboxes, old b < t₁.tree.nboxes
  increasing : ∀ b' < t₀.tree.nboxes, ∀ b < b', old b < old b'
  kept : ∀ c < t₁.tree.nboxes, (∃ b < t₀.tree.nboxes, old b = c) ↔ 0 < t₁.population c
  parent : ∀ b < t₀.tree.nboxes, old (t₀.tree.parent b) = t₁.tree.parent (old b)
  child : ∀ b < t₀.tree.nboxes, ∀ m < t₀.tree.nch, t₀.tree.child m b ≠ 0 →
    old (t₀.tree.child m b) = t₁.tree.child m (old b)
  no_child : ∀ b < t₀.tree.nboxes, ∀ m < t₀.tree.nch, t₀.tree.child m b = 0 →
    t₁.tree.child m (old b) = 0 ∨ t₁.population (t₁.tree.child m (old b)) = 0
  nlevels : t₀.tree.nlevels = t₁.tree.nlevels
  level : ∀ b < t₀.tree.nboxes, t₀.tree.level b = t₁.tree.level (old b)
  center : ∀ b < t₀.tree.nboxes, t₀.tree.center b = t₁.tree.center (old b)
  flags : ∀ b < t₀.tree.nboxes, t₀.tree.flags b = t₁.tree.flags (old b)
  sources : ∀ b < t₀.tree.nboxes, t₀.particles.srcStart b = t₁.particles.srcStart (old b) ∧
    t₀.particles.srcCount b = t₁.particles.srcCount (old b) ∧
    t₀.particles.srcCumul b = t₁.particles.srcCumul (old b)
  targets : ∀ b < t₀.tree.nboxes, t₀.particles.tgtStart b = t₁.particles.tgtStart (old b) ∧
    t₀.particles.tgtCount b = t₁.particles.tgtCount (old b) ∧
    t₀.particles.tgtCumul b = t₁.particles.tgtCumul (old b)
  order : t₀.particles.userSourceIds = t₁.particles.userSourceIds ∧
    t₀.particles.sortedTargetIds = t₁.particles.sortedTargetIds

/-- Particle `p` (number among the particles given to the builder) is in the subtree of box `b`, as a
source or as a target. -/
def Built.Holds (t : Built) (inp : Input) (b p : Nat) : Prop :=
  (∃ i ∈ span t.particles.srcStart t.particles.srcCumul b, t.particles.userSourceIds i = p) ∨
  ∃ j < t.particles.ntargets, inp.targetNumber j = p ∧
    t.particles.sortedTargetIds j ∈ span t.particles.tgtStart t.particles.tgtCumul b

/-- The extent of particle `p` does not keep it in box `b`: it would fit into the child of `b` (a
cube of half the size) in which its center is, enlarged by the stick-out factor. -/
def Built.FitsChild (t : Built) (inp : Input) (b p : Nat) : Prop :=
  ∃ c : Nat → ℚ, (∀ a < t.tree.dims,
      (c a = t.tree.center b a - t.tree.rad (t.tree.level b + 1) ∨
        c a = t.tree.center b a + t.tree.rad (t.tree.level b + 1)) ∧
      c a - t.tree.rad (t.tree.level b + 1) ≤ inp.x a p ∧
      inp.x a p < c a + t.tree.rad (t.tree.level b + 1)) ∧
    if inp.l2 then
      Real.sqrt (((List.range t.tree.dims).map fun a => (inp.x a p - c a) ^ 2).sum : ℚ)
          + (inp.radius p : ℝ)
        < Real.sqrt t.tree.dims * ((1 + inp.stickOut) * t.tree.rad (t.tree.level b + 1) : ℚ)
    else ∀ a < t.tree.dims,
      c a - (1 + inp.stickOut) * t.tree.rad (t.tree.level b + 1) ≤ inp.x a p - inp.radius p ∧
      inp.x a p + inp.radius p < c a + (1 + inp.stickOut) * t.tree.rad (t.tree.level b + 1)

/-- The refine weights fit into 32 bits, as they do in the code, and the limit is less than the
greatest 32-bit integer. -/
structure Input.WeightsOK (inp : Input) : Prop where
  weight : ∀ p < inp.n, inp.weight p ≤ 2 ^ 31 - 1
  limit : inp.maxWeight < 2 ^ 31 - 1
  /-- at least one level -/
  levels : 1 ≤ inp.nlevelsMax

/-- The cubes of boxes `b` and `c` have a common point (on the boundary, unless one contains the
other). -/
def Touch (t : BoxTree) (b c : Nat) : Prop :=
  ∀ a < t.dims, |t.center b a - t.center c a| ≤ t.rad (t.level b) + t.rad (t.level c)

/-- `b` is a box without children. -/
def IsLeaf (t : BoxTree) (b : Nat) : Prop := b < t.nboxes ∧ ∀ m < t.nch, t.child m b = 0

end Boxtree.Build
