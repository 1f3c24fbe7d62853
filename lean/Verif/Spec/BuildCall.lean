import Verif.Model.BuildCall
import Verif.Spec.BuildArgs
import Verif.Spec.Rounding

/-!
# Documented calls of the tree builder

From the docstring of `TreeBuilder.__call__` (`/repo/boxtree/tree_build.py:163-214`).
-/

namespace Boxtree.Build

/-- The rounding of an arithmetic is monotone and has a small relative error. -/
structure Arith.Sound (A : Arith) : Prop where
  rounds : ∃ u ≤ 1 / 40000, Rounds A.fl u
  mono : Monotone A.fl

/-- Position and radius of particle `i`: sources first, then targets.  Particles without radii have
radius zero. -/
structure Call.Documented (c : Call) (ns nt : Nat) (dtype : String) : Prop where
  shapes : c.args.Shapes ns nt dtype
  limit : c.args.Limit (ns + nt)
  dtype : dtype = "float64" ∨ dtype = "float32"
  arith : c.arith.Sound
  /-- coordinates are floating point numbers -/
  coords : ∀ a < c.args.particles.length, ∀ i < ns + nt, c.arith.fl (c.coord ns a i) = c.coord ns a i
  radius_nonneg : ∀ i < ns + nt, 0 ≤ c.rad ns i
  /-- without a bounding box: the particles are not all the same point; with one: it is square,
  given by floating point numbers, and contains the particles with their radii, but no center on its
  upper faces (nor above the lower corner by the rounded extent or more), and its lower corner plus
  its extent gives its upper corner also with rounding -/
  box : match c.bbox with
    | none => (∃ a < c.args.particles.length, ∃ i < ns + nt,
          c.arith.fl (c.coord ns a i - c.rad ns i) ≠ c.arith.fl (c.coord ns a i + c.rad ns i)) ∨
        ∃ a < c.args.particles.length, ∃ i < ns + nt, ∃ j < ns + nt, c.coord ns a i ≠ c.coord ns a j
    | some b => b.length = c.args.particles.length ∧
        ∀ a < c.args.particles.length,
          c.arith.fl (b.getD a 0).1 = (b.getD a 0).1 ∧ c.arith.fl (b.getD a 0).2 = (b.getD a 0).2 ∧
          c.arith.fl ((b.getD a 0).1 + c.arith.fl ((b.getD a 0).2 - (b.getD a 0).1)) =
            (b.getD a 0).2 ∧
          (b.getD a 0).1 < (b.getD a 0).2 ∧
          c.arith.fl ((b.getD a 0).2 - (b.getD a 0).1) =
            c.arith.fl ((b.getD 0 0).2 - (b.getD 0 0).1) ∧
          ∀ i < ns + nt, (b.getD a 0).1 ≤ c.coord ns a i - c.rad ns i ∧
            c.coord ns a i + c.rad ns i ≤ (b.getD a 0).2 ∧
            c.coord ns a i < (b.getD a 0).1 + c.arith.fl ((b.getD a 0).2 - (b.getD a 0).1)

/-- Some particle counts for the refinement. -/
def Call.SomeWeight (c : Call) : Prop :=
  c.args.maxParticlesInBox ≠ none ∨
    ∃ dt w, c.args.refineWeights = some (dt, w) ∧ ∃ x ∈ w, x ≠ 0

/-- The limit is less than the greatest 32-bit integer. -/
def Call.SmallLimit (c : Call) : Prop :=
  (∀ m, c.args.maxParticlesInBox = some m → m < 2 ^ 31 - 1) ∧
    ∀ m, c.args.maxLeafRefineWeight = some m → m < 2 ^ 31 - 1

/-- The bounding box that is made if none is given: its lower corner is the smallest coordinate
along each axis (with radii), and all sides are `1 + 1e-4` times the largest width of the particles,
with a rounding after each operation. -/
structure Input.AutoBox (inp : Input) : Prop where
  least : ∀ a < inp.dims, ∀ p < inp.n, inp.lo a ≤ inp.arith.fl (inp.x a p - inp.radius p)
  lower : ∀ a < inp.dims, ∃ p < inp.n, inp.lo a = inp.arith.fl (inp.x a p - inp.radius p)
  upper : ∀ a < inp.dims, ∀ p < inp.n,
    inp.arith.fl (inp.arith.fl (inp.arith.fl (inp.x a p + inp.radius p) - inp.lo a)
      * inp.arith.fl (1 + 1 / 10 ^ 4)) ≤ inp.ext a
  attained : ∃ a < inp.dims, ∃ p < inp.n,
    inp.arith.fl (inp.arith.fl (inp.arith.fl (inp.x a p + inp.radius p) - inp.lo a)
      * inp.arith.fl (1 + 1 / 10 ^ 4)) = inp.ext a

/-- The input of the level loop consists of the arguments of the call. -/
structure Call.InputOf (c : Call) (ns nt : Nat) (dtype : String) (inp : Input) : Prop where
  dims : inp.dims = c.args.particles.length
  n : inp.n = ns + nt
  nsources : inp.nsources = ns
  sourcesAreTargets : inp.sourcesAreTargets = c.args.targets.isNone
  source : ∀ a, ∀ i < ns, inp.x a i = c.src a i
  target : ∀ a, ∀ j, inp.x a (ns + j) = c.tgt a j
  sourceRadius : ∀ i < ns, inp.radius i = if c.args.sourceRadii.isSome then c.srcRadius i else 0
  targetRadius : ∀ j, inp.radius (ns + j) = if c.args.targetRadii.isSome then c.tgtRadius j else 0
  sourcesHaveExtent : inp.sourcesHaveExtent = c.args.sourceRadii.isSome
  targetsHaveExtent : inp.targetsHaveExtent = c.args.targetRadii.isSome
  norm : inp.haveExtent = true → (inp.l2 = true ↔ c.args.extentNorm = some "l2")
  stickOut : inp.haveExtent = true → c.args.stickOutFactor = some inp.stickOut
  levelRestrict : inp.levelRestrict = true ↔ c.args.kind = "adaptive-level-restricted"
  adaptive : inp.adaptive = false ↔ c.args.kind = "non-adaptive"
  /-- the limit is an integer argument of the kernels -/
  maxParticles : ∀ m, c.args.maxParticlesInBox = some m →
    inp.maxWeight = ⌊m⌋.toNat ∧ ∀ p < ns + nt, inp.weight p = 1
  weights : ∀ dt w m, c.args.maxParticlesInBox = none → c.args.refineWeights = some (dt, w) →
    c.args.maxLeafRefineWeight = some m →
    inp.maxWeight = ⌊m⌋.toNat ∧ ∀ p < ns + nt, (inp.weight p : ℤ) = w.getD p 0
  levels : inp.nlevelsMax = if dtype = "float64" then 106 else 48
  prune : inp.skipPrune = c.skipPrune
  arith : inp.arith = c.arith
  automatic : c.bbox = none → inp.AutoBox
  given : ∀ b, c.bbox = some b → ∀ a < inp.dims,
    inp.lo a = (b.getD a 0).1 ∧ inp.ext a = c.arith.fl ((b.getD a 0).2 - (b.getD a 0).1)

end Boxtree.Build
