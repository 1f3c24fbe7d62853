import Verif.Model.FmmLib
import Verif.Spec.Lists
import Verif.Spec.Fmm
import Mathlib.Algebra.BigOperators.Group.Multiset.Defs
import Mathlib.Order.Interval.Finset.Defs
import Mathlib.Data.Int.Interval
import Mathlib.Data.Finset.Prod

/-!
# Specification vocabulary: what the routines of an expansion library have to do

`Respects` says, routine by routine, what it means that a library keeps three relations: "`v` is a
multipole (local) expansion of the sources `S` for box `b`" and "`p` is the potential of the
sources `S` at target `i`".  Every routine has to preserve them when it is called with the centers,
scalings and orders of the boxes involved, in the geometric situation in which an FMM may call it.

Two choices of the relations are used.  `Exact`: the potentials are exactly `Σ_j K i j`.  `Chain`:
the potentials are sums of one number per source, each obtained from that source alone by an
admissible sequence of calls.
-/

namespace Boxtree.FmmLib
open Boxtree

variable {A W D C P : Type}

/-- The numbers of the coefficients of an expansion of order `p`, as the Fortran routines declare
them: `0:p` for the Laplace kernel in two dimensions, `-p:p` for Helmholtz in two dimensions,
`0:p` times `-p:p` for both in three dimensions. -/
def coefficients (k : Kernel) (dims p : Nat) : Finset (ℤ × ℤ) :=
  match dims, k with
  | 2, .laplace => Finset.Icc 0 (p : ℤ) ×ˢ {0}
  | 2, .helmholtz => Finset.Icc (-p : ℤ) p ×ˢ {0}
  | _, _ => Finset.Icc 0 (p : ℤ) ×ˢ Finset.Icc (-p : ℤ) p

/-- User numbers of the sources stored in box `b` itself. -/
def sourcesOf (q : Particles) (b : Nat) : List Nat :=
  (List.range (q.srcCount b)).map fun k => q.userSourceIds (q.srcStart b + k)

/-- User target `i` is stored in box `b` itself. -/
def TargetIn (q : Particles) (b i : Nat) : Prop :=
  q.tgtStart b ≤ q.sortedTargetIds i ∧ q.sortedTargetIds i < q.tgtStart b + q.tgtCount b

/-- An expansion library keeps the relations `MP`, `LOC` and `PV` on a tree: `src j` are the sources
and `x i` the target points in user order, `angle b s` is the rotation angle that belongs to the
pair `b`, `s`. -/
structure Respects [AddCommMonoid C] [AddCommMonoid P] (inp : TravInput) (q : Particles)
    (R : Lib A W D C P) (w : Wrangler A D) (src : Nat → Src W D) (x : Nat → Nat → ℚ)
    (angle : Nat → Nat → A) (PV : Nat → P → Multiset Nat → Prop)
    (MP LOC : Nat → List C → Multiset Nat → Prop) : Prop where
  /-- potentials add up -/
  pv_zero : ∀ i, PV i 0 0
  pv_add : ∀ i p S p' S', PV i p S → PV i p' S' → PV i (p + p') (S + S')
  /-- expansions have the size of their level, form a sum, and are zero without sources -/
  mp_len : ∀ b v S, MP b v S → v.length = w.size inp.tree (inp.tree.level b)
  mp_zero : ∀ b, MP b (List.replicate (w.size inp.tree (inp.tree.level b)) 0) 0
  mp_add : ∀ b v S v' S', MP b v S → MP b v' S' → MP b (List.zipWith (· + ·) v v') (S + S')
  loc_len : ∀ b v S, LOC b v S → v.length = w.size inp.tree (inp.tree.level b)
  loc_zero : ∀ b, LOC b (List.replicate (w.size inp.tree (inp.tree.level b)) 0) 0
  loc_add : ∀ b v S v' S', LOC b v S → LOC b v' S' → LOC b (List.zipWith (· + ·) v v') (S + S')
  /-- multipole expansion of the sources of a box about its center -/
  formmp : ∀ b, b < inp.tree.nboxes → inp.tree.isSource b = true →
    MP b (R.formmp (levelToRscale inp.tree w (inp.tree.level b)) ((sourcesOf q b).map src)
      (inp.tree.center b) (w.order (inp.tree.level b))) (sourcesOf q b)
  /-- translation of a multipole expansion to the parent box -/
  mpmp : ∀ c, c < inp.tree.nboxes → c ≠ 0 → ∀ v S, MP c v S →
    MP (inp.tree.parent c)
      (R.mpmp (levelToRscale inp.tree w (inp.tree.level c)) (inp.tree.center c) v
        (levelToRscale inp.tree w (inp.tree.level c - 1)) (inp.tree.center (inp.tree.parent c))
        (w.order (inp.tree.level c - 1)) (radius inp.tree (inp.tree.level c - 1))) S
  /-- conversion of a multipole expansion to a local expansion of a box on the same level that is
  not touched by the enlarged box, although the parents are near each other, with or without the
  rotation matrices of the pair -/
  mploc : ∀ b s, b < inp.tree.nboxes → s < inp.tree.nboxes →
    inp.tree.level s = inp.tree.level b → ¬ inp.tree.TouchEnlarged (inp.nAway - 1) b s →
    inp.tree.TouchEnlarged (inp.nAway - 1) (inp.tree.parent b) (inp.tree.parent s) →
    ∀ rot, (rot = none ∨ rot = some (angle b s)) → ∀ v S, MP s v S →
    LOC b (R.mploc rot (levelToRscale inp.tree w (inp.tree.level b)) (inp.tree.center s) v
      (levelToRscale inp.tree w (inp.tree.level b)) (inp.tree.center b)
      (w.order (inp.tree.level b)) (radius inp.tree (inp.tree.level b))) S
  /-- local expansion of sources in a near box of at least the same size that is separated from
  `b`, but not from the parent of `b` -/
  formta : ∀ b s, b < inp.tree.nboxes → s < inp.tree.nboxes → inp.tree.isSource s = true →
    inp.tree.level s ≤ inp.tree.level b → s ≠ inp.tree.ancAt b (inp.tree.level s) →
    inp.tree.TouchEnlarged (inp.nAway - 1) (inp.tree.ancAt b (inp.tree.level s)) s →
    ¬ inp.tree.Touch b s → SepBigger inp b s →
    ¬ (inp.tree.level s < inp.tree.level b ∧
        ¬ inp.tree.Touch (inp.tree.parent b) s ∧ SepBigger inp (inp.tree.parent b) s) →
    LOC b (R.formta (levelToRscale inp.tree w (inp.tree.level b)) ((sourcesOf q s).map src)
      (inp.tree.center b) (w.order (inp.tree.level b))) (sourcesOf q s)
  /-- translation of a local expansion to a child box -/
  locloc : ∀ b, b < inp.tree.nboxes → b ≠ 0 → ∀ v S, LOC (inp.tree.parent b) v S →
    LOC b (R.locloc (levelToRscale inp.tree w (inp.tree.level b - 1))
      (inp.tree.center (inp.tree.parent b)) v
      (levelToRscale inp.tree w (inp.tree.level b)) (inp.tree.center b)
      (w.order (inp.tree.level b)) (radius inp.tree (inp.tree.level b))) S
  /-- evaluation of a multipole expansion of a smaller, separated box inside a near box, all of
  whose ancestors below the level of the target box are not separated -/
  mpeval : ∀ i b s, i < q.ntargets → b < inp.tree.nboxes → inp.tree.isTarget b = true →
    TargetIn q b i → s < inp.tree.nboxes → inp.tree.level b < inp.tree.level s →
    inp.tree.ancAt s (inp.tree.level b) ≠ b →
    inp.tree.TouchEnlarged (inp.nAway - 1) b (inp.tree.ancAt s (inp.tree.level b)) →
    ¬ inp.tree.Touch b s → SepSmaller inp b s →
    (∀ l, inp.tree.level b < l → l < inp.tree.level s →
      (inp.tree.Touch b (inp.tree.ancAt s l) ∨ ¬ SepSmaller inp b (inp.tree.ancAt s l))) → ∀ v S, MP s v S →
    PV i (R.mpeval (levelToRscale inp.tree w (inp.tree.level s)) (inp.tree.center s) v (x i)) S
  /-- evaluation of a local expansion at targets in the box -/
  taeval : ∀ i b, i < q.ntargets → b < inp.tree.nboxes → inp.tree.isTarget b = true →
    TargetIn q b i → ∀ v S, LOC b v S →
    PV i (R.taeval (levelToRscale inp.tree w (inp.tree.level b)) (inp.tree.center b) v (x i)) S
  /-- direct evaluation -/
  direct : ∀ i b, i < q.ntargets → b < inp.tree.nboxes → inp.tree.isSource b = true →
    PV i (R.direct ((sourcesOf q b).map src) (x i)) (sourcesOf q b)

/-- The library computes without error: `K i j` is the potential at target `i` due to source `j`. -/
def Exact [AddCommMonoid C] [AddCommMonoid P] (inp : TravInput) (q : Particles)
    (R : Lib A W D C P) (w : Wrangler A D) (src : Nat → Src W D) (x : Nat → Nat → ℚ)
    (angle : Nat → Nat → A) (K : Nat → Nat → P)
    (MP LOC : Nat → List C → Multiset Nat → Prop) : Prop :=
  Respects inp q R w src x angle (fun i p S => p = (S.map (K i)).sum) MP LOC

/-- The tree and the wrangler hold the particles of the user: `src` are the sources with their
strengths and dipole directions, `x` the targets, both in user order. -/
structure Holds (q : Particles) (w : Wrangler A D) (weights : Nat → W)
    (src : Nat → Src W D) (x : Nat → Nat → ℚ) : Prop where
  pos : ∀ j, j < q.nsources → w.sources j = (src (q.userSourceIds j)).pos
  weight : ∀ j, j < q.nsources → (src j).weight = weights j
  dipole : ∀ j, j < q.nsources → (src (q.userSourceIds j)).dipole = w.dipoleVec.map fun d =>
    if w.dipolesAlreadyReordered then d j else d (q.userSourceIds j)
  target : ∀ i, i < q.ntargets → w.targets (q.sortedTargetIds i) = x i

/-- The rotation classes belong to the pairs of list 2: the class number stored for an entry of
the list leads to the angle of the pair. -/
def RotationOK (trav : Traversal) (w : Wrangler A D) (angle : Nat → Nat → A) : Prop :=
  ∀ lists angles, w.rotation = some (lists, angles) →
    ∀ j, j < trav.ttpBoxes.length → ∀ p, trav.list2.starts.getD j 0 ≤ p →
      p < trav.list2.starts.getD (j + 1) 0 →
      ∃ k : Nat, lists.getD p 0 = (k : ℤ) ∧
        angles[k]? = some (angle (trav.ttpBoxes.getD j 0) (trav.list2.lists.getD p 0))

end Boxtree.FmmLib
