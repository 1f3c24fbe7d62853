import Verif.Spec.FmmLib

/-!
# Specification vocabulary: chains of translations

A chain says how the contribution of one source to one target was computed: as a sequence of calls
of library routines for that source alone, each between boxes between which an FMM may translate.
Nothing here refers to interaction lists.
-/

namespace Boxtree.FmmLib
open Boxtree

variable {A W D C P : Type}

section Linear
variable [AddCommMonoid C] [AddCommMonoid P]

/-- Sum of vectors of length `n`. -/
def vsum (n : Nat) (l : List (List C)) : List C :=
  l.foldr (List.zipWith (· + ·)) (List.replicate n 0)

/-- A map between vectors of length `n` and `m` that respects sums. -/
structure AddMap (n m : Nat) (f : List C → List C) : Prop where
  len : ∀ v, v.length = n → (f v).length = m
  zero : f (List.replicate n 0) = List.replicate m 0
  add : ∀ u v, u.length = n → v.length = n →
    f (List.zipWith (· + ·) u v) = List.zipWith (· + ·) (f u) (f v)

/-- A map from vectors of length `n` to potentials that respects sums. -/
structure AddEval (n : Nat) (f : List C → P) : Prop where
  zero : f (List.replicate n 0) = 0
  add : ∀ u v, u.length = n → v.length = n → f (List.zipWith (· + ·) u v) = f u + f v

/-- The routines of the library are linear: translations respect sums of expansions, and what is
computed from several sources is the sum of what is computed from each of them.  Nothing is said
about how good the expansions are. -/
structure Linear (t : BoxTree) (w : Wrangler A D) (R : Lib A W D C P) : Prop where
  formmp : ∀ l r s c, R.formmp r s c (w.order l) =
    vsum (w.size t l) (s.map fun p => R.formmp r [p] c (w.order l))
  formmp_len : ∀ l r s c, (R.formmp r [s] c (w.order l)).length = w.size t l
  formta : ∀ l r s c, R.formta r s c (w.order l) =
    vsum (w.size t l) (s.map fun p => R.formta r [p] c (w.order l))
  formta_len : ∀ l r s c, (R.formta r [s] c (w.order l)).length = w.size t l
  mpmp : ∀ l l' r c r' c' rad,
    AddMap (w.size t l) (w.size t l') fun v => R.mpmp r c v r' c' (w.order l') rad
  mploc : ∀ l rot r c r' c' rad,
    AddMap (w.size t l) (w.size t l) fun v => R.mploc rot r c v r' c' (w.order l) rad
  locloc : ∀ l l' r c r' c' rad,
    AddMap (w.size t l) (w.size t l') fun v => R.locloc r c v r' c' (w.order l') rad
  mpeval : ∀ l r c x, AddEval (w.size t l) fun v => R.mpeval r c v x
  taeval : ∀ l r c x, AddEval (w.size t l) fun v => R.taeval r c v x
  direct : ∀ s x, R.direct s x = (s.map fun p => R.direct [p] x).sum

end Linear

section Chains
variable (inp : TravInput) (q : Particles) (R : Lib A W D C P) (w : Wrangler A D)
  (src : Nat → Src W D) (x : Nat → Nat → ℚ) (angle : Nat → Nat → A)

/-- `v` is computed from source `j` alone by forming a multipole expansion in the box that stores
`j` and translating it from child to parent up to box `b`. -/
inductive MPChain (j : Nat) : Nat → List C → Prop
  | form (b) : b < inp.tree.nboxes → inp.tree.isSource b = true → j ∈ sourcesOf q b →
      MPChain j b (R.formmp (levelToRscale inp.tree w (inp.tree.level b)) [src j]
        (inp.tree.center b) (w.order (inp.tree.level b)))
  | up (c v) : c < inp.tree.nboxes → c ≠ 0 → MPChain j c v →
      MPChain j (inp.tree.parent c)
        (R.mpmp (levelToRscale inp.tree w (inp.tree.level c)) (inp.tree.center c) v
          (levelToRscale inp.tree w (inp.tree.level c - 1)) (inp.tree.center (inp.tree.parent c))
          (w.order (inp.tree.level c - 1)) (radius inp.tree (inp.tree.level c - 1)))

/-- `v` is computed from source `j` alone: a local expansion is obtained in an ancestor of `b`,
either from a multipole expansion of a well-separated box of the same size or from the source
itself, which then lies in a separated box at least as large, and translated from parent to child
down to box `b`. -/
inductive LOCChain (j : Nat) : Nat → List C → Prop
  | m2l (b s rot v) : b < inp.tree.nboxes → s < inp.tree.nboxes →
      inp.tree.level s = inp.tree.level b → ¬ inp.tree.TouchEnlarged (inp.nAway - 1) b s →
      inp.tree.TouchEnlarged (inp.nAway - 1) (inp.tree.parent b) (inp.tree.parent s) →
      (rot = none ∨ rot = some (angle b s)) → MPChain inp q R w src j s v →
      LOCChain j b (R.mploc rot (levelToRscale inp.tree w (inp.tree.level b)) (inp.tree.center s) v
        (levelToRscale inp.tree w (inp.tree.level b)) (inp.tree.center b)
        (w.order (inp.tree.level b)) (radius inp.tree (inp.tree.level b)))
  | form (b s) : b < inp.tree.nboxes → s < inp.tree.nboxes → inp.tree.isSource s = true →
      inp.tree.level s ≤ inp.tree.level b → s ≠ inp.tree.ancAt b (inp.tree.level s) →
      inp.tree.TouchEnlarged (inp.nAway - 1) (inp.tree.ancAt b (inp.tree.level s)) s →
      ¬ inp.tree.Touch b s → SepBigger inp b s →
      ¬ (inp.tree.level s < inp.tree.level b ∧
        ¬ inp.tree.Touch (inp.tree.parent b) s ∧ SepBigger inp (inp.tree.parent b) s) →
      j ∈ sourcesOf q s →
      LOCChain j b (R.formta (levelToRscale inp.tree w (inp.tree.level b)) [src j]
        (inp.tree.center b) (w.order (inp.tree.level b)))
  | down (b v) : b < inp.tree.nboxes → b ≠ 0 → LOCChain j (inp.tree.parent b) v →
      LOCChain j b (R.locloc (levelToRscale inp.tree w (inp.tree.level b - 1))
        (inp.tree.center (inp.tree.parent b)) v
        (levelToRscale inp.tree w (inp.tree.level b)) (inp.tree.center b)
        (w.order (inp.tree.level b)) (radius inp.tree (inp.tree.level b)))

/-- `p` is a value for the potential at target `i` computed from source `j` alone: directly, or by
evaluating a multipole expansion of a smaller box separated from the box of the target, or by
evaluating a local expansion in the box of the target. -/
inductive Chain (i j : Nat) : P → Prop
  | direct : Chain i j (R.direct [src j] (x i))
  | mp (b s v) : b < inp.tree.nboxes → inp.tree.isTarget b = true →
      TargetIn q b i → s < inp.tree.nboxes → inp.tree.level b < inp.tree.level s →
      inp.tree.ancAt s (inp.tree.level b) ≠ b →
      inp.tree.TouchEnlarged (inp.nAway - 1) b (inp.tree.ancAt s (inp.tree.level b)) →
      ¬ inp.tree.Touch b s → SepSmaller inp b s →
      (∀ l, inp.tree.level b < l → l < inp.tree.level s →
        (inp.tree.Touch b (inp.tree.ancAt s l) ∨ ¬ SepSmaller inp b (inp.tree.ancAt s l))) →
      MPChain inp q R w src j s v →
      Chain i j (R.mpeval (levelToRscale inp.tree w (inp.tree.level s)) (inp.tree.center s) v (x i))
  | loc (b v) : b < inp.tree.nboxes → inp.tree.isTarget b = true → TargetIn q b i →
      LOCChain inp q R w src angle j b v →
      Chain i j (R.taeval (levelToRscale inp.tree w (inp.tree.level b)) (inp.tree.center b) v (x i))

end Chains

end Boxtree.FmmLib
