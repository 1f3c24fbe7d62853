import Verif.Spec.FmmLibChain
import Mathlib.Analysis.Complex.Basic

/-!
# Specification vocabulary: an expansion library for the Cauchy kernel

The kernel `w / (y - x)` of the complex plane, which is the potential of a dipole of the Laplace
kernel in two dimensions.  The routines are those of the textbook (Greengard and Rokhlin): truncated
Laurent and Taylor series and their translations.  Coefficients are scaled with `rscale` as `pyfmmlib`
does in two dimensions: coefficient `k` of a multipole expansion is divided by `rscale ^ k`,
coefficient `l` of a local expansion is multiplied with `rscale ^ l`.

The library is not part of `/repo`; it stands for the Fortran routines that the wrangler calls.
-/

namespace Boxtree.FmmLib
open Boxtree

/-- A point of the plane as a complex number. -/
noncomputable def toC (x : Nat → ℚ) : ℂ := ⟨(x 0 : ℝ), (x 1 : ℝ)⟩

/-- Expansion of order `n` from its coefficients. -/
def tab (n : Nat) (f : Nat → ℂ) : List ℂ := (List.range (n + 1)).map f

/-- Product of a matrix with an expansion. -/
noncomputable def linMap (n : Nat) (a : Nat → Nat → ℂ) (v : List ℂ) : List ℂ :=
  tab n fun k => ∑ j ∈ Finset.range v.length, a k j * v.getD j 0

/-- Product of a row with an expansion. -/
noncomputable def linEval (a : Nat → ℂ) (v : List ℂ) : ℂ :=
  ∑ j ∈ Finset.range v.length, a j * v.getD j 0

/-- Truncated expansions of `w / (y - x)`. -/
noncomputable def cauchyLib (A D : Type) : Lib A ℂ D ℂ ℂ where
  formmp r s c n := tab n fun k => (s.map fun p => p.weight * (toC p.pos - toC c) ^ k / (r : ℂ) ^ k).sum
  mpmp r c v r' c' n _ := linMap n
    (fun k j => k.choose j * (r : ℂ) ^ j * (toC c - toC c') ^ (k - j) / (r' : ℂ) ^ k) v
  mploc _ r c v r' c' n _ := linMap n
    (fun l k => (k + l).choose l * (r : ℂ) ^ k * (-1) ^ l / (toC c' - toC c) ^ (k + l + 1) * (r' : ℂ) ^ l) v
  formta r s c n := tab n fun l =>
    (s.map fun p => p.weight * (-1) ^ l / (toC c - toC p.pos) ^ (l + 1) * (r : ℂ) ^ l).sum
  locloc r c u r' c' n _ := linMap n
    (fun l m => m.choose l * (toC c' - toC c) ^ (m - l) / (r : ℂ) ^ m * (r' : ℂ) ^ l) u
  mpeval r c v x := linEval (fun k => (r : ℂ) ^ k / (toC x - toC c) ^ (k + 1)) v
  taeval r c u x := linEval (fun l => (toC x - toC c) ^ l / (r : ℂ) ^ l) u
  direct s x := (s.map fun p => p.weight / (toC x - toC p.pos)).sum
  scale _ _ p := p

/-- All sources and targets lie in the boxes that store them, up to `ε`. -/
structure HeldNear {W D : Type} (t : BoxTree) (q : Particles) (src : Nat → Src W D) (x : Nat → Nat → ℚ)
    (ε : ℚ) : Prop where
  source : ∀ b, b < t.nboxes → t.isSource b = true → ∀ j ∈ sourcesOf q b, ∀ a, a < t.dims →
    |(src j).pos a - t.center b a| ≤ t.rad (t.level b) + ε
  target : ∀ b, b < t.nboxes → ∀ i, i < q.ntargets → TargetIn q b i → ∀ a, a < t.dims →
    |x i a - t.center b a| ≤ t.rad (t.level b) + ε

end Boxtree.FmmLib
