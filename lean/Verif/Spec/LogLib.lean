import Verif.Spec.CauchyLib
import Mathlib.Analysis.SpecialFunctions.Log.Basic
import Mathlib.Analysis.Real.Pi.Bounds

/-!
# Specification vocabulary: an expansion library for charges in two dimensions

The kernel `-1 / (2 π) log |y - x|`, Green's function of the Laplace operator in the plane, with real
strengths.  The routines are those of the textbook (Greengard and Rokhlin, A fast algorithm for particle
simulations, Lemmas 2.3 to 2.5): coefficient 0 of a multipole expansion is the total charge, coefficient
`k` belongs to `(y - c)^(-k)`.  Coefficients are scaled with `rscale` as in `Spec/CauchyLib`; potentials
are complex numbers of which `finalize_potentials` takes the real part.

The library is not part of `/repo`; it stands for the Fortran routines that the wrangler calls.
-/

namespace Boxtree.FmmLib
open Boxtree

/-- `log |z|` as a complex number. -/
noncomputable def lnC (z : ℂ) : ℂ := (Real.log ‖z‖ : ℝ)

/-- Coefficient `k` of the multipole expansion of a unit charge at `z` from the center. -/
noncomputable def logForm (z : ℂ) (k : Nat) : ℂ := if k = 0 then 1 else -z ^ k / k

/-- Contribution of coefficient `j` to coefficient `k` when the center of a multipole expansion moves by
`-z`. -/
noncomputable def logUp (z : ℂ) (k j : Nat) : ℂ :=
  if j = 0 then (if k = 0 then 1 else -z ^ k / k)
  else if k = 0 then 0 else (k - 1).choose (j - 1) * z ^ (k - j)

/-- Contribution of coefficient `k` of a multipole expansion to coefficient `l` of the local expansion
at `z` from its center. -/
noncomputable def logConvert (z : ℂ) (l k : Nat) : ℂ :=
  if k = 0 then (if l = 0 then lnC z else -(-1) ^ l / (l * z ^ l))
  else (l + k - 1).choose (k - 1) * (-1) ^ l / z ^ (k + l)

/-- Coefficient `l` of the local expansion, at `z` from a unit charge. -/
noncomputable def logTaylor (z : ℂ) (l : Nat) : ℂ := if l = 0 then lnC z else -(-1) ^ l / (l * z ^ l)

/-- Function that coefficient `k` of a multipole expansion belongs to. -/
noncomputable def logBasis (z : ℂ) (k : Nat) : ℂ := if k = 0 then lnC z else 1 / z ^ k

/-- Truncated expansions of `w log |y - x|`; `scale` is that of `finalize_potentials`,
`/repo/boxtree/pyfmmlib_integration.py:1147-1162`, for the Laplace kernel in two dimensions. -/
noncomputable def logLib (A D : Type) : Lib A ℝ D ℂ ℂ where
  formmp r s c n := tab n fun k =>
    (s.map fun p => (p.weight : ℂ) * logForm (toC p.pos - toC c) k / (r : ℂ) ^ k).sum
  mpmp r c v r' c' n _ := linMap n
    (fun k j => logUp (toC c - toC c') k j * (r : ℂ) ^ j / (r' : ℂ) ^ k) v
  mploc _ r c v r' c' n _ := linMap n
    (fun l k => logConvert (toC c' - toC c) l k * (r : ℂ) ^ k * (r' : ℂ) ^ l) v
  formta r s c n := tab n fun l =>
    (s.map fun p => (p.weight : ℂ) * logTaylor (toC c - toC p.pos) l * (r : ℂ) ^ l).sum
  locloc r c u r' c' n _ := linMap n
    (fun l m => m.choose l * (toC c' - toC c) ^ (m - l) / (r : ℂ) ^ m * (r' : ℂ) ^ l) u
  mpeval r c v x := linEval (fun k => (r : ℂ) ^ k * logBasis (toC x - toC c) k) v
  taeval r c u x := linEval (fun l => (toC x - toC c) ^ l / (r : ℂ) ^ l) u
  direct s x := (s.map fun p => (p.weight : ℂ) * lnC (toC x - toC p.pos)).sum
  scale _ _ p := ((-1 / (2 * Real.pi) * p.re : ℝ) : ℂ)

end Boxtree.FmmLib
