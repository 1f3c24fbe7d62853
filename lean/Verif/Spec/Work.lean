import Verif.Model.Cost
import Mathlib.Algebra.Order.Ring.Defs

/-!
# Vocabulary for C79: bounded costs of operations, total cost of an FMM
-/

namespace Boxtree.Build
open BoxTree Cost

variable {K : Type} [CommSemiring K] [PartialOrder K]

/-- No operation costs more than `c`. -/
structure AtMost (f : Factors K) (c : K) : Prop where
  nonneg : 0 ≤ c
  p2m : ∀ l, f.p2m l ≤ c
  m2m : ∀ l, f.m2m l ≤ c
  p2p : f.p2p ≤ c
  m2l : ∀ l, f.m2l l ≤ c
  m2p : ∀ l, f.m2p l ≤ c
  p2l : ∀ l, f.p2l l ≤ c
  l2l : ∀ l, f.l2l l ≤ c
  l2p : ∀ l, f.l2p l ≤ c

/-- Cost of all stages. -/
def total (s : Stages K) : K :=
  s.formMultipoles + s.coarsenMultipoles + s.evalDirect + s.multipoleToLocal + s.evalMultipoles +
    s.formLocals + s.refineLocals + s.evalLocals

end Boxtree.Build
