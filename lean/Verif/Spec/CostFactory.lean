import Verif.Model.CostFactory

/-!
# Specification vocabulary: what a translation is said to cost
-/

namespace Boxtree.Cost

section
variable {K : Type} [CommSemiring K] (hp : K → Nat → K)

/-- Values of the eight calibration parameters. -/
structure Calib (K : Type) where
  p2m : K
  m2m : K
  p2p : K
  m2l : K
  m2p : K
  p2l : K
  l2l : K
  l2p : K

/-- All ones. -/
def Calib.unit : Calib K := ⟨1, 1, 1, 1, 1, 1, 1, 1⟩

/-- A dictionary with these values; it may have further entries. -/
structure Ctx.Gives (ctx : Ctx K) (c : Calib K) : Prop where
  p2m : ctx (.const "c_p2m") = some c.p2m
  m2m : ctx (.const "c_m2m") = some c.m2m
  p2p : ctx (.const "c_p2p") = some c.p2p
  m2l : ctx (.const "c_m2l") = some c.m2l
  m2p : ctx (.const "c_m2p") = some c.m2p
  p2l : ctx (.const "c_p2l") = some c.p2l
  l2l : ctx (.const "c_l2l") = some c.l2l
  l2p : ctx (.const "c_l2p") = some c.l2p

/-- Number of coefficients of an expansion of order `p`. -/
def ncoeffs (F : Factory) (dim : Nat) (p : K) : K :=
  match F with
  | .pdeAware => (p + 1) ^ (dim - 1)
  | .taylor => (p + 1) ^ dim

/-- Cost of translating an expansion with `ns` coefficients to one with `nt`: rotate, translate along
the axis and rotate back for spherical harmonics in three dimensions, the product otherwise. -/
def translation (F : Factory) (dim : Nat) (ns nt : K) : K :=
  match F with
  | .pdeAware => if dim = 3 then hp ns 3 + hp ns 1 * nt + hp nt 3 else ns * nt
  | .taylor => ns * nt

/-- The cost factors of a calibrated model; `p l` is the order on level `l`. -/
def modelled (F : Factory) (dim : Nat) (c : Calib K) (p : Nat → K) : Factors K where
  p2m := fun l => c.p2m * ncoeffs F dim (p l)
  m2m := fun l => c.m2m * translation hp F dim (ncoeffs F dim (p (l + 1))) (ncoeffs F dim (p l))
  p2p := c.p2p
  m2l := fun l => c.m2l * translation hp F dim (ncoeffs F dim (p l)) (ncoeffs F dim (p l))
  m2p := fun l => c.m2p * ncoeffs F dim (p l)
  p2l := fun l => c.p2l * ncoeffs F dim (p l)
  l2l := fun l => c.l2l * translation hp F dim (ncoeffs F dim (p l)) (ncoeffs F dim (p (l + 1)))
  l2p := fun l => c.l2p * ncoeffs F dim (p l)

/-- Each stage costs the calibration parameter of the stage times as much. -/
def Stages.times (c : Calib K) (s : Stages K) : Stages K where
  formMultipoles := c.p2m * s.formMultipoles
  coarsenMultipoles := c.m2m * s.coarsenMultipoles
  evalDirect := c.p2p * s.evalDirect
  multipoleToLocal := c.m2l * s.multipoleToLocal
  evalMultipoles := c.m2p * s.evalMultipoles
  formLocals := c.p2l * s.formLocals
  refineLocals := c.l2l * s.refineLocals
  evalLocals := c.l2p * s.evalLocals

/-- The `dict` of stages, `/repo/boxtree/cost.py:576-620`. -/
def Stages.dict (s : Stages K) : List (String × K) :=
  [("form_multipoles", s.formMultipoles), ("coarsen_multipoles", s.coarsenMultipoles),
   ("eval_direct", s.evalDirect), ("multipole_to_local", s.multipoleToLocal),
   ("eval_multipoles", s.evalMultipoles), ("form_locals", s.formLocals),
   ("refine_locals", s.refineLocals), ("eval_locals", s.evalLocals)]

/-- No stage costs more. -/
structure Stages.le [LE K] (s s' : Stages K) : Prop where
  formMultipoles : s.formMultipoles ≤ s'.formMultipoles
  coarsenMultipoles : s.coarsenMultipoles ≤ s'.coarsenMultipoles
  evalDirect : s.evalDirect ≤ s'.evalDirect
  multipoleToLocal : s.multipoleToLocal ≤ s'.multipoleToLocal
  evalMultipoles : s.evalMultipoles ≤ s'.evalMultipoles
  formLocals : s.formLocals ≤ s'.formLocals
  refineLocals : s.refineLocals ≤ s'.refineLocals
  evalLocals : s.evalLocals ≤ s'.evalLocals

/-- No parameter is larger. -/
structure Calib.le [LE K] (c c' : Calib K) : Prop where
  p2m : c.p2m ≤ c'.p2m
  m2m : c.m2m ≤ c'.m2m
  p2p : c.p2p ≤ c'.p2p
  m2l : c.m2l ≤ c'.m2l
  m2p : c.m2p ≤ c'.m2p
  p2l : c.p2l ≤ c'.p2l
  l2l : c.l2l ≤ c'.l2l
  l2p : c.l2p ≤ c'.l2p

/-- All zeros. -/
def Calib.zero : Calib K := ⟨0, 0, 0, 0, 0, 0, 0, 0⟩

/-- The value of a parameter by its name. -/
def Calib.get (c : Calib K) (param : String) : K :=
  match param with
  | "c_p2m" => c.p2m
  | "c_m2m" => c.m2m
  | "c_p2p" => c.p2p
  | "c_m2l" => c.m2l
  | "c_m2p" => c.m2p
  | "c_p2l" => c.p2l
  | "c_l2l" => c.l2l
  | "c_l2p" => c.l2p
  | _ => 0

end
end Boxtree.Cost
