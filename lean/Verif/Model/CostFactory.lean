import Verif.Model.Cost

/-!
# Symbolic translation costs

Model of `FMMTranslationCostModel` and its two factories, `/repo/boxtree/cost.py:81-178`, of their
evaluation (`fmm_cost_factors_for_kernels_from_model`, `:387-436`), and of `cost_per_box` and
`cost_per_stage` with it (`:445-622`).  Values live in a commutative semiring; the power with the
exponents 1/2 and 3/2 is a parameter.
-/

namespace Boxtree.Cost

/-- Names of variables: calibration parameters (`c_m2l`, …) and `p_fmm_lev{i}`, which are different for
different levels.  `/repo/boxtree/cost.py:105-166`. -/
inductive Name
  | const (s : String)
  | order (level : Nat)
  deriving DecidableEq

/-- The `pymbolic` expressions that occur.  Built in `/repo/boxtree/cost.py:105-178`. -/
inductive Expr
  | var (n : Name)
  /-- `e + 1` -/
  | succ (e : Expr)
  | add (e f : Expr)
  | mul (e f : Expr)
  /-- integer exponent -/
  | pow (e : Expr) (k : Nat)
  /-- `e ** (k / 2)` with an odd `k` -/
  | halfPow (e : Expr) (k : Nat)

/-- `FMMTranslationCostModel`, `/repo/boxtree/cost.py:100-102`. -/
structure Xlat where
  ncoeffs : Nat → Expr
  pointAndShoot : Bool

namespace Xlat
variable (x : Xlat)

/-- `e2e_cost`, `/repo/boxtree/cost.py:135-145`. -/
def e2e (ns nt : Expr) : Expr :=
  if x.pointAndShoot then .add (.add (.halfPow ns 3) (.mul (.halfPow ns 1) nt)) (.halfPow nt 3)
  else .mul ns nt

/-- `direct`, `/repo/boxtree/cost.py:104-106`. -/
def direct : Expr := .var (.const "c_p2p")
/-- `p2l`, `/repo/boxtree/cost.py:108-109`. -/
def p2l (l : Nat) : Expr := .mul (.var (.const "c_p2l")) (x.ncoeffs l)
/-- `l2p`, `/repo/boxtree/cost.py:111-112`. -/
def l2p (l : Nat) : Expr := .mul (.var (.const "c_l2p")) (x.ncoeffs l)
/-- `p2m`, `/repo/boxtree/cost.py:114-115`. -/
def p2m (l : Nat) : Expr := .mul (.var (.const "c_p2m")) (x.ncoeffs l)
/-- `m2p`, `/repo/boxtree/cost.py:117-118`. -/
def m2p (l : Nat) : Expr := .mul (.var (.const "c_m2p")) (x.ncoeffs l)
/-- `m2m`, `/repo/boxtree/cost.py:120-123`. -/
def m2m (src tgt : Nat) : Expr :=
  .mul (.var (.const "c_m2m")) (x.e2e (x.ncoeffs src) (x.ncoeffs tgt))
/-- `l2l`, `/repo/boxtree/cost.py:125-128`. -/
def l2l (src tgt : Nat) : Expr :=
  .mul (.var (.const "c_l2l")) (x.e2e (x.ncoeffs src) (x.ncoeffs tgt))
/-- `m2l`, `/repo/boxtree/cost.py:130-133`. -/
def m2l (src tgt : Nat) : Expr :=
  .mul (.var (.const "c_m2l")) (x.e2e (x.ncoeffs src) (x.ncoeffs tgt))

end Xlat

/-- The two factories.  `/repo/boxtree/cost.py:152-178`. -/
inductive Factory
  | pdeAware
  | taylor

/-- `make_pde_aware_translation_cost_model`, `/repo/boxtree/cost.py:152-166`, and
`make_taylor_translation_cost_model`, `:169-179`.  The arrays have `nlevels` entries; here they are
functions, of which only these are used. -/
def Factory.make : Factory → Nat → Xlat
  | .pdeAware, dim => ⟨fun l => .pow (.succ (.var (.order l))) (dim - 1), decide (dim = 3)⟩
  | .taylor, dim => ⟨fun l => .pow (.succ (.var (.order l))) dim, false⟩

section
variable {K : Type} [CommSemiring K] (hp : K → Nat → K)

/-- A `dict` of parameters.  `/repo/boxtree/cost.py:445-484`. -/
abbrev Ctx (K : Type) := Name → Option K

/-- `pymbolic.evaluate`: an unknown variable is an error.  Calls at `/repo/boxtree/cost.py:387-436`;
the function itself is not in `/repo`. -/
def Expr.eval (ctx : Ctx K) : Expr → Except String K
  | .var n => match ctx n with
    | some v => .ok v
    | none => .error "UnknownVariableError"
  | .succ e => do
    let v ← e.eval ctx
    return v + 1
  | .add e f => do
    let v ← e.eval ctx
    let w ← f.eval ctx
    return v + w
  | .mul e f => do
    let v ← e.eval ctx
    let w ← f.eval ctx
    return v * w
  | .pow e k => do
    let v ← e.eval ctx
    return v ^ k
  | .halfPow e k => do
    let v ← e.eval ctx
    return hp v k

/-- An array of evaluated expressions.  `/repo/boxtree/cost.py:387-436`. -/
def evalList (ctx : Ctx K) (n : Nat) (e : Nat → Expr) : Except String (List K) :=
  (List.range n).mapM fun l => (e l).eval hp ctx

/-- Reading entry `l` of an array.  Auxiliary to `/repo/boxtree/cost.py:387-436`. -/
def at0 (a : List K) (l : Nat) : K := a.getD l 0

/-- `fmm_cost_factors_for_kernels_from_model`, `/repo/boxtree/cost.py:387-436`. -/
def evalFactors (x : Xlat) (nlevels : Nat) (ctx : Ctx K) : Except String (Factors K) := do
  let p2m ← evalList hp ctx nlevels x.p2m
  let m2m ← evalList hp ctx (nlevels - 1) fun l => x.m2m (l + 1) l
  let p2p ← Xlat.direct.eval hp ctx
  let m2l ← evalList hp ctx nlevels fun l => x.m2l l l
  let m2p ← evalList hp ctx nlevels x.m2p
  let p2l ← evalList hp ctx nlevels x.p2l
  let l2l ← evalList hp ctx (nlevels - 1) fun l => x.l2l l (l + 1)
  let l2p ← evalList hp ctx nlevels x.l2p
  return { p2m := at0 p2m, m2m := at0 m2m, p2p := p2p, m2l := at0 m2l, m2p := at0 m2p, p2l := at0 p2l,
           l2l := at0 l2l, l2p := at0 l2p }

/-- The orders of the levels are written to the dictionary of the caller,
`/repo/boxtree/cost.py:483-484`, `:564-565`. -/
def setOrders (nlevels : Nat) (orders : List K) (ctx : Ctx K) : Except String (Ctx K) :=
  if orders.length < nlevels then .error "IndexError"
  else .ok fun n => match n with
    | .order l => if l < nlevels then orders[l]? else ctx n
    | .const _ => ctx n

/-- `cost_per_stage`, `/repo/boxtree/cost.py:527-622`: the result, and the caller's dictionary
afterwards. -/
def costPerStage (F : Factory) (t : BoxTree) (q : Particles) (trav : Traversal) (tc : Nat → Nat)
    (orders : List K) (params : Ctx K) : Except String (Stages K × Ctx K) := do
  let ctx ← setOrders t.nlevels orders params
  let f ← evalFactors hp (F.make t.dims) t.nlevels ctx
  return (perStage t q trav tc f, ctx)

/-- `cost_per_box`, `/repo/boxtree/cost.py:445-525`. -/
def costPerBox (F : Factory) (t : BoxTree) (q : Particles) (trav : Traversal) (tc : Nat → Nat)
    (orders : List K) (params : Ctx K) : Except String ((Nat → K) × Ctx K) := do
  let ctx ← setOrders t.nlevels orders params
  let f ← evalFactors hp (F.make t.dims) t.nlevels ctx
  return (perBox t q trav tc f, ctx)

/-- `get_unit_calibration_params`, `/repo/boxtree/cost.py:624-636`. -/
def unitParams : Ctx K
  | .const s => if s ∈ ["c_l2l", "c_l2p", "c_m2l", "c_m2m", "c_m2p", "c_p2l", "c_p2m", "c_p2p"] then some 1
    else none
  | .order _ => none

end
end Boxtree.Cost
