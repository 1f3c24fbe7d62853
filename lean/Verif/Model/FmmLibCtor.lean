import Verif.Model.FmmLib

/-!
# Construction of the `pyfmmlib` wrangler

Model of `FMMLibTreeIndependentDataForWrangler.__init__` and `FMMLibExpansionWrangler.__init__`,
`/repo/boxtree/pyfmmlib_integration.py:139-151,283-385`.

Simplifications: wave numbers are rational instead of complex; orders are natural numbers; the dipole
vectors are given by their shape and one value per column.
-/

namespace Boxtree.FmmLib.Ctor

/-- The exceptions raised, `/repo/boxtree/pyfmmlib_integration.py:149`, `:304-305`, `:323-324`,
`:332-333`, `:338`, `:345-346`, `:376`; calling `None` (`:348-350`) is a `TypeError`, storing a number
that is too large in an array of `np.int32` (`:350`) an `OverflowError`. -/
inductive CtorError
  | typeError | valueError | overflowError | assertionError
deriving DecidableEq, Repr

/-- The warnings issued, `/repo/boxtree/pyfmmlib_integration.py:308-310`, `:360-366`. -/
inductive CtorWarning
  | deprecation | rotationDataNotSupplied
deriving DecidableEq, Repr

/-- The arguments of the two constructors, `/repo/boxtree/pyfmmlib_integration.py:139`, `:283-288`.
`kernel = none` stands for anything but the two kernels; `dipoles` are the shape of `dipole_vec` and
its columns. -/
structure Args (A D : Type) where
  dim : Nat
  kernel : Option Kernel
  helmholtzK : Option ℚ
  fmmLevelToOrder : Option (Nat → Nat)
  order : Option Nat
  dipoles : Option ((Nat × Nat) × (Nat → D))
  dipolesAlreadyReordered : Bool
  cutoff : ℤ
  rotation : Option (List ℤ × List A)

variable {A D : Type}

/-- Python's truth value of `helmholtz_k`, `/repo/boxtree/pyfmmlib_integration.py:322`, `:331`. -/
def truthy : Option ℚ → Bool
  | none => false
  | some k => decide (k ≠ 0)

/-- The kernel and its scaling factor, `/repo/boxtree/pyfmmlib_integration.py:144-149`, `:318-338`. -/
def checkKernel (kernel : Option Kernel) (k : Option ℚ) : Except CtorError (Kernel × ℚ) :=
  match kernel with
  | some .laplace => if truthy k then .error .valueError else .ok (.laplace, 1)
  | some .helmholtz => if !truthy k then .error .valueError else .ok (.helmholtz, |k.getD 0|)
  | none => .error .valueError

/-- The first number that is not an `np.int32`, `/repo/boxtree/pyfmmlib_integration.py:350`. -/
def int32Size : Nat := 2 ^ 31

/-- `level_orders`, `/repo/boxtree/pyfmmlib_integration.py:348-350`: the calls for the levels in turn,
then the conversion to `np.int32`. -/
def levelOrders (f : Option (Nat → Nat)) (nlevels : Nat) : Except CtorError (List Nat) :=
  match f with
  | none => if nlevels = 0 then .ok [] else .error .typeError
  | some f =>
      let os := (List.range nlevels).map f
      if os.any fun o => decide (int32Size ≤ o) then .error .overflowError else .ok os

/-- The function called for the orders, `/repo/boxtree/pyfmmlib_integration.py:307-313`. -/
def Args.orderFun (a : Args A D) : Option (Nat → Nat) :=
  match a.order with
  | some p => some fun _ => p
  | none => a.fmmLevelToOrder

/-- `dipole_vec`, `/repo/boxtree/pyfmmlib_integration.py:374-385`. -/
def storeDipoles (t : BoxTree) (q : Particles) (a : Args A D) :
    Except CtorError (Option (Nat → D)) :=
  match a.dipoles with
  | none => .ok none
  | some (shape, d) =>
      if shape ≠ (t.dims, q.nsources) then .error .assertionError
      else .ok (some (if a.dipolesAlreadyReordered then d else fun j => d (q.userSourceIds j)))

/-- `FMMLibExpansionWrangler.__init__` of a tree-independent part made with the same arguments,
`/repo/boxtree/pyfmmlib_integration.py:139-151,283-385`.  The wrangler holds dipole vectors in tree
order. -/
def construct (t : BoxTree) (q : Particles) (sources targets : Nat → Nat → ℚ)
    (a : Args A D) : Except CtorError (Wrangler A D × List CtorWarning) := do
  if a.kernel = none then throw .valueError
  if a.order ≠ none ∧ a.fmmLevelToOrder.isSome then throw .typeError
  let (kernel, factor) ← checkKernel a.kernel a.helmholtzK
  if a.dim ≠ t.dims then throw .valueError
  let orders ← levelOrders a.orderFun t.nlevels
  let dipoles ← storeDipoles t q a
  return ({
    kernel := kernel
    rscaleFactor := factor
    order := fun l => orders.getD l 0
    sources := sources
    targets := targets
    dipoleVec := dipoles
    dipolesAlreadyReordered := true
    rotation := a.rotation
    cutoff := a.cutoff },
    (if a.order ≠ none then [.deprecation] else []) ++
      (if a.dim = 3 ∧ a.rotation.isNone then [.rotationDataNotSupplied] else []))

end Boxtree.FmmLib.Ctor
