import Mathlib.Logic.Function.Basic
import Mathlib.Data.List.Basic

/-!
# Work items on shared memory

How the kernels of boxtree run: `pyopencl.elementwise.ElementwiseKernel`, used by
`/repo/boxtree/tree_build_kernels.py:1612-1663` and others, starts one work item per index.  Nothing is
said about the order: the loads and stores of different work items may be interleaved in any way.

A work item is a program that loads from and changes cells of a memory.  A change is atomic: a store of
a value is the change to that value, `atomic_or` is the change by an operation.  Weak memory models, in which
different work items see stores in different orders, are not modelled; nothing depends on them in a program
in which no work item reads what another one changes.
-/

namespace Boxtree.Par

/-- Contents of the cells (all arrays that are arguments of a kernel,
e.g. `/repo/boxtree/tree_build.py:1064-1075`). -/
abbrev Mem {A : Type} (T : A → Type) : Type := (a : A) → T a

/-- The program of a work item (text of a kernel, e.g. `/repo/boxtree/tree_build_kernels.py:646-712`). -/
inductive Prog (A : Type) (T : A → Type) (α : Type) : Type
  /-- the end -/
  | pure (x : α) : Prog A T α
  /-- load a cell -/
  | read (a : A) (k : T a → Prog A T α) : Prog A T α
  /-- change a cell -/
  | update (a : A) (f : T a → T a) (k : Prog A T α) : Prog A T α

variable {A : Type} {T : A → Type} {α β : Type}

namespace Prog

/-- One statement after the other (text of a kernel, e.g.
`/repo/boxtree/tree_build_kernels.py:646-712`). -/
def bind : Prog A T α → (α → Prog A T β) → Prog A T β
  | pure x, g => g x
  | read a k, g => read a fun v => (k v).bind g
  | update a f k, g => update a f (k.bind g)

/-- Notation of programs (text of a kernel, e.g. `/repo/boxtree/tree_build_kernels.py:646-712`). -/
instance : Monad (Prog A T) where
  pure := Prog.pure
  bind := Prog.bind

/-- `array[i]` on the right hand side (e.g. `/repo/boxtree/tree_build_kernels.py:650`). -/
def load (a : A) : Prog A T (T a) := read a pure

/-- Assignments to cells, one after the other (e.g. `/repo/boxtree/tree_build_kernels.py:669-672`). -/
def writeAll : List ((a : A) × T a) → Prog A T Unit
  | [] => pure ()
  | w :: l => update w.1 (fun _ => w.2) (writeAll l)

end Prog

/-- First `r`, then the stores that it asks for (text of a kernel, e.g.
`/repo/boxtree/tree_build_kernels.py:646-712`). -/
def thenStore (r : Prog A T (List ((a : A) × T a))) : Prog A T Unit := r.bind Prog.writeAll

section Run
variable [DecidableEq A]

/-- A change of one cell (e.g. `/repo/boxtree/tree_build_kernels.py:669`, `:907`). -/
def Mem.upd (m : Mem T) (a : A) (f : T a → T a) : Mem T := Function.update m a (f (m a))

/-- The next load or change of a work item (e.g. `/repo/boxtree/tree_build_kernels.py:646-712`). -/
def step : Prog A T α → Mem T → Prog A T α × Mem T
  | .pure x, m => (.pure x, m)
  | .read a k, m => (k (m a), m)
  | .update a f k, m => (k, m.upd a f)

/-- A work item that runs to its end without interruption (e.g.
`/repo/boxtree/tree_build_kernels.py:646-712`). -/
def solo : Prog A T α → Mem T → α × Mem T
  | .pure x, m => (x, m)
  | .read a k, m => solo (k (m a)) m
  | .update a f k, m => solo k (m.upd a f)

/-- The work items `0, …, n - 1` take turns as `sched` says (launch of an `ElementwiseKernel`, e.g.
`/repo/boxtree/tree_build.py:1073-1075`). -/
def interleave (n : Nat) : List Nat → (Nat → Prog A T Unit) → Mem T → (Nat → Prog A T Unit) × Mem T
  | [], ps, m => (ps, m)
  | i :: sched, ps, m =>
    if i < n then
      let r := step (ps i) m
      interleave n sched (Function.update ps i r.1) r.2
    else interleave n sched ps m

/-- The work items run one after the other (one possible order of a launch, e.g.
`/repo/boxtree/tree_build.py:1073-1075`). -/
def inOrder (n : Nat) (ps : Nat → Prog A T Unit) (m : Mem T) : Mem T :=
  (List.range n).foldl (fun m i => (solo (ps i) m).2) m

/-- A kernel launch, e.g. `/repo/boxtree/tree_build.py:1073-1075`: the work items take turns as `sched`
says; those that have not come to their end then do so. -/
def launch (sched : List Nat) (n : Nat) (ps : Nat → Prog A T Unit) (m : Mem T) : Mem T :=
  let r := interleave n sched ps m
  inOrder n r.1 r.2

end Run
end Boxtree.Par
