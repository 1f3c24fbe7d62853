import Verif.Model.FinishKernels

/-!
# Launches ordered by events

`/repo/boxtree/tree_build.py:1728-1876`: the builder passes lists of events to the launches of the box extents
finder and returns an event.  A launch is taken not to record its event in the arrays it is given (pyopencl
leaves that to the caller, hence the wait lists of the builder).  Here the launches are commands of a queue
that may run them in any order in which each comes after those whose events it waits for.
-/

namespace Boxtree.Par

/-- A command of a queue (`wait_for=waitlist` of a launch, e.g. `/repo/boxtree/tree_build.py:1796-1800`). -/
structure Command (S : Type) where
  /-- numbers of the commands whose events are in the wait list -/
  waits : List Nat
  /-- what it does -/
  run : S → S

/-- `Runs cmds s₀ done s`: a queue that started with memory `s₀` and may change the order has completed the
commands `done`, the last one first, and the memory is `s`.  A command starts when those whose events it
waits for are complete (`wait_for`, `/repo/boxtree/tree_build.py:193-195`).  Commands that run at the same
time are not modelled. -/
inductive Runs {S : Type} (cmds : List (Command S)) (s₀ : S) : List Nat → S → Prop
  | start : Runs cmds s₀ [] s₀
  | run {done : List Nat} {s : S} {i : Nat} {c : Command S} : Runs cmds s₀ done s → cmds[i]? = some c →
      i ∉ done → (∀ j ∈ c.waits, j ∈ done) → Runs cmds s₀ (i :: done) (c.run s)

/-- An in-order queue (the default of `pyopencl.CommandQueue`, used by
`/repo/boxtree/tree_build.py:1796-1800`). -/
def inOrderQueue {S : Type} (cmds : List (Command S)) (s : S) : S := cmds.foldl (fun s c => c.run s) s

end Boxtree.Par

namespace Boxtree.Build
open Boxtree.Par

/-- A launch of `box_extents_finder_kernel` for level `l`, `/repo/boxtree/tree_build.py:1785-1800`: `src` tells
whether it is about sources; the memory has the arrays of the sources and those of the targets. -/
def extentCommand (σ : Bool → Nat → List Nat) (lstart : Nat → Nat)
    (item : Bool → Nat → Prog SideLoc (fun _ => Nat → ℚ) (List ((_ : SideLoc) × (Nat → ℚ))))
    (src : Bool) (l : Nat) (waits : List Nat) : Command (Bool → Sides) where
  waits := waits
  run := fun s => Function.update s src (launch (σ src l) (lstart (l + 1) - lstart l)
    (fun k => thenStore (item src (lstart l + k))) (s src))

/-- The loop over the levels `l-1, …, 0`, `/repo/boxtree/tree_build.py:1750-1802`; `next` is the number of the
next command.  Both launches of a level get the wait list of the loop; after them it is the event of the
last one. -/
def extentCommands (both : Bool) (σ : Bool → Nat → List Nat) (lstart : Nat → Nat)
    (item : Bool → Nat → Prog SideLoc (fun _ => Nat → ℚ) (List ((_ : SideLoc) × (Nat → ℚ)))) :
    Nat → List Nat → Nat → List (Command (Bool → Sides))
  | 0, _, _ => []
  | l + 1, waits, next =>
    if both then
      extentCommand σ lstart item true l waits ::
        extentCommands both σ lstart item l [next] (next + 1)
    else
      extentCommand σ lstart item true l waits :: extentCommand σ lstart item false l waits ::
        extentCommands both σ lstart item l [next + 1] (next + 2)

/-- The launches for the tree `t`, `/repo/boxtree/tree_build.py:1750-1802`; what is before them is complete. -/
def Built.commands (fl : ℚ → ℚ) (both : Bool) (σ : Bool → Nat → List Nat) (t : Built) :
    List (Command (Bool → Sides)) :=
  extentCommands both σ t.tree.levelStart
    (fun src => if src then
      extentFinder fl t.tree.nch t.tree.child t.stored t.particles.srcStart t.particles.srcCount t.sources
        t.sourceRadii
    else
      extentFinder fl t.tree.nch t.tree.child t.stored t.particles.tgtStart t.particles.tgtCount t.targets
        t.targetRadii)
    t.tree.nlevels [] 0

/-- The event that is returned is that of the last launch, `/repo/boxtree/tree_build.py:1796-1802`, `:1876`. -/
def lastCommand {S : Type} (cmds : List (Command S)) : Nat := cmds.length - 1

end Boxtree.Build
