import Verif.Model.Geometry

/-!
# The stack-based tree walk

Model of `TRAVERSAL_PREAMBLE_MAKO_DEFS` (`/repo/boxtree/traversal.py:98-160`), the walk
shared by the list-building kernels and by the area queries.
-/

namespace Boxtree

/-- The walk variables declared by `walk_init`, `/repo/boxtree/traversal.py:99-108`.
`walk_box_stack` and `walk_morton_nr_stack` are one list of pairs, top of stack first;
`walk_stack_size` is its length.  The fixed capacity `NLEVELS` is not enforced here: that
it is never exceeded is a theorem. -/
structure WalkState where
  stack : List (Nat × Nat)
  parent : Nat
  morton : Nat
  cont : Bool
deriving DecidableEq

/-- `walk_init(start)`, `/repo/boxtree/traversal.py:99-108`. -/
def walkInit (start : Nat) : WalkState := ⟨[], start, 0, true⟩

/-- `walk_advance`, `/repo/boxtree/traversal.py:115-143`: increment the Morton number,
popping the stack as long as it runs past the last child. -/
def walkAdvance (nch : Nat) : List (Nat × Nat) → Nat → Nat → WalkState
  | [], p, m => if m + 1 < nch then ⟨[], p, m + 1, true⟩ else ⟨[], p, m + 1, false⟩
  | (p', m') :: rest, p, m =>
      if m + 1 < nch then ⟨(p', m') :: rest, p, m + 1, true⟩
      else walkAdvance nch rest p' m'

/-- One iteration of the kernels' `while (continue_walk)` loop
(e.g. `/repo/boxtree/traversal.py:418-461`): `walk_get_box_id` (`:110-113`), and if there is
a box, the kernel-specific body `visit depth box`, which returns what it APPENDs and
whether it executes `walk_push(box); continue` (`:145-160`); otherwise `walk_advance`.
`depth` is `walk_stack_size`. -/
def walkStep {α : Type} (t : BoxTree) (visit : Nat → Nat → List α × Bool)
    (s : WalkState) : WalkState × List α :=
  let c := t.child s.morton s.parent
  if c = 0 then (walkAdvance t.nch s.stack s.parent s.morton, [])
  else
    let r := visit s.stack.length c
    if r.2 then (⟨(s.parent, s.morton) :: s.stack, c, 0, true⟩, r.1)
    else (walkAdvance t.nch s.stack s.parent s.morton, r.1)

/-- The loop `while (continue_walk)`, with a bound on the number of iterations;
`none` means the bound was hit before the loop ended.  `/repo/boxtree/traversal.py:416-462` and the
other walks with the macros of `:99-160`. -/
def walkRun {α : Type} (t : BoxTree) (visit : Nat → Nat → List α × Bool) :
    Nat → WalkState → List α → Option (List α)
  | fuel, s, acc =>
    if s.cont then
      match fuel with
      | 0 => none
      | fuel + 1 =>
        let r := walkStep t visit s
        walkRun t visit fuel r.1 (acc ++ r.2)
    else some acc

/-- Iterations needed per child when at most `h` further levels exist below it.  Auxiliary to the
bound for the loop `/repo/boxtree/traversal.py:416-462`. -/
def walkCost (nch : Nat) : Nat → Nat
  | 0 => 1
  | h + 1 => 1 + nch * walkCost nch h

/-- An iteration bound sufficient for every well-formed tree (proved in
`Props/Walk.lean`).  Auxiliary to the bound for the loop `/repo/boxtree/traversal.py:416-462`. -/
def walkFuel (t : BoxTree) : Nat := t.nch * walkCost t.nch t.nlevels

/-- A complete walk starting from the children of `start`.  The `getD []` branch is never
taken on a well-formed tree (`walk_terminates`).  `/repo/boxtree/traversal.py:416-462`. -/
def walk {α : Type} (t : BoxTree) (visit : Nat → Nat → List α × Bool) (start : Nat) :
    List α :=
  (walkRun t visit (walkFuel t) (walkInit start) []).getD []

end Boxtree
