import Mathlib.Algebra.BigOperators.Group.List.Basic
import Verif.Model.Tools
import Verif.Model.Csr

/-!
# Model of the multipole reduction of the distributed FMM

`communicate_mpoles` and its helpers, `/repo/boxtree/distributed/calculation.py:147-416`, run by
all ranks at once.  Expansion coefficients are elements of an arbitrary commutative monoid (exact
addition); the multipole array of a rank is a function from box and coefficient index.
-/

namespace Boxtree.Dist
open Tools

/-- What `_slice_mpoles` and `_update_mpoles` use of the tree and of
`multipole_expansions_view`: `nlevels`, `level_start_box_nrs` and the number of coefficients of
one box on each level.  `/repo/boxtree/distributed/calculation.py:147-202`. -/
structure MpoleLayout where
  nlevels : Nat
  levelStart : Nat → Nat
  ncoef : Nat → Nat

variable {V : Type} [AddCommMonoid V]

/-- `slice_indices[start:stop]` with `start, stop = level_start_slice_indices[ilevel:ilevel+2]`,
`/repo/boxtree/distributed/calculation.py:156-161`.  `np.searchsorted` (left side) of a sorted
array is the number of smaller entries. -/
def levelSlice (L : MpoleLayout) (idx : List Nat) (l : Nat) : List Nat :=
  let start := idx.countP fun b => decide (b < L.levelStart l)
  let stop := idx.countP fun b => decide (b < L.levelStart (l + 1))
  (idx.drop start).take (stop - start)

/-- `_slice_mpoles`, `/repo/boxtree/distributed/calculation.py:147-171`: the coefficients of the
listed boxes, level by level, flattened. -/
def sliceMpoles (L : MpoleLayout) (mp : Nat → Nat → V) (idx : List Nat) : List V :=
  if idx.length = 0 then []
  else (List.range L.nlevels).flatMap fun l =>
    (levelSlice L idx l).flatMap fun b => (List.range (L.ncoef l)).map (mp b)

/-- `mpoles_current_level[boxes] += chunk.reshape(shape)`,
`/repo/boxtree/distributed/calculation.py:195-199`.  With repeated indices numpy would keep the
last update; the lists sent have none. -/
def updateLevel (mp : Nat → Nat → V) (boxes : List Nat) (nc : Nat) (chunk : List V) :
    Nat → Nat → V := fun b c =>
  if b ∈ boxes ∧ c < nc then mp b c + chunk.getD (boxes.idxOf b * nc + c) 0 else mp b c

/-- One iteration of the level loop of `_update_mpoles`,
`/repo/boxtree/distributed/calculation.py:186-201`; the state is the array and
`mpole_updates_start`. -/
def updateStep (L : MpoleLayout) (upd : List V) (idx : List Nat) (st : (Nat → Nat → V) × Nat)
    (l : Nat) : (Nat → Nat → V) × Nat :=
  let boxes := levelSlice L idx l
  if boxes.length > 0 then
    let stop := st.2 + boxes.length * L.ncoef l
    (updateLevel st.1 boxes (L.ncoef l) ((upd.drop st.2).take (stop - st.2)), stop)
  else st

/-- `_update_mpoles`, `/repo/boxtree/distributed/calculation.py:173-202`. -/
def updateMpoles (L : MpoleLayout) (mp : Nat → Nat → V) (upd : List V) (idx : List Nat) :
    Nat → Nat → V :=
  if idx.length = 0 then mp
  else ((List.range L.nlevels).foldl (updateStep L upd idx) (mp, 0)).1

/-- `find_boxes_used_by_subrange`, `/repo/boxtree/distributed/calculation.py:204-269`: for each
listed box, whether a rank of the half-open range is on its row of the CSR list
`box_to_user_rank`. -/
def usedBySubrange (users : BuiltList) (range : Nat × Nat) (boxes : List Nat) : List Bool :=
  boxes.map fun b => (users.row b).any fun u => range.1 ≤ u && u < range.2

/-- `contributing_boxes_list[box_in_subrange_host]`,
`/repo/boxtree/distributed/calculation.py:344-361`. -/
def relevantBoxes (nboxes : Nat) (users : BuiltList) (range : Nat × Nat) (contrib : Nat → Bool) :
    List Nat :=
  let boxes := (List.range nboxes).filter contrib
  ((boxes.zip (usedBySubrange users range boxes)).filter Prod.snd).map Prod.fst

/-- The two arrays sent to one sink in one stage.
`/repo/boxtree/distributed/calculation.py:383-391`. -/
structure Msg (V : Type) where
  boxes : List Nat
  values : List V

/-- `mpole_exps` and `contributing_boxes` of one rank.
`/repo/boxtree/distributed/calculation.py:271-319`. -/
structure Data (V : Type) where
  mp : Nat → Nat → V
  contrib : Nat → Bool

/-- Everything that does not change during the reduction.
`/repo/boxtree/distributed/calculation.py:271-335`. -/
structure Setup where
  size : Nat
  nboxes : Nat
  layout : MpoleLayout
  users : BuiltList

/-- The message a rank sends, `/repo/boxtree/distributed/calculation.py:341-383`. -/
def makeMsg (E : Setup) (c : Comm) (d : Data V) : Msg V :=
  let boxes := relevantBoxes E.nboxes E.users c.messages d.contrib
  ⟨boxes, sliceMpoles E.layout d.mp boxes⟩

/-- What a rank does with a received message,
`/repo/boxtree/distributed/calculation.py:404-408`. -/
def absorb (E : Setup) (d : Data V) (m : Msg V) : Data V :=
  ⟨updateMpoles E.layout d.mp m.values m.boxes, fun b => d.contrib b || m.boxes.contains b⟩

/-- Where a rank is in `communicate_mpoles`.  `phase = none`: at the `while` test.
`phase = some pending`: in the body, messages of this stage posted, still to receive from
`pending`, in that order.  `stage` counts the completed iterations; no code reads it.
`/repo/boxtree/distributed/calculation.py:337-413`. -/
structure RankState (V : Type) where
  comm : Comm
  data : Data V
  phase : Option (List Nat)
  stage : Nat

/-- All ranks and the messages sent but not received, in order, for each pair sender, receiver.
Messages posted at `/repo/boxtree/distributed/calculation.py:383-391` and received at `:393-402`. -/
structure NetState (V : Type) where
  ranks : Nat → RankState V
  net : Nat → Nat → List (Msg V)

/-- State in which `communicate_mpoles` starts,
`/repo/boxtree/distributed/calculation.py:309-319`: `ancestor` and `responsible` of each rank give
`contributing_boxes`. -/
def start (E : Setup) (mp : Nat → Nat → Nat → V) (ancestor : Nat → Nat → Bool)
    (responsible : Nat → List Nat) : NetState V :=
  ⟨fun r => ⟨Comm.init r E.size,
      ⟨mp r, fun b => ancestor r b || (responsible r).contains b⟩, none, 0⟩,
   fun _ _ => []⟩

/-- One step of the ranks running `communicate_mpoles`,
`/repo/boxtree/distributed/calculation.py:337-413`.

* `post`: the loop is entered and the messages of this stage are posted with `Isend` (which does
  not block).  The set `sources()` is iterated in an arbitrary order.
* `recv`: the blocking receives from the next source complete: the first message of the pair is
  taken and absorbed.  Potentials and indices travel as one message; per pair and tag MPI keeps
  order, and the receiver takes one of each.
* `finish`: `wait` on the send requests returns and `advance` is called.  If `rendezvous` is set,
  `wait` returns only when the messages of this rank to its sinks have been received; otherwise it
  may return at once (buffered sends).  MPI allows anything in between. -/
inductive Step (rendezvous : Bool) (E : Setup) : NetState V → NetState V → Prop
  | post (σ : NetState V) (r : Nat) (pending : List Nat) (hr : r < E.size)
      (hphase : (σ.ranks r).phase = none) (hdone : (σ.ranks r).comm.done = false)
      (hperm : pending.Perm (σ.ranks r).comm.sources) :
      Step rendezvous E σ
        ⟨Function.update σ.ranks r { σ.ranks r with phase := some pending },
         fun s d => if s = r ∧ d ∈ (σ.ranks r).comm.sinks then
            σ.net s d ++ [makeMsg E (σ.ranks r).comm (σ.ranks r).data] else σ.net s d⟩
  | recv (σ : NetState V) (r s : Nat) (pending : List Nat) (m : Msg V) (rest : List (Msg V))
      (hr : r < E.size) (hphase : (σ.ranks r).phase = some (s :: pending))
      (hnet : σ.net s r = m :: rest) :
      Step rendezvous E σ
        ⟨Function.update σ.ranks r
          { σ.ranks r with data := absorb E (σ.ranks r).data m, phase := some pending },
         fun a d => if a = s ∧ d = r then rest else σ.net a d⟩
  | finish (σ : NetState V) (r : Nat) (c : Comm) (hr : r < E.size)
      (hphase : (σ.ranks r).phase = some [])
      (hwait : rendezvous = true → ∀ d ∈ (σ.ranks r).comm.sinks, σ.net r d = [])
      (hadv : (σ.ranks r).comm.advance = .ok c) :
      Step rendezvous E σ
        ⟨Function.update σ.ranks r
          { σ.ranks r with comm := c, phase := none, stage := (σ.ranks r).stage + 1 }, σ.net⟩

/-- `n` steps.  Iterated execution of the loop `/repo/boxtree/distributed/calculation.py:337-413` of
all ranks. -/
inductive Steps (rendezvous : Bool) (E : Setup) : Nat → NetState V → NetState V → Prop
  | nil (σ : NetState V) : Steps rendezvous E 0 σ σ
  | snoc {n : Nat} {σ τ υ : NetState V} (h : Steps rendezvous E n σ τ)
      (hs : Step rendezvous E τ υ) : Steps rendezvous E (n + 1) σ υ

/-- The rank has left the `while` loop, `/repo/boxtree/distributed/calculation.py:337`. -/
def RankState.finished (s : RankState V) : Prop := s.phase = none ∧ s.comm.done = true

/-- The branch `communicate_mpoles_via_allreduce`,
`/repo/boxtree/distributed/calculation.py:288-294`: `Allreduce` sums the arrays of all ranks, and
every rank copies the result. -/
def allreduce (size : Nat) (mp : Nat → Nat → Nat → V) : Nat → Nat → Nat → V := fun _ b c =>
  ((List.range size).map fun s => mp s b c).sum

end Boxtree.Dist
