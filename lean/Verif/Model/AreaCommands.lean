import Verif.Model.AreaQuery
import Verif.Model.TravCommands

/-!
# The launches of the area query builders and their wait lists

`PeerListFinder`, `AreaQueryBuilder`, `LeavesToBallsLookupBuilder` and `SpaceInvaderQueryBuilder`
(`/repo/boxtree/area_query.py:740-1190`) called with a list of events `wait_for`.  Launches are those of
`Queue`, named by what they write.  As for the traversal builder, launches do not overlap, and the passes of a
list builder or of the sorter (`pyopencl`) are one launch.
-/

namespace Boxtree
namespace Area
open Queue

/-- Arguments of the builders.  `guide`, `ov`, `adj`, `dist` are the geometric tests (exact or rounded, as in
`Model/AreaQuery`), `peers` is `peer_lists`, `argsort` is what the sorter does, `sched` the order in which the
device performs the atomic updates of the work items.  `/repo/boxtree/area_query.py:745-748`, `:847-849`,
`:970-972`. -/
structure AreaCall where
  t : BoxTree
  bmin : Nat → ℚ
  guide : Ball → Nat
  ov : Ball → Nat → Bool
  adj : AdjTest
  dist : Ball → Nat → ℚ
  asInt : ℚ → ℤ
  balls : List Ball
  peers : Option BuiltList
  argsort : List Nat → List Nat
  sched : List (List (Nat × ℤ)) → List (Nat × ℤ)

/-- What the launches write: the caller's launch that writes the balls, whose event is in `wait_for`, and those of
the builders, `/repo/boxtree/area_query.py:789`, `:892-894`, `:902`, `:1020`, `:1028`, `:1174`. -/
inductive Arr
  | balls
  | peers
  | query
  | expanded
  | sorted
  | zeros
  | dists
deriving DecidableEq

/-- Types of the contents.  `/repo/boxtree/area_query.py:740-1190`. -/
def Arr.Val : Arr → Type
  | .balls => List Ball
  | .peers => BuiltList
  | .query => BuiltList
  | .expanded => List Nat
  | .sorted => BuiltList
  | .zeros => List ℤ
  | .dists => List ℤ

variable (a : AreaCall)

/-- The peer lists a query kernel reads, `/repo/boxtree/area_query.py:776-778`, `:1007-1009`. -/
def AreaCall.peersIn (m : ∀ x, Arr.Val x) : BuiltList :=
  match a.peers with
  | some p => p
  | none => m .peers

/-- `wait_for` of the query kernels, `/repo/boxtree/area_query.py:776-778`, `:1007-1009`. -/
def AreaCall.queryWaits : List Arr :=
  match a.peers with
  | some _ => [.balls]
  | none => [.peers]

/-- `len(area_query.leaves_near_ball_lists)`, `/repo/boxtree/area_query.py:892-893`: known on the host when
the starts expander is launched. -/
def AreaCall.nlists : Nat :=
  (a.balls.map fun ball => (areaWalk a.t a.bmin (a.peers.getD (peerLists a.t a.adj)) ball a.guide a.ov).length).sum

/-- The launches with their wait lists.  Peer lists: `/repo/boxtree/area_query.py:1174-1179`; area query:
`:776-798`; starts expander, which is given no `wait_for`: `:894-898`; sorter: `:902-910`; space invader query:
`:1020-1036`. -/
def AreaCall.launches : (x : Arr) → Option (Launch Arr Arr.Val x)
  | .balls => some ⟨[], fun _ => a.balls⟩
  | .peers =>
      match a.peers with
      | some _ => none
      | none => some ⟨[.balls], fun _ => peerLists a.t a.adj⟩
  | .query => some ⟨a.queryWaits, fun m => buildLists ((m .balls : List Ball).map fun ball =>
      areaWalk a.t a.bmin (a.peersIn m) ball a.guide a.ov)⟩
  | .expanded => some ⟨[], fun m => (expandStarts (m .query : BuiltList).starts a.nlists).getD []⟩
  | .sorted => some ⟨[.expanded], fun m =>
      keyValueSort a.argsort (m .query : BuiltList).lists (m .expanded) a.t.nboxes⟩
  | .zeros => some ⟨[], fun _ => List.replicate a.t.nboxes 0⟩
  | .dists => some ⟨a.queryWaits ++ [.zeros], fun m =>
      (a.sched ((m .balls : List Ball).map fun ball =>
        invaderUpdates a.t a.asInt a.bmin (a.peersIn m) ball a.guide a.ov a.dist)).foldl atomicMax (m .zeros)⟩

end Area
end Boxtree
