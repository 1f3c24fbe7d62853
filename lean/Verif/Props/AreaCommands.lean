import Verif.Lemmas.AreaCommands
import Verif.Props.AreaQuery

/-!
# C96: the wait lists of the area query builders

`Allowed a.launches [] order` says that the launches in `order` ran in that order, each at most once and after
those whose events it waits for; `exec a.launches order s₀` is the memory afterwards, `s₀` the one before.  The
launch `.balls` is the caller's, which writes the balls; its event is in the `wait_for` given to the builder.
-/

namespace Boxtree
open Queue Area

/-- Area query: in every order, once the returned event is complete the balls had been written before they were
read, and the lists are those of the query. -/
theorem C96_area_query (a : AreaCall) (r : BuiltList)
    (h : areaQuery a.t a.bmin a.balls a.peers a.guide a.ov a.adj = .ok r)
    (s₀ : ∀ x, Arr.Val x) (order : List Arr) (ha : Allowed a.launches [] order) (hq : .query ∈ order) :
    .balls ∈ order ∧ exec a.launches order s₀ .query = r := by
  have hr : r = a.queryOf := by
    unfold areaQuery at h
    simp only at h
    split at h
    · cases h
    · exact (Except.ok.inj h).symm
  rw [hr]
  exact run_query a order s₀ ha hq

/-- Space invader query: likewise, with the zero fill of the output. -/
theorem C96_space_invader (a : AreaCall) (s₀ : ∀ x, Arr.Val x) (order : List Arr)
    (ha : Allowed a.launches [] order) (hq : .dists ∈ order) :
    .balls ∈ order ∧ exec a.launches order s₀ .dists =
      spaceInvader a.t (a.sched (a.balls.map fun ball => invaderUpdates a.t a.asInt a.bmin
        (a.peers.getD (peerLists a.t a.adj)) ball a.guide a.ov a.dist)) := by
  obtain ⟨pre, h1, h2, h3, h4⟩ := exec_mem a.launches .dists order s₀ _ rfl ha hq
  obtain ⟨h5, h6, h7⟩ := run_inputs a pre s₀ h2 (fun w hw => h3 w (by simp [hw]))
  have h8 := run_zeros a pre s₀ h2 (h3 _ (by simp))
  refine ⟨h1 _ h5, ?_⟩
  rw [h4]
  simp only [h6, h7, h8]
  rfl

/-- Leaves-to-balls lookup: the result is right if the area query happens to be complete when the starts expander
runs (as on an in-order queue). -/
theorem C96_leaves_to_balls_partial (a : AreaCall) (r : BuiltList)
    (h : leavesToBalls a.t a.argsort a.bmin a.balls a.peers a.guide a.ov a.adj = .ok (some r))
    (s₀ : ∀ x, Arr.Val x) (pre post : List Arr)
    (ha : Allowed a.launches [] (pre ++ .expanded :: post)) (hq : .query ∈ pre) (hs : .sorted ∈ post) :
    exec a.launches (pre ++ .expanded :: post) s₀ .sorted = r := by
  have hr : ∃ e, expandStarts a.queryOf.starts a.queryOf.lists.length = some e ∧
      r = keyValueSort a.argsort a.queryOf.lists e a.t.nboxes := by
    unfold leavesToBalls areaQuery at h
    simp only at h
    split at h
    · cases h
    · have h' := Except.ok.inj h
      obtain ⟨e, h1, h2⟩ := Option.map_eq_some_iff.1 h'
      exact ⟨e, h1, h2.symm⟩
  obtain ⟨e, he, rfl⟩ := hr
  obtain ⟨p1, p2, rfl⟩ := List.append_of_mem hs
  have hn := (allowed_nodup a.launches _ _ ha).1
  have hal := (allowed_split a.launches .expanded (p1 ++ .sorted :: p2) _ rfl pre [] ha).1
  have eq : pre ++ .expanded :: (p1 ++ .sorted :: p2) = (pre ++ .expanded :: p1) ++ .sorted :: p2 := by simp
  have hsp : Arr.sorted ∉ p2 := by
    rw [eq] at hn
    exact (List.nodup_cons.1 (List.nodup_append.1 hn).2.1).1
  have hep : Arr.expanded ∉ p1 := by
    have := (List.nodup_cons.1 (List.nodup_append.1 hn).2.1).1
    exact fun h => this (by simp [h])
  have hal2 : Allowed a.launches [] (pre ++ .expanded :: p1) := by
    rw [eq] at ha
    exact (allowed_split a.launches .sorted p2 _ rfl _ [] ha).1
  rw [eq, exec_at a.launches .sorted _ p2 s₀ _ rfl hsp]
  have hQ := (run_query a (pre ++ .expanded :: p1) s₀ hal2 (by simp [hq])).2
  have hE : exec a.launches (pre ++ .expanded :: p1) s₀ .expanded = e := by
    rw [exec_at a.launches .expanded pre p1 s₀ _ rfl hep]
    have := (run_query a pre s₀ hal hq).2
    simp only [this, nlists_eq, he]
    rfl
  simp only [hQ, hE]
  rfl

/-- Leaves-to-balls lookup: the starts expander does not wait for the area query, and the sorter only for the
expander.  The returned event may be complete before the balls are written or the query has begun; and with all
launches complete, every entry of the lists may be ball 0. -/
theorem C96_expander_unordered (a : AreaCall) (r : BuiltList)
    (_h : leavesToBalls a.t a.argsort a.bmin a.balls a.peers a.guide a.ov a.adj = .ok (some r))
    (hne : ∃ b ∈ r.lists, b ≠ 0) :
    Allowed a.launches [] [.expanded, .sorted] ∧
    ∃ (s₀ : ∀ x, Arr.Val x) (order : List Arr), Allowed a.launches [] order ∧
      (.balls ∈ order ∧ .query ∈ order ∧ .expanded ∈ order ∧ .sorted ∈ order) ∧
      exec a.launches order s₀ .sorted ≠ r := by
  refine ⟨⟨⟨_, rfl, by simp⟩, by simp, ⟨_, rfl, by simp⟩, by simp, trivial⟩, ?_⟩
  let s₀ : ∀ x, Arr.Val x := fun x => match x with
    | .balls => ([] : List Ball)
    | .peers => (⟨[], []⟩ : BuiltList)
    | .query => (⟨[], []⟩ : BuiltList)
    | .expanded => ([] : List Nat)
    | .sorted => (⟨[], []⟩ : BuiltList)
    | .zeros => ([] : List ℤ)
    | .dists => ([] : List ℤ)
  have key : ∀ mid, Allowed a.launches [] ((.expanded :: mid) ++ [.sorted]) → .expanded ∉ mid →
      exec a.launches ((.expanded :: mid) ++ [.sorted]) s₀ .sorted ≠ r := by
    intro mid _ hm he
    rw [exec_at a.launches .sorted _ [] s₀ _ rfl (by simp)] at he
    have hE : exec a.launches (.expanded :: mid) s₀ .expanded = ([] : List Nat) := by
      have := exec_at a.launches .expanded [] mid s₀ _ rfl hm
      simp only [List.nil_append] at this
      rw [this]
      change (expandStarts [] a.nlists).getD [] = []
      cases a.nlists with
      | zero => rfl
      | succ n =>
        unfold expandStarts
        rw [List.range_succ_eq_map, List.mapM_cons]
        rfl
    obtain ⟨b, hb, hb0⟩ := hne
    rw [← he] at hb
    simp only [hE] at hb
    unfold keyValueSort at hb
    simp only [List.getD_nil, List.mem_map] at hb
    obtain ⟨_, _, hb⟩ := hb
    exact hb0 hb.symm
  cases hp : a.peers with
  | some p =>
    have hal : Allowed a.launches [] ((.expanded :: [.balls, .query]) ++ [.sorted]) := by
      refine ⟨⟨_, rfl, by simp⟩, by simp, ⟨_, rfl, by simp⟩, by simp, ⟨_, rfl, ?_⟩, by simp,
        ⟨_, rfl, by simp⟩, by simp, trivial⟩
      unfold AreaCall.queryWaits
      rw [hp]; simp
    exact ⟨s₀, _, hal, by simp, key _ hal (by simp)⟩
  | none =>
    have hal : Allowed a.launches [] ((.expanded :: [.balls, .peers, .query]) ++ [.sorted]) := by
      have hc : a.launches .peers = some ⟨[.balls], fun _ => peerLists a.t a.adj⟩ := by
        unfold AreaCall.launches; simp only [hp]
      refine ⟨⟨_, rfl, by simp⟩, by simp, ⟨_, rfl, by simp⟩, by simp, ⟨_, hc, by simp⟩, by simp,
        ⟨_, rfl, ?_⟩, by simp, ⟨_, rfl, by simp⟩, by simp, trivial⟩
      unfold AreaCall.queryWaits
      rw [hp]; simp
    exact ⟨s₀, _, hal, by simp, key _ hal (by simp)⟩

namespace Ex

/-- Three balls in the example tree, peer lists to be built. -/
def exCall : AreaCall where
  t := exTree
  bmin := exBmin
  guide := guidingBox exTree exBmin
  ov := ballOverlaps exTree
  adj := fun a la b lb => exTree.adjOver (exTree.center a) la (exTree.center b) lb
  dist := fun ball leaf => exTree.linf ball.center (exTree.center leaf)
  asInt := fun x => ⌊x * 8⌋
  balls := exBalls
  peers := none
  argsort := stableArgsort
  sched := List.flatten

/-- Orders as in `C96_area_query`, `C96_leaves_to_balls_partial` and `C96_space_invader`. -/
example : Allowed exCall.launches [] [.zeros, .balls, .peers, .query, .expanded, .sorted, .dists] := by
  refine ⟨⟨_, rfl, by simp⟩, by simp, ⟨_, rfl, by simp⟩, by simp, ⟨_, rfl, by simp⟩, by simp, ⟨_, rfl, ?_⟩,
    by simp, ⟨_, rfl, by simp⟩, by simp, ⟨_, rfl, by simp⟩, by simp, ⟨_, rfl, ?_⟩, by simp, trivial⟩
  · decide
  · decide

/-- A result with entries other than ball 0, as in `C96_expander_unordered`. -/
example : (leavesToBalls exCall.t exCall.argsort exCall.bmin exCall.balls exCall.peers exCall.guide exCall.ov
    exCall.adj).toOption.map (fun r => r.map (·.lists)) = some (some [1, 0, 1, 1]) := by
  decide +kernel

end Ex
end Boxtree
