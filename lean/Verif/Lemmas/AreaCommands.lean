import Verif.Model.AreaCommands
import Verif.Lemmas.TravCommands

/-!
# Lemmas for the launches of the area query builders
-/

namespace Boxtree
namespace Queue

variable {L : Type} [DecidableEq L] {V : L → Type}

omit [DecidableEq L] in
theorem allowed_nodup (cmds : ∀ x, Option (Launch L V x)) : ∀ (xs done : List L),
    Allowed cmds done xs → xs.Nodup ∧ ∀ x ∈ xs, x ∉ done := by
  intro xs
  induction xs with
  | nil => intros; simp
  | cons a xs ih =>
    intro done h
    obtain ⟨h1, h2⟩ := ih _ h.2.2
    refine ⟨List.nodup_cons.2 ⟨fun ha => h2 a ha (by simp), h1⟩, ?_⟩
    intro x hx
    rcases List.mem_cons.1 hx with rfl | hx
    · exact h.2.1
    · exact fun hd => h2 x hx (by simp [hd])

omit [DecidableEq L] in
theorem allowed_split (cmds : ∀ x, Option (Launch L V x)) (x : L) (post : List L)
    (c : Launch L V x) (hc : cmds x = some c) : ∀ (pre done : List L),
    Allowed cmds done (pre ++ x :: post) → Allowed cmds done pre ∧ ∀ w ∈ c.waits, w ∈ pre ∨ w ∈ done := by
  intro pre
  induction pre with
  | nil =>
    intro done h
    obtain ⟨⟨c', h1, h2⟩, _⟩ := h
    rw [hc] at h1
    cases h1
    exact ⟨trivial, fun w hw => Or.inr (h2 w hw)⟩
  | cons a pre ih =>
    intro done h
    obtain ⟨h1, h2⟩ := ih _ h.2.2
    refine ⟨⟨h.1, h.2.1, h1⟩, fun w hw => ?_⟩
    rcases h2 w hw with h3 | h3
    · left; simp [h3]
    · rcases List.mem_cons.1 h3 with h4 | h4
      · left; simp [h4]
      · right; exact h4

theorem exec_at (cmds : ∀ x, Option (Launch L V x)) (x : L) (pre post : List L) (s : ∀ y, V y)
    (c : Launch L V x) (hc : cmds x = some c) (hp : x ∉ post) :
    exec cmds (pre ++ x :: post) s x = c.value (exec cmds pre s) := by
  rw [exec_append]
  change exec cmds post _ x = _
  rw [exec_of_not_mem _ _ _ _ hp, hc]
  exact Function.update_self _ _ _

/-- What a launch stores that comes once, and where it stands. -/
theorem exec_mem (cmds : ∀ x, Option (Launch L V x)) (x : L) (order : List L) (s : ∀ y, V y)
    (c : Launch L V x) (hc : cmds x = some c) (ha : Allowed cmds [] order) (hx : x ∈ order) :
    ∃ pre, (∀ y ∈ pre, y ∈ order) ∧ Allowed cmds [] pre ∧ (∀ w ∈ c.waits, w ∈ pre) ∧
      exec cmds order s x = c.value (exec cmds pre s) := by
  obtain ⟨pre, post, rfl⟩ := List.append_of_mem hx
  have hn := (allowed_nodup cmds _ _ ha).1
  have hp : x ∉ post := (List.nodup_cons.1 (List.nodup_append.1 hn).2.1).1
  obtain ⟨h1, h2⟩ := allowed_split cmds x post c hc pre [] ha
  exact ⟨pre, fun y hy => by simp [hy], h1, fun w hw => by simpa using h2 w hw,
    exec_at cmds x pre post s c hc hp⟩

end Queue

namespace Area
open Queue
variable (a : AreaCall)

theorem run_balls (order : List Arr) (s : ∀ x, Arr.Val x) (ha : Allowed a.launches [] order)
    (h : .balls ∈ order) : exec a.launches order s .balls = a.balls := by
  obtain ⟨_, _, _, _, h4⟩ := exec_mem a.launches .balls order s _ rfl ha h
  exact h4

theorem run_zeros (order : List Arr) (s : ∀ x, Arr.Val x) (ha : Allowed a.launches [] order)
    (h : .zeros ∈ order) : exec a.launches order s .zeros = List.replicate a.t.nboxes (0 : ℤ) := by
  obtain ⟨_, _, _, _, h4⟩ := exec_mem a.launches .zeros order s _ rfl ha h
  exact h4

/-- When the events a query kernel waits for are complete, it reads the balls and the peer lists. -/
theorem run_inputs (order : List Arr) (s : ∀ x, Arr.Val x) (ha : Allowed a.launches [] order)
    (h : ∀ w ∈ a.queryWaits, w ∈ order) :
    .balls ∈ order ∧ exec a.launches order s .balls = a.balls ∧
      a.peersIn (exec a.launches order s) = a.peers.getD (peerLists a.t a.adj) := by
  cases hp : a.peers with
  | some p =>
    have hb : Arr.balls ∈ order := h _ (by unfold AreaCall.queryWaits; rw [hp]; simp)
    refine ⟨hb, run_balls a order s ha hb, ?_⟩
    unfold AreaCall.peersIn
    rw [hp]; rfl
  | none =>
    have hm : Arr.peers ∈ order := h _ (by unfold AreaCall.queryWaits; rw [hp]; simp)
    have hc : a.launches .peers = some ⟨[.balls], fun _ => peerLists a.t a.adj⟩ := by
      unfold AreaCall.launches; simp only [hp]
    obtain ⟨pre, h1, _, h3, h4⟩ := exec_mem a.launches .peers order s _ hc ha hm
    have hb : Arr.balls ∈ order := h1 _ (h3 _ (by simp))
    refine ⟨hb, run_balls a order s ha hb, ?_⟩
    unfold AreaCall.peersIn
    rw [hp]
    exact h4

/-- The area query as the builder returns it. -/
def AreaCall.queryOf : BuiltList := buildLists (a.balls.map fun ball =>
  areaWalk a.t a.bmin (a.peers.getD (peerLists a.t a.adj)) ball a.guide a.ov)

theorem run_query (order : List Arr) (s : ∀ x, Arr.Val x) (ha : Allowed a.launches [] order)
    (h : .query ∈ order) : .balls ∈ order ∧ exec a.launches order s .query = a.queryOf := by
  obtain ⟨pre, h1, h2, h3, h4⟩ := exec_mem a.launches .query order s _ rfl ha h
  obtain ⟨h5, h6, h7⟩ := run_inputs a pre s h2 h3
  refine ⟨h1 _ h5, ?_⟩
  rw [h4]
  simp only [h6, h7]
  rfl

theorem nlists_eq : a.nlists = a.queryOf.lists.length := by
  unfold AreaCall.nlists AreaCall.queryOf buildLists
  simp only [List.length_flatten, List.map_map]
  rfl

end Area
end Boxtree
