import Mathlib.Algebra.BigOperators.Intervals
import Mathlib.Data.Finset.Max
import Mathlib.Algebra.Order.BigOperators.Group.Finset
import Verif.Lemmas.Communicate
import Verif.Props.AllReduce

/-!
# Runs of the multipole reduction

Every run is compared with the run in which all ranks go through the stages in lockstep.
-/

namespace Boxtree.Dist
open Tools Comm

variable {V : Type} [AddCommMonoid V]

/-- Communication object of rank `r` at stage `k`. -/
def commAt (size r k : Nat) : Comm :=
  match Comm.after r size k with
  | .ok c => c
  | .error _ => Comm.init r size

theorem commAt_eq {size r k : Nat} {c : Comm} (h : after r size k = .ok c) :
    commAt size r k = c := by
  unfold commAt; rw [h]

/-- Data of all ranks at the start of stage `k` if the ranks run in lockstep. -/
def sync (E : Setup) (d0 : Nat → Data V) : Nat → Nat → Data V
  | 0, r => d0 r
  | k + 1, r => (commAt E.size r k).sources.foldl
      (fun d s => absorb E d (makeMsg E (commAt E.size s k) (sync E d0 k s))) (sync E d0 k r)

/-- Message of rank `s` at stage `k`. -/
def msgAt (E : Setup) (d0 : Nat → Data V) (k s : Nat) : Msg V :=
  makeMsg E (commAt E.size s k) (sync E d0 k s)

/-- Rank `s` sends to rank `r` at stage `k`. -/
def Link (size s r k : Nat) : Prop :=
  ∃ c, after s size k = .ok c ∧ c.done = false ∧ r ∈ c.sinks

theorem source_mem {a size k : Nat} {c : Comm} (ha : a < size) (hc : after a size k = .ok c)
    {s : Nat} (hs : s ∈ c.sources) :
    c.messages.1 ≤ s ∧ s < c.messages.2 ∧ c.left ≤ s ∧ s < c.right ∧ s < size := by
  obtain ⟨a1, a2, a3, a4, a5⟩ := comm_inv ha hc
  simp only [sources] at hs
  simp only [messages]
  split_ifs at hs ⊢ <;>
    simp only [List.mem_cons, List.not_mem_nil, or_false] at hs <;>
    omega

theorem Link.source {size s r k : Nat} (hs : s < size) (h : Link size s r k) :
    r < size ∧ ∃ c, after r size k = .ok c ∧ c.done = false ∧ s ∈ c.sources := by
  obtain ⟨c, h1, h2, h3⟩ := h
  obtain ⟨b, e1, e2, e3, -, -, cb, e6, e7, -⟩ := C35_one_sink hs h1 h2
  rw [e1, List.mem_singleton] at h3
  subst h3
  refine ⟨e3, cb, e6, e7, ?_⟩
  rw [← C35_sink_iff_source hs e3 h1 e6 h2 e7, e1]
  simp

theorem link_of_source {size s r k : Nat} (hr : r < size) {c : Comm}
    (h1 : after r size k = .ok c) (h2 : c.done = false) (h3 : s ∈ c.sources) :
    s < size ∧ Link size s r k := by
  obtain ⟨-, -, h6, h7, h8⟩ := source_mem hr h1 h3
  have hcs := comm_group hr h1 h6 h7
  have hds : ({ c with rank := s } : Comm).done = false := h2
  exact ⟨h8, _, hcs, hds, (C35_sink_iff_source h8 hr hcs h1 hds h2).2 h3⟩

theorem Link.unique {size s r k j : Nat} (hs : s < size) (h1 : Link size s r k)
    (h2 : Link size s r j) : k = j := by
  obtain ⟨c, a1, a2, a3⟩ := h1
  obtain ⟨c', b1, b2, b3⟩ := h2
  exact C35_pair_meets_once hs a1 b1 a2 b2 a3 b3

theorem Link.ne {size s r k : Nat} (hs : s < size) (h : Link size s r k) : r ≠ s := by
  obtain ⟨c, h1, h2, h3⟩ := h
  obtain ⟨b, e1, e2, -⟩ := C35_one_sink hs h1 h2
  rw [e1, List.mem_singleton] at h3
  rw [h3]; exact e2

/-- Rank `s` has posted its message of stage `k`. -/
def Posted (σ : NetState V) (s k : Nat) : Prop :=
  k < (σ.ranks s).stage ∨ (k = (σ.ranks s).stage ∧ (σ.ranks s).phase ≠ none)

/-- Rank `r` has received the message of stage `k` from `s`. -/
def Received (σ : NetState V) (r s k : Nat) : Prop :=
  k < (σ.ranks r).stage ∨
    (k = (σ.ranks r).stage ∧ ∃ pend, (σ.ranks r).phase = some pend ∧ s ∉ pend)

/-- Invariant of all runs. -/
structure Inv (E : Setup) (d0 : Nat → Data V) (σ : NetState V) : Prop where
  comm : ∀ r, r < E.size → after r E.size (σ.ranks r).stage = .ok (σ.ranks r).comm
  body : ∀ r, r < E.size → ∀ pend, (σ.ranks r).phase = some pend →
    (σ.ranks r).comm.done = false ∧ ∃ got, (got ++ pend).Perm (σ.ranks r).comm.sources ∧
      (σ.ranks r).data = got.foldl (fun d s => absorb E d (msgAt E d0 (σ.ranks r).stage s))
        (sync E d0 (σ.ranks r).stage r)
  head : ∀ r, r < E.size → (σ.ranks r).phase = none →
    (σ.ranks r).data = sync E d0 (σ.ranks r).stage r
  recvd : ∀ s, s < E.size → ∀ r k, Link E.size s r k → Received σ r s k → Posted σ s k
  inflight : ∀ s, s < E.size → ∀ r k, Link E.size s r k → Posted σ s k → ¬ Received σ r s k →
    σ.net s r = [msgAt E d0 k s]
  quiet : ∀ s, s < E.size → ∀ r k, Link E.size s r k → ¬ (Posted σ s k ∧ ¬ Received σ r s k) →
    σ.net s r = []
  nolink : ∀ s, s < E.size → ∀ r, (∀ k, ¬ Link E.size s r k) → σ.net s r = []

theorem inv_init (E : Setup) (d0 : Nat → Data V) :
    Inv E d0 ⟨fun r => ⟨Comm.init r E.size, d0 r, none, 0⟩, fun _ _ => []⟩ where
  comm := fun _ _ => rfl
  body := fun _ _ _ h => by simp at h
  head := fun _ _ _ => rfl
  recvd := fun _ _ _ _ _ h => by
    rcases h with h | ⟨-, p, h, -⟩
    · simp at h
    · simp at h
  inflight := fun _ _ _ _ _ h => by
    rcases h with h | ⟨-, h⟩
    · simp at h
    · simp at h
  quiet := fun _ _ _ _ _ _ => rfl
  nolink := fun _ _ _ _ => rfl

theorem inv_post {E : Setup} {d0 : Nat → Data V} {σ : NetState V} (I : Inv E d0 σ) {r : Nat}
    {pending : List Nat} (hr : r < E.size) (hphase : (σ.ranks r).phase = none)
    (hdone : (σ.ranks r).comm.done = false) (hperm : pending.Perm (σ.ranks r).comm.sources) :
    Inv E d0 ⟨Function.update σ.ranks r { σ.ranks r with phase := some pending },
         fun s d => if s = r ∧ d ∈ (σ.ranks r).comm.sinks then
            σ.net s d ++ [makeMsg E (σ.ranks r).comm (σ.ranks r).data] else σ.net s d⟩ := by
  set σ' : NetState V := ⟨Function.update σ.ranks r { σ.ranks r with phase := some pending },
         fun s d => if s = r ∧ d ∈ (σ.ranks r).comm.sinks then
            σ.net s d ++ [makeMsg E (σ.ranks r).comm (σ.ranks r).data] else σ.net s d⟩ with hσ'
  have same : ∀ x, x ≠ r → σ'.ranks x = σ.ranks x := fun x hx => Function.update_of_ne hx _ _
  have self : σ'.ranks r = { σ.ranks r with phase := some pending } := Function.update_self _ _ _
  have hc := I.comm r hr
  -- receptions
  have recv_iff : ∀ s, s < E.size → ∀ x k, Link E.size s x k →
      (Received σ' x s k ↔ Received σ x s k) := by
    intro s hs x k hl
    by_cases hx : x = r
    · subst hx
      unfold Received
      rw [self]
      simp only [hphase, reduceCtorEq, false_and, exists_false, and_false, or_false,
        Option.some.injEq, exists_eq_left']
      constructor
      · rintro (h | ⟨h1, h2⟩)
        · exact h
        · exfalso
          apply h2
          obtain ⟨-, c, e1, e2, e3⟩ := hl.source hs
          rw [h1, hc] at e1
          cases e1
          exact hperm.mem_iff.2 e3
      · exact Or.inl
    · unfold Received; rw [same x hx]
  have posted_of : ∀ s k, Posted σ s k → Posted σ' s k := by
    intro s k h
    by_cases hx : s = r
    · subst hx
      unfold Posted at h ⊢
      rw [self]
      simp only [hphase, ne_eq, not_true_eq_false, and_false, or_false] at h
      exact Or.inl h
    · unfold Posted; rw [same s hx]; exact h
  have posted_iff : ∀ s k, ¬ (s = r ∧ k = (σ.ranks r).stage) → (Posted σ' s k ↔ Posted σ s k) := by
    intro s k h
    by_cases hx : s = r
    · subst hx
      unfold Posted
      rw [self]
      simp only [hphase, ne_eq, not_true_eq_false, and_false, or_false, reduceCtorEq,
        not_false_eq_true, and_true]
      constructor
      · rintro (h' | h')
        · exact h'
        · exact absurd h' (by simpa using h)
      · exact Or.inl
    · unfold Posted; rw [same s hx]
  have not_posted : ¬ Posted σ r (σ.ranks r).stage := by
    rintro (h | ⟨-, h⟩)
    · omega
    · exact h hphase
  have hsink : ∀ d, Link E.size r d (σ.ranks r).stage ↔ d ∈ (σ.ranks r).comm.sinks := by
    intro d
    constructor
    · rintro ⟨c, e1, e2, e3⟩
      rw [hc] at e1; cases e1; exact e3
    · intro h; exact ⟨_, hc, hdone, h⟩
  have net_new : ∀ d, d ∈ (σ.ranks r).comm.sinks →
      σ'.net r d = [msgAt E d0 (σ.ranks r).stage r] := by
    intro d hd
    have hl := (hsink d).2 hd
    simp only [hσ']
    rw [if_pos ⟨trivial, hd⟩, I.quiet r hr d _ hl (fun h => not_posted h.1), List.nil_append]
    unfold msgAt
    rw [commAt_eq hc, I.head r hr hphase]
  have net_old : ∀ s d, ¬ (s = r ∧ d ∈ (σ.ranks r).comm.sinks) → σ'.net s d = σ.net s d := by
    intro s d h
    simp only [hσ']
    rw [if_neg h]
  constructor
  · intro x hx
    by_cases h : x = r
    · subst h; rw [self]; exact hc
    · rw [same x h]; exact I.comm x hx
  · intro x hx pend hp
    by_cases h : x = r
    · subst h
      rw [self] at hp ⊢
      simp only [Option.some.injEq] at hp
      subst hp
      exact ⟨hdone, [], hperm, I.head x hx hphase⟩
    · rw [same x h] at hp ⊢; exact I.body x hx pend hp
  · intro x hx hp
    by_cases h : x = r
    · subst h; rw [self] at hp; simp at hp
    · rw [same x h] at hp ⊢; exact I.head x hx hp
  · intro s hs x k hl hrec
    exact posted_of s k (I.recvd s hs x k hl ((recv_iff s hs x k hl).1 hrec))
  · intro s hs x k hl hp hrec
    rw [recv_iff s hs x k hl] at hrec
    by_cases h : s = r ∧ k = (σ.ranks r).stage
    · obtain ⟨rfl, rfl⟩ := h
      exact net_new x ((hsink x).1 hl)
    · rw [posted_iff s k h] at hp
      rw [net_old, I.inflight s hs x k hl hp hrec]
      rintro ⟨rfl, h'⟩
      exact h ⟨rfl, hl.unique hs ((hsink x).2 h')⟩
  · intro s hs x k hl hn
    by_cases h : s = r ∧ k = (σ.ranks r).stage
    · obtain ⟨rfl, rfl⟩ := h
      exfalso
      apply hn
      constructor
      · right; rw [self]; exact ⟨rfl, by simp⟩
      · rw [recv_iff s hs x _ hl]
        intro hrec
        exact not_posted (I.recvd s hs x _ hl hrec)
    · rw [net_old, I.quiet s hs x k hl]
      · rwa [posted_iff s k h, recv_iff s hs x k hl] at hn
      · rintro ⟨rfl, h'⟩
        exact h ⟨rfl, hl.unique hs ((hsink x).2 h')⟩
  · intro s hs x hn
    rw [net_old, I.nolink s hs x hn]
    rintro ⟨rfl, h'⟩
    exact hn _ ((hsink x).2 h')

theorem Inv.pending_link {E : Setup} {d0 : Nat → Data V} {σ : NetState V} (I : Inv E d0 σ)
    {r : Nat} (hr : r < E.size) {pend : List Nat} (hp : (σ.ranks r).phase = some pend) {s : Nat}
    (hs : s ∈ pend) : s < E.size ∧ Link E.size s r (σ.ranks r).stage := by
  obtain ⟨hd, got, h1, -⟩ := I.body r hr pend hp
  exact link_of_source hr (I.comm r hr) hd (h1.mem_iff.1 (by simp [hs]))

theorem inv_recv {E : Setup} {d0 : Nat → Data V} {σ : NetState V} (I : Inv E d0 σ) {r s : Nat}
    {pending : List Nat} {m : Msg V} {rest : List (Msg V)} (hr : r < E.size)
    (hphase : (σ.ranks r).phase = some (s :: pending)) (hnet : σ.net s r = m :: rest) :
    Inv E d0 ⟨Function.update σ.ranks r
          { σ.ranks r with data := absorb E (σ.ranks r).data m, phase := some pending },
         fun a d => if a = s ∧ d = r then rest else σ.net a d⟩ := by
  set σ' : NetState V := ⟨Function.update σ.ranks r
          { σ.ranks r with data := absorb E (σ.ranks r).data m, phase := some pending },
         fun a d => if a = s ∧ d = r then rest else σ.net a d⟩ with hσ'
  have same : ∀ x, x ≠ r → σ'.ranks x = σ.ranks x := fun x hx => Function.update_of_ne hx _ _
  have self : σ'.ranks r =
      { σ.ranks r with data := absorb E (σ.ranks r).data m, phase := some pending } :=
    Function.update_self _ _ _
  obtain ⟨hs, hl⟩ := I.pending_link hr hphase (s := s) (by simp)
  obtain ⟨hdone, got, hperm, hdata⟩ := I.body r hr _ hphase
  have hflight : Posted σ s (σ.ranks r).stage ∧ ¬ Received σ r s (σ.ranks r).stage := by
    by_contra h
    rw [I.quiet s hs r _ hl h] at hnet
    cases hnet
  have hm := I.inflight s hs r _ hl hflight.1 hflight.2
  rw [hnet, List.cons.injEq] at hm
  obtain ⟨rfl, rfl⟩ := hm
  have hnd : s ∉ pending := by
    have h := hperm.nodup_iff.2 (C35_sources_nodup _)
    rw [List.nodup_append] at h
    exact (List.nodup_cons.1 h.2.1).1
  have posted_iff : ∀ a k, Posted σ' a k ↔ Posted σ a k := by
    intro a k
    by_cases h : a = r
    · subst h; unfold Posted; rw [self]; simp [hphase]
    · unfold Posted; rw [same a h]
  have recv_iff : ∀ a d k, ¬ (a = s ∧ d = r) → (Received σ' d a k ↔ Received σ d a k) := by
    intro a d k hn
    by_cases h : d = r
    · subst h
      have : a ≠ s := fun h => hn ⟨h, rfl⟩
      unfold Received
      rw [self]
      simp [hphase, this]
    · unfold Received; rw [same d h]
  have recv_self : Received σ' r s (σ.ranks r).stage := by
    right; rw [self]; exact ⟨rfl, pending, rfl, hnd⟩
  have net_old : ∀ a d, ¬ (a = s ∧ d = r) → σ'.net a d = σ.net a d := by
    intro a d h
    simp only [hσ']
    rw [if_neg h]
  constructor
  · intro x hx
    by_cases h : x = r
    · subst h; rw [self]; exact I.comm x hx
    · rw [same x h]; exact I.comm x hx
  · intro x hx pend hp
    by_cases h : x = r
    · subst h
      rw [self] at hp ⊢
      simp only [Option.some.injEq] at hp
      subst hp
      refine ⟨hdone, got ++ [s], by simpa using hperm, ?_⟩
      rw [List.foldl_append, ← hdata]
      rfl
    · rw [same x h] at hp ⊢; exact I.body x hx pend hp
  · intro x hx hp
    by_cases h : x = r
    · subst h; rw [self] at hp; simp at hp
    · rw [same x h] at hp ⊢; exact I.head x hx hp
  · intro a ha d k hl' hrec
    rw [posted_iff]
    by_cases h : a = s ∧ d = r
    · obtain ⟨rfl, rfl⟩ := h
      rw [hl'.unique ha hl]; exact hflight.1
    · exact I.recvd a ha d k hl' ((recv_iff a d k h).1 hrec)
  · intro a ha d k hl' hp hrec
    by_cases h : a = s ∧ d = r
    · obtain ⟨rfl, rfl⟩ := h
      rw [hl'.unique ha hl] at hrec
      exact absurd recv_self hrec
    · rw [net_old a d h]
      rw [posted_iff] at hp
      rw [recv_iff a d k h] at hrec
      exact I.inflight a ha d k hl' hp hrec
  · intro a ha d k hl' hn
    by_cases h : a = s ∧ d = r
    · simp only [hσ']; rw [if_pos h]
    · rw [net_old a d h]
      rw [posted_iff, recv_iff a d k h] at hn
      exact I.quiet a ha d k hl' hn
  · intro a ha d hn
    by_cases h : a = s ∧ d = r
    · obtain ⟨rfl, rfl⟩ := h
      exact absurd hl (hn _)
    · rw [net_old a d h]; exact I.nolink a ha d hn

theorem foldl_absorb_perm (E : Setup) (f : Nat → Msg V) {l₁ l₂ : List Nat} (h : l₁.Perm l₂)
    (d : Data V) : l₁.foldl (fun d s => absorb E d (f s)) d =
      l₂.foldl (fun d s => absorb E d (f s)) d :=
  h.foldl_eq' (fun _ _ _ _ _ => absorb_comm E _ _ _) d

theorem inv_finish {E : Setup} {d0 : Nat → Data V} {σ : NetState V} (I : Inv E d0 σ) {r : Nat}
    {c : Comm} (hr : r < E.size) (hphase : (σ.ranks r).phase = some [])
    (hadv : (σ.ranks r).comm.advance = .ok c) :
    Inv E d0 ⟨Function.update σ.ranks r
          { σ.ranks r with comm := c, phase := none, stage := (σ.ranks r).stage + 1 },
          σ.net⟩ := by
  set σ' : NetState V := ⟨Function.update σ.ranks r
          { σ.ranks r with comm := c, phase := none, stage := (σ.ranks r).stage + 1 },
          σ.net⟩ with hσ'
  have same : ∀ x, x ≠ r → σ'.ranks x = σ.ranks x := fun x hx => Function.update_of_ne hx _ _
  have self : σ'.ranks r =
      { σ.ranks r with comm := c, phase := none, stage := (σ.ranks r).stage + 1 } :=
    Function.update_self _ _ _
  obtain ⟨hdone, got, hperm, hdata⟩ := I.body r hr _ hphase
  rw [List.append_nil] at hperm
  have posted_iff : ∀ a k, Posted σ' a k ↔ Posted σ a k := by
    intro a k
    by_cases h : a = r
    · subst h
      unfold Posted
      rw [self]
      simp only [hphase, ne_eq, not_true_eq_false, and_false, or_false, reduceCtorEq,
        not_false_eq_true, and_true]
      omega
    · unfold Posted; rw [same a h]
  have recv_iff : ∀ a d k, Received σ' d a k ↔ Received σ d a k := by
    intro a d k
    by_cases h : d = r
    · subst h
      unfold Received
      rw [self]
      simp only [hphase, reduceCtorEq, false_and, exists_false, and_false, or_false,
        Option.some.injEq, exists_eq_left', List.not_mem_nil, not_false_eq_true, and_true]
      omega
    · unfold Received; rw [same d h]
  constructor
  · intro x hx
    by_cases h : x = r
    · subst h
      rw [self]
      simp only
      rw [Comm.after, I.comm x hx]
      exact hadv
    · rw [same x h]; exact I.comm x hx
  · intro x hx pend hp
    by_cases h : x = r
    · subst h; rw [self] at hp; simp at hp
    · rw [same x h] at hp ⊢; exact I.body x hx pend hp
  · intro x hx hp
    by_cases h : x = r
    · subst h
      rw [self]
      simp only
      rw [hdata, sync, commAt_eq (I.comm x hx)]
      exact foldl_absorb_perm E _ hperm _
    · rw [same x h] at hp ⊢; exact I.head x hx hp
  · intro a ha d k hl hrec
    rw [posted_iff]
    exact I.recvd a ha d k hl ((recv_iff a d k).1 hrec)
  · intro a ha d k hl hp hrec
    rw [posted_iff] at hp
    rw [recv_iff] at hrec
    exact I.inflight a ha d k hl hp hrec
  · intro a ha d k hl hn
    rw [posted_iff, recv_iff] at hn
    exact I.quiet a ha d k hl hn
  · exact I.nolink

theorem inv_step {E : Setup} {d0 : Nat → Data V} {w : Bool} {σ τ : NetState V}
    (I : Inv E d0 σ) (h : Step w E σ τ) : Inv E d0 τ := by
  cases h with
  | post r pending hr hphase hdone hperm => exact inv_post I hr hphase hdone hperm
  | recv r s pending m rest hr hphase hnet => exact inv_recv I hr hphase hnet
  | finish r c hr hphase hwait hadv => exact inv_finish I hr hphase hadv

theorem inv_steps {E : Setup} {d0 : Nat → Data V} {w : Bool} {n : Nat} {σ τ : NetState V}
    (I : Inv E d0 σ) (h : Steps w E n σ τ) : Inv E d0 τ := by
  induction h with
  | nil => exact I
  | snoc _ hs ih => exact inv_step (ih I) hs

/-! ### The lockstep run sums the multipoles -/

theorem sync_succ_mp (E : Setup) (hL : E.layout.OK E.nboxes) (d0 : Nat → Data V) (k r : Nat)
    {b l i : Nat} (hb : E.layout.OnLevel b l) (hi : i < E.layout.ncoef l) :
    (sync E d0 (k + 1) r).mp b i = (sync E d0 k r).mp b i +
      ((commAt E.size r k).sources.map fun s =>
        if b ∈ relevantBoxes E.nboxes E.users (commAt E.size s k).messages
          (sync E d0 k s).contrib then (sync E d0 k s).mp b i else 0).sum := by
  rw [sync]
  generalize sync E d0 k r = d
  induction (commAt E.size r k).sources generalizing d with
  | nil => simp
  | cons s ss ih =>
    rw [List.foldl_cons, ih, absorb_makeMsg E hL _ d _ hb hi, List.map_cons, List.sum_cons,
      add_assoc]

theorem sync_succ_contrib (E : Setup) (d0 : Nat → Data V) (k r b : Nat) :
    (sync E d0 (k + 1) r).contrib b = false ↔ (sync E d0 k r).contrib b = false ∧
      ∀ s ∈ (commAt E.size r k).sources,
        b ∉ relevantBoxes E.nboxes E.users (commAt E.size s k).messages
          (sync E d0 k s).contrib := by
  rw [sync]
  generalize sync E d0 k r = d
  induction (commAt E.size r k).sources generalizing d with
  | nil => simp
  | cons s ss ih =>
    rw [List.foldl_cons, ih]
    simp only [absorb, makeMsg, Bool.or_eq_false_iff, List.mem_cons, forall_eq_or_imp, and_assoc]
    simp

theorem sync_zero (E : Setup) (hL : E.layout.OK E.nboxes) (d0 : Nat → Data V)
    (hz : ∀ r, r < E.size → ∀ b l i, E.layout.OnLevel b l → i < E.layout.ncoef l →
      (d0 r).contrib b = false → (d0 r).mp b i = 0) (k r : Nat) (hr : r < E.size)
    {b l i : Nat} (hb : E.layout.OnLevel b l) (hi : i < E.layout.ncoef l)
    (hc : (sync E d0 k r).contrib b = false) : (sync E d0 k r).mp b i = 0 := by
  induction k with
  | zero => exact hz r hr b l i hb hi hc
  | succ k ih =>
    rw [sync_succ_contrib] at hc
    rw [sync_succ_mp E hL d0 k r hb hi, ih hc.1, zero_add]
    apply List.sum_eq_zero
    intro x hx
    obtain ⟨s, hs, rfl⟩ := List.mem_map.1 hx
    rw [if_neg (hc.2 s hs)]

/-- Each rank of the other half is the source of exactly one rank of this half. -/
theorem sum_sources_group {a size k : Nat} {c : Comm} (ha : a < size)
    (hc : after a size k = .ok c) (hd : c.done = false) {c' : Comm}
    (hc' : after a size (k + 1) = .ok c') (f : Nat → V) :
    ∑ x ∈ Finset.Ico c'.left c'.right, ((commAt size x k).sources.map f).sum =
      ∑ s ∈ Finset.Ico c.messages.1 c.messages.2, f s := by
  obtain ⟨c1, c2, c3, c4, c5⟩ := comm_inv ha hc
  have hstep := comm_step hc hd
  rw [hc'] at hstep
  simp only [Except.ok.injEq] at hstep
  have hd' := hd
  simp only [done, beq_eq_false_iff_ne, ne_eq] at hd'
  have grp : ∀ x, c'.left ≤ x → x < c'.right → c.left ≤ x ∧ x < c.right := by
    intro x h1 h2
    rw [hstep] at h1 h2
    split at h1 <;> simp only at h1 h2 <;> split at h2 <;> simp only at h2 <;> omega
  have msg : ∀ x, c'.left ≤ x → x < c'.right →
      ({ c with rank := x } : Comm).messages = c.messages := by
    intro x h1 h2
    rw [hstep] at h1 h2
    simp only [messages]
    split at h1 <;> simp only at h1 h2 <;> split at h2 <;> simp only at h2 <;> (try omega)
    · rw [if_pos h2, if_pos (by omega)]
    · rw [if_neg (by omega), if_neg (by omega)]
  have key : ∀ x ∈ Finset.Ico c'.left c'.right, ((commAt size x k).sources.map f).sum =
      ∑ s ∈ Finset.Ico c.messages.1 c.messages.2,
        if s ∈ (commAt size x k).sources then f s else 0 := by
    intro x hx
    obtain ⟨h1, h2⟩ := Finset.mem_Ico.1 hx
    obtain ⟨h3, h4⟩ := grp x h1 h2
    have hcx := comm_group ha hc h3 h4
    rw [commAt_eq hcx, ← List.sum_toFinset f (C35_sources_nodup _), ← Finset.sum_filter]
    apply Finset.sum_congr _ fun _ _ => rfl
    ext s
    simp only [List.mem_toFinset, Finset.mem_filter, Finset.mem_Ico]
    constructor
    · intro hs
      have := source_mem (by omega) hcx hs
      rw [msg x h1 h2] at this
      exact ⟨⟨this.1, this.2.1⟩, hs⟩
    · exact fun h => h.2
  rw [Finset.sum_congr rfl key, Finset.sum_comm]
  apply Finset.sum_congr rfl
  intro s hs
  obtain ⟨hs1, hs2⟩ := Finset.mem_Ico.1 hs
  have hsg : c.left ≤ s ∧ s < c.right := by
    simp only [messages] at hs1 hs2
    split at hs1 <;> split at hs2 <;> omega
  have hcs := comm_group ha hc hsg.1 hsg.2
  have hds : ({ c with rank := s } : Comm).done = false := hd
  have hslt : s < size := by omega
  obtain ⟨y, e1, e2, e3, e4, e5, cy, e6, e7, -⟩ := C35_one_sink hslt hcs hds
  have hyin : c'.left ≤ y ∧ y < c'.right := by
    rw [hstep]
    simp only [messages] at e4 e5 hs1 hs2
    by_cases hm : c.rank < c.midpoint
    · rw [if_pos hm] at hs1 hs2 ⊢
      simp only at hs1 hs2 ⊢
      rw [if_neg (by omega)] at e4 e5
      exact ⟨e4, e5⟩
    · rw [if_neg hm] at hs1 hs2 ⊢
      simp only at hs1 hs2 ⊢
      rw [if_pos (by omega)] at e4 e5
      exact ⟨e4, e5⟩
  rw [Finset.sum_eq_single y]
  · rw [if_pos]
    rw [commAt_eq e6, ← C35_sink_iff_source hslt e3 hcs e6 hds e7, e1]
    simp
  · intro x hx hxy
    obtain ⟨h1, h2⟩ := Finset.mem_Ico.1 hx
    obtain ⟨h3, h4⟩ := grp x h1 h2
    have hcx := comm_group ha hc h3 h4
    rw [if_neg]
    rw [commAt_eq hcx]
    intro hsx
    have hdx : ({ c with rank := x } : Comm).done = false := hd
    have := (C35_sink_iff_source hslt (by omega) hcs hcx hds hdx).2 hsx
    rw [e1, List.mem_singleton] at this
    exact hxy this
  · intro h
    exact absurd (Finset.mem_Ico.2 hyin) h

theorem sync_total (E : Setup) (hL : E.layout.OK E.nboxes) (d0 : Nat → Data V)
    (hz : ∀ r, r < E.size → ∀ b l i, E.layout.OnLevel b l → i < E.layout.ncoef l →
      (d0 r).contrib b = false → (d0 r).mp b i = 0) {k r : Nat} (hr : r < E.size) {c : Comm}
    (hc : after r E.size k = .ok c) {b l i : Nat} (hbn : b < E.nboxes)
    (hb : E.layout.OnLevel b l) (hi : i < E.layout.ncoef l)
    (hu : ∃ u ∈ E.users.row b, c.left ≤ u ∧ u < c.right) :
    ∑ s ∈ Finset.Ico c.left c.right, (sync E d0 k s).mp b i =
      ∑ s ∈ Finset.range E.size, (d0 s).mp b i := by
  induction k generalizing c with
  | zero =>
    simp only [Comm.after, Except.ok.injEq] at hc
    subst hc
    simp only [Comm.init, sync, Finset.range_eq_Ico]
  | succ k ih =>
    have hc' := hc
    rw [Comm.after] at hc'
    cases hk : after r E.size k with
    | error e => rw [hk] at hc'; simp [Except.bind] at hc'
    | ok cp =>
      have hd : cp.done = false := by
        by_contra h
        rw [hk] at hc'
        simp only [Bool.not_eq_false] at h
        simp [Except.bind, advance, h] at hc'
      have hd' := hd
      simp only [done, beq_eq_false_iff_ne, ne_eq] at hd'
      obtain ⟨c1, c2, c3, c4, c5⟩ := comm_inv hr hk
      have hstep := comm_step hk hd
      rw [hc] at hstep
      simp only [Except.ok.injEq] at hstep
      have hrange : (cp.rank < cp.midpoint ∧ c.left = cp.left ∧ c.right = cp.midpoint ∧
          cp.messages = (cp.midpoint, cp.right)) ∨
          (¬ cp.rank < cp.midpoint ∧ c.left = cp.midpoint ∧ c.right = cp.right ∧
            cp.messages = (cp.left, cp.midpoint)) := by
        rw [hstep]
        simp only [messages]
        split
        · left; rename_i h; exact ⟨h, rfl, rfl, rfl⟩
        · right; rename_i h; exact ⟨h, rfl, rfl, rfl⟩
      have hmid : cp.left ≤ cp.midpoint ∧ cp.midpoint ≤ cp.right := by omega
      -- messages of the other half
      have hterm : ∀ s ∈ Finset.Ico cp.messages.1 cp.messages.2,
          (if b ∈ relevantBoxes E.nboxes E.users (commAt E.size s k).messages
            (sync E d0 k s).contrib then (sync E d0 k s).mp b i else 0) =
          (sync E d0 k s).mp b i := by
        intro s hs
        obtain ⟨s1, s2⟩ := Finset.mem_Ico.1 hs
        have hsg : cp.left ≤ s ∧ s < cp.right := by
          rcases hrange with ⟨-, -, -, h⟩ | ⟨-, -, -, h⟩ <;> rw [h] at s1 s2 <;>
            simp only at s1 s2 <;> omega
        have hcs := comm_group hr hk hsg.1 hsg.2
        have hm : (commAt E.size s k).messages = (c.left, c.right) := by
          rw [commAt_eq hcs]
          simp only [messages]
          rcases hrange with ⟨-, h1, h2, h⟩ | ⟨-, h1, h2, h⟩ <;> rw [h] at s1 s2 <;>
            simp only at s1 s2
          · rw [if_neg (by omega), h1, h2]
          · rw [if_pos (by omega), h1, h2]
        rw [hm]
        by_cases hcon : (sync E d0 k s).contrib b = true
        · rw [if_pos (mem_relevantBoxes.2 ⟨hbn, hcon, hu⟩)]
        · have h0 : (sync E d0 k s).contrib b = false := by simpa using hcon
          rw [sync_zero E hL d0 hz k s (by omega) hb hi h0]
          simp
      rw [Finset.sum_congr rfl fun s _ => sync_succ_mp E hL d0 k s hb hi,
        Finset.sum_add_distrib, sum_sources_group hr hk hd hc, Finset.sum_congr rfl hterm]
      have hu' : ∃ u ∈ E.users.row b, cp.left ≤ u ∧ u < cp.right := by
        obtain ⟨u, h1, h2, h3⟩ := hu
        refine ⟨u, h1, ?_⟩
        rcases hrange with ⟨-, e1, e2, -⟩ | ⟨-, e1, e2, -⟩ <;> omega
      rw [← ih hk hu']
      rcases hrange with ⟨-, e1, e2, h⟩ | ⟨-, e1, e2, h⟩ <;> rw [e1, e2, h]
      · exact Finset.sum_Ico_consecutive _ hmid.1 hmid.2
      · rw [add_comm]; exact Finset.sum_Ico_consecutive _ hmid.1 hmid.2

/-! ### Progress and termination -/

theorem after_error {s size : Nat} {e : String} : ∀ {k : Nat} (j : Nat), k ≤ j →
    after s size k = .error e → after s size j = .error e := by
  intro k j hkj h
  induction j with
  | zero =>
    have : k = 0 := by omega
    subst this; exact h
  | succ j ih =>
    rcases Nat.lt_or_ge k (j + 1) with hlt | hge
    · rw [Comm.after, ih (by omega)]; rfl
    · have : k = j + 1 := by omega
      subst this; exact h

theorem after_not_done {s size k j : Nat} {c c' : Comm} (hj : after s size j = .ok c')
    (hk : after s size k = .ok c) (hlt : j < k) : c'.done = false := by
  by_contra h
  have : after s size (j + 1) = .error "RuntimeError: finished communicating" := by
    rw [Comm.after, hj]
    simp only [Bool.not_eq_false] at h
    simp [Except.bind, advance, h]
  rw [after_error k (by omega) this] at hk
  cases hk

theorem advance_ok {c : Comm} (h : c.done = false) : ∃ c', c.advance = .ok c' := by
  unfold advance
  rw [h]
  simp only [Bool.false_eq_true, if_false]
  split <;> exact ⟨_, rfl⟩

theorem step_relax {E : Setup} {w : Bool} {σ τ : NetState V} (h : Step true E σ τ) :
    Step w E σ τ := by
  cases h with
  | post r pending hr hphase hdone hperm => exact .post σ r pending hr hphase hdone hperm
  | recv r s pending m rest hr hphase hnet => exact .recv σ r s pending m rest hr hphase hnet
  | finish r c hr hphase hwait hadv => exact .finish σ r c hr hphase (fun _ => hwait rfl) hadv

theorem progress {E : Setup} {d0 : Nat → Data V} {σ : NetState V} (I : Inv E d0 σ)
    (hun : ∃ r, r < E.size ∧ ¬ (σ.ranks r).finished) : ∃ τ, Step true E σ τ := by
  classical
  -- a rank on the lowest stage among those that have not finished
  obtain ⟨r, hr, hmin⟩ := Finset.exists_min_image
    ((Finset.range E.size).filter fun r => ¬ (σ.ranks r).finished) (fun r => (σ.ranks r).stage)
    (by obtain ⟨r, h1, h2⟩ := hun; exact ⟨r, by simp [h1, h2]⟩)
  simp only [Finset.mem_filter, Finset.mem_range] at hr hmin
  obtain ⟨hr, hrun⟩ := hr
  -- ranks at the start of an iteration can post
  have post : ∀ x, x < E.size → (σ.ranks x).phase = none → (σ.ranks x).comm.done = false →
      ∃ τ, Step true E σ τ := fun x hx h1 h2 => ⟨_, .post σ x _ hx h1 h2 (List.Perm.refl _)⟩
  -- ranks not done at the lowest stage have not finished, or are further on
  have alive : ∀ x, x < E.size → (∃ c, after x E.size (σ.ranks r).stage = .ok c ∧
      c.done = false) → (σ.ranks x).stage ≤ (σ.ranks r).stage →
      (σ.ranks x).stage = (σ.ranks r).stage ∧ (σ.ranks x).comm.done = false := by
    rintro x hx ⟨c, h1, h2⟩ hle
    have hc := I.comm x hx
    have hd : (σ.ranks x).comm.done = false := by
      rcases Nat.lt_or_ge (σ.ranks x).stage (σ.ranks r).stage with h | h
      · exact after_not_done hc h1 h
      · rw [show (σ.ranks x).stage = (σ.ranks r).stage by omega, h1] at hc
        cases hc; exact h2
    refine ⟨?_, hd⟩
    have := hmin x ⟨hx, fun hf => by rw [hf.2] at hd; cases hd⟩
    omega
  -- ranks waiting for a message at the lowest stage
  have wait : ∀ x, x < E.size → (σ.ranks x).stage = (σ.ranks r).stage → ∀ s pend,
      (σ.ranks x).phase = some (s :: pend) → ∃ τ, Step true E σ τ := by
    intro x hx hst s pend hp
    obtain ⟨hs, hl⟩ := I.pending_link hx hp (s := s) (by simp)
    by_cases hpost : Posted σ s (σ.ranks x).stage
    · have hrec : ¬ Received σ x s (σ.ranks x).stage := by
        rintro (h | ⟨-, p, h1, h2⟩)
        · omega
        · rw [hp, Option.some.injEq] at h1
          subst h1
          exact h2 (by simp)
      exact ⟨_, .recv σ x s pend _ [] hx hp (I.inflight s hs x _ hl hpost hrec)⟩
    · have h1 : (σ.ranks s).stage ≤ (σ.ranks r).stage := by
        by_contra h
        exact hpost (Or.inl (by omega))
      obtain ⟨c, e1, e2, -⟩ := hl
      rw [hst] at e1
      obtain ⟨h2, h3⟩ := alive s hs ⟨c, e1, e2⟩ h1
      have h4 : (σ.ranks s).phase = none := by
        by_contra h
        exact hpost (Or.inr ⟨by omega, h⟩)
      exact post s hs h4 h3
  cases hp : (σ.ranks r).phase with
  | none =>
    apply post r hr hp
    by_contra h
    exact hrun ⟨hp, by simpa using h⟩
  | some pend =>
    cases pend with
    | cons s pend => exact wait r hr rfl s pend hp
    | nil =>
      obtain ⟨hd, -⟩ := I.body r hr _ hp
      obtain ⟨c, hadv⟩ := advance_ok hd
      by_cases hall : ∀ d ∈ (σ.ranks r).comm.sinks, σ.net r d = []
      · exact ⟨_, .finish σ r c hr hp (fun _ => hall) hadv⟩
      · push Not at hall
        obtain ⟨d, hd1, hd2⟩ := hall
        have hl : Link E.size r d (σ.ranks r).stage := ⟨_, I.comm r hr, hd, hd1⟩
        have hflight : ¬ Received σ d r (σ.ranks r).stage := by
          intro h
          exact hd2 (I.quiet r hr d _ hl fun h' => h'.2 h)
        obtain ⟨hds, cd, e1, e2, -⟩ := hl.source hr
        have h1 : (σ.ranks d).stage ≤ (σ.ranks r).stage := by
          by_contra h
          exact hflight (Or.inl (by omega))
        obtain ⟨h2, h3⟩ := alive d hds ⟨cd, e1, e2⟩ h1
        cases hpd : (σ.ranks d).phase with
        | none => exact post d hds hpd h3
        | some pd =>
          cases pd with
          | cons s pd => exact wait d hds h2 s pd hpd
          | nil => exact absurd (Or.inr ⟨h2.symm, [], hpd, by simp⟩) hflight

/-- Bound on the number of steps a rank can still take. -/
def rankMeasure (s : RankState V) : Nat :=
  4 * (s.comm.right - s.comm.left) + match s.phase with
    | none => 3
    | some pend => pend.length

/-- Bound on the number of steps. -/
def netMeasure (E : Setup) (σ : NetState V) : Nat :=
  ∑ r ∈ Finset.range E.size, rankMeasure (σ.ranks r)

omit [AddCommMonoid V] in
theorem measure_update {E : Setup} {σ τ : NetState V} {r : Nat} (hr : r < E.size)
    {s : RankState V} (h : τ.ranks = Function.update σ.ranks r s)
    (hlt : rankMeasure s < rankMeasure (σ.ranks r)) : netMeasure E τ < netMeasure E σ := by
  unfold netMeasure
  rw [h]
  apply Finset.sum_lt_sum
  · intro x hx
    by_cases hxr : x = r
    · subst hxr; rw [Function.update_self]; exact hlt.le
    · rw [Function.update_of_ne hxr]
  · exact ⟨r, Finset.mem_range.2 hr, by rw [Function.update_self]; exact hlt⟩

theorem sources_length (c : Comm) : c.sources.length ≤ 2 := by
  simp only [sources]
  split_ifs <;> simp

theorem step_measure {E : Setup} {d0 : Nat → Data V} {w : Bool} {σ τ : NetState V}
    (I : Inv E d0 σ) (h : Step w E σ τ) : netMeasure E τ < netMeasure E σ := by
  cases h with
  | post r pending hr hphase hdone hperm =>
    apply measure_update hr rfl
    have := sources_length (σ.ranks r).comm
    have := hperm.length_eq
    simp only [rankMeasure, hphase]
    omega
  | recv r s pending m rest hr hphase hnet =>
    apply measure_update hr rfl
    simp only [rankMeasure, hphase, List.length_cons]
    omega
  | finish r c hr hphase hwait hadv =>
    apply measure_update hr rfl
    obtain ⟨hd, -⟩ := I.body r hr _ hphase
    obtain ⟨c1, c2, c3, c4, c5⟩ := comm_inv hr (I.comm r hr)
    simp only [rankMeasure, hphase, List.length_nil]
    unfold advance at hadv
    rw [hd] at hadv
    simp only [Bool.false_eq_true, if_false] at hadv
    simp only [done, beq_eq_false_iff_ne, ne_eq] at hd
    split at hadv <;> cases hadv <;> simp only <;> omega

theorem steps_measure {E : Setup} {d0 : Nat → Data V} {w : Bool} {n : Nat} {σ τ : NetState V}
    (I : Inv E d0 σ) (h : Steps w E n σ τ) : n + netMeasure E τ ≤ netMeasure E σ := by
  induction h with
  | nil => omega
  | snoc h hs ih =>
    have := step_measure (inv_steps I h) hs
    have := ih I
    omega

theorem exists_complete_aux (E : Setup) (d0 : Nat → Data V) (σ₀ : NetState V) : ∀ m n σ,
    Steps true E n σ₀ σ → Inv E d0 σ → netMeasure E σ ≤ m →
    ∃ n τ, Steps true E n σ₀ τ ∧ ∀ r, r < E.size → (τ.ranks r).finished := by
  intro m
  induction m with
  | zero =>
    intro n σ h I hm
    refine ⟨n, σ, h, fun r hr => ?_⟩
    by_contra hc
    obtain ⟨τ, hτ⟩ := progress I ⟨r, hr, hc⟩
    have := step_measure I hτ
    omega
  | succ m ih =>
    intro n σ h I hm
    by_cases hall : ∀ r, r < E.size → (σ.ranks r).finished
    · exact ⟨n, σ, h, hall⟩
    · push Not at hall
      obtain ⟨τ, hτ⟩ := progress I hall
      have := step_measure I hτ
      exact ih (n + 1) τ (.snoc h hτ) (inv_step I hτ) (by omega)

/-- Some run reaches the end. -/
theorem exists_complete (E : Setup) (mp : Nat → Nat → Nat → V) (ancestor : Nat → Nat → Bool)
    (responsible : Nat → List Nat) :
    ∃ n σ, Steps true E n (start E mp ancestor responsible) σ ∧
      ∀ r, r < E.size → (σ.ranks r).finished :=
  exists_complete_aux E (fun r => ⟨mp r, fun b => ancestor r b || (responsible r).contains b⟩) _
    _ 0 _ (.nil _) (inv_init E _) le_rfl

end Boxtree.Dist
