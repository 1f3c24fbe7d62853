import Verif.Model.Tools
import Mathlib.Tactic.Linarith
import Mathlib.Data.Nat.Log

/-!
# C35: the communication pattern of the multipole all-reduce

`Comm.after a size k` is the pattern object that rank `a` of `size` holds after `k` calls of
`advance`; it is an error value if one of these calls would have raised, i.e. if the rank was
already done.
-/

namespace Boxtree
open Tools Comm

/-- Facts about every reachable state. -/
theorem comm_inv {a size k : Nat} {c : Comm} (ha : a < size) (h : after a size k = .ok c) :
    c.rank = a ∧ c.left ≤ a ∧ a < c.right ∧ c.right ≤ size ∧
      c.midpoint = (c.left + c.right) / 2 := by
  induction k generalizing c with
  | zero =>
    simp only [after, Except.ok.injEq] at h
    subst h
    simp [init, ha]
  | succ k ih =>
    rw [after] at h
    cases hk : after a size k with
    | error e => rw [hk] at h; simp [Except.bind] at h
    | ok c' =>
      rw [hk] at h
      obtain ⟨h1, h2, h3, h4, h5⟩ := ih hk
      simp only [Except.bind, advance] at h
      split at h
      · simp at h
      · rename_i hd
        simp only [done, beq_iff_eq] at hd
        split at h <;> rename_i hm <;> simp only [Except.ok.injEq] at h <;> subst h <;>
          refine ⟨h1, ?_, ?_, ?_, ?_⟩ <;> simp only <;> omega

/-- The state after `k+1` stages, given the one after `k`. -/
theorem comm_step {a size k : Nat} {c : Comm} (h : after a size k = .ok c)
    (hd : c.done = false) : after a size (k + 1) = .ok
      (if c.rank < c.midpoint then
        { c with right := c.midpoint, midpoint := (c.midpoint + c.left) / 2 }
      else { c with left := c.midpoint, midpoint := (c.midpoint + c.right) / 2 }) := by
  rw [after, h]
  simp only [Except.bind, advance, hd]
  by_cases hm : c.rank < c.midpoint <;> simp [hm]

/-- Ranks of one group hold the same bounds, at every stage. -/
theorem comm_group {a b size k : Nat} {c : Comm} (ha : a < size) (h : after a size k = .ok c)
    (hl : c.left ≤ b) (hr : b < c.right) : after b size k = .ok { c with rank := b } := by
  induction k generalizing c with
  | zero =>
    simp only [after, Except.ok.injEq] at h
    subst h
    rfl
  | succ k ih =>
    rw [after] at h
    cases hk : after a size k with
    | error e => rw [hk] at h; simp [Except.bind] at h
    | ok c' =>
      rw [hk] at h
      obtain ⟨h1, h2, h3, h4, h5⟩ := comm_inv ha hk
      simp only [Except.bind, advance] at h
      split at h
      · simp at h
      · rename_i hd
        have hb : after b size k = .ok { c' with rank := b } := by
          apply ih hk
          · split at h <;> simp only [Except.ok.injEq] at h <;> subst h <;>
              simp only at hl hr <;> omega
          · split at h <;> simp only [Except.ok.injEq] at h <;> subst h <;>
              simp only at hl hr <;> omega
        have hd' : ({ c' with rank := b } : Comm).done = false := by
          simpa [done] using hd
        rw [comm_step hb hd']
        simp only [done, beq_iff_eq] at hd
        split at h <;> rename_i hm <;> simp only [Except.ok.injEq] at h <;> subst h <;>
          simp only at hl hr ⊢
        · rw [if_pos (by omega)]
        · rw [if_neg (by omega)]

/-- **C35**: at every stage, for any two ranks that are not done, `b` is a sink of `a` exactly if
`a` is a source of `b`. -/
theorem C35_sink_iff_source {a b size k : Nat} {ca cb : Comm} (ha : a < size) (hb : b < size)
    (hca : after a size k = .ok ca) (hcb : after b size k = .ok cb)
    (hda : ca.done = false) (hdb : cb.done = false) :
    b ∈ ca.sinks ↔ a ∈ cb.sources := by
  obtain ⟨a1, a2, a3, a4, a5⟩ := comm_inv ha hca
  obtain ⟨b1, b2, b3, b4, b5⟩ := comm_inv hb hcb
  simp only [done, beq_eq_false_iff_ne, ne_eq] at hda hdb
  by_cases hg : ca.left ≤ b ∧ b < ca.right
  · have := comm_group ha hca hg.1 hg.2
    rw [hcb] at this
    simp only [Except.ok.injEq] at this
    subst this
    simp only [sinks, sources] at *
    split_ifs <;> simp only [List.mem_cons, List.not_mem_nil, or_false, iff_false] <;> omega
  · -- different groups: neither side names the other
    have hg' : ¬ (cb.left ≤ a ∧ a < cb.right) := by
      intro h
      have := comm_group hb hcb h.1 h.2
      rw [hca] at this
      simp only [Except.ok.injEq] at this
      subst this
      simp only at hg
      omega
    constructor
    · intro h
      exfalso
      simp only [sinks] at h
      split at h <;> split at h <;> simp at h <;> omega
    · intro h
      exfalso
      simp only [sources] at h
      split at h <;> split at h <;> (try split at h) <;> simp at h <;> omega

/-- **C35**: at every stage a rank that is not done sends to exactly one rank; that rank lies in
the range reported by `messages`, is at the same stage, is not done either, and has `a`'s half as
its own message range. -/
theorem C35_one_sink {a size k : Nat} {ca : Comm} (ha : a < size)
    (hca : after a size k = .ok ca) (hda : ca.done = false) :
    ∃ b, ca.sinks = [b] ∧ b ≠ a ∧ b < size ∧ ca.messages.1 ≤ b ∧ b < ca.messages.2 ∧
      ∃ cb, after b size k = .ok cb ∧ cb.done = false ∧
        cb.messages.1 ≤ a ∧ a < cb.messages.2 := by
  obtain ⟨a1, a2, a3, a4, a5⟩ := comm_inv ha hca
  have hda' := hda
  simp only [done, beq_eq_false_iff_ne, ne_eq] at hda
  refine ⟨ca.sinks.headD 0, ?_⟩
  have hin : ca.messages.1 ≤ ca.sinks.headD 0 ∧ ca.sinks.headD 0 < ca.messages.2 ∧
      ca.sinks = [ca.sinks.headD 0] ∧ ca.left ≤ ca.sinks.headD 0 ∧
      ca.sinks.headD 0 < ca.right ∧ ca.sinks.headD 0 ≠ a := by
    simp only [messages, sinks]
    split <;> split <;> simp <;> omega
  obtain ⟨h1, h2, h3, h4, h5, h6⟩ := hin
  refine ⟨h3, h6, by omega, h1, h2, _, comm_group ha hca h4 h5, by simpa [done] using hda, ?_⟩
  simp only [messages] at h1 h2 ⊢
  split at h1 <;> split <;> (try rw [if_pos (by assumption)] at h2) <;>
    (try rw [if_neg (by assumption)] at h2) <;> simp only at * <;> omega

/-- **C35**: sources never repeat, so each expected message is received once. -/
theorem C35_sources_nodup (c : Comm) : c.sources.Nodup := by
  simp only [sources]
  split_ifs <;> simp

/-- **C35**: `advance` succeeds exactly on ranks that are not done, and then the old group is the
disjoint union of the new group, which contains the rank, and of the `messages` range; hence
groups nest and every other rank is separated from `a` at exactly one stage. -/
theorem C35_groups_nest {a size k : Nat} {c : Comm} (ha : a < size)
    (hc : after a size k = .ok c) :
    (c.done = true → ∃ e, after a size (k + 1) = .error e) ∧
    (c.done = false → ∃ c', after a size (k + 1) = .ok c' ∧ c'.left ≤ a ∧ a < c'.right ∧
      ∀ b, c.left ≤ b ∧ b < c.right ↔
        Xor (c'.left ≤ b ∧ b < c'.right) (c.messages.1 ≤ b ∧ b < c.messages.2)) := by
  obtain ⟨a1, a2, a3, a4, a5⟩ := comm_inv ha hc
  constructor
  · intro hd
    exact ⟨"RuntimeError: finished communicating", by
      rw [after, hc]; simp only [Except.bind, advance, hd, if_true]⟩
  · intro hd
    refine ⟨_, comm_step hc hd, ?_⟩
    simp only [done, beq_eq_false_iff_ne, ne_eq] at hd
    simp only [messages, Xor]
    split
    · exact ⟨by simp; omega, by simp; omega, fun b => by simp; omega⟩
    · exact ⟨by simp; omega, by simp; omega, fun b => by simp; omega⟩

theorem comm_size {a size m : Nat} (ha : a < size) (hm : size ≤ 2 ^ m) :
    ∀ k ≤ m, (∃ j ≤ k, ∃ c, after a size j = .ok c ∧ c.done = true) ∨
      ∃ c, after a size k = .ok c ∧ c.right - c.left ≤ 2 ^ (m - k) := by
  intro k
  induction k with
  | zero => intro _; exact Or.inr ⟨_, rfl, by simpa [init] using hm⟩
  | succ k ih =>
    intro hk
    rcases ih (by omega) with ⟨j, hj, c, h1, h2⟩ | ⟨c, h1, h2⟩
    · exact Or.inl ⟨j, by omega, c, h1, h2⟩
    · by_cases hd : c.done = true
      · exact Or.inl ⟨k, by omega, c, h1, hd⟩
      · simp only [Bool.not_eq_true] at hd
        refine Or.inr ⟨_, comm_step h1 hd, ?_⟩
        obtain ⟨a1, a2, a3, a4, a5⟩ := comm_inv ha h1
        have hp : 2 ^ (m - k) = 2 * 2 ^ (m - (k + 1)) := by
          rw [← pow_succ']; congr 1; omega
        split <;> simp only <;> omega

/-- **C35**: every rank is done after at most `⌈log2 size⌉` stages, and then its group is itself
alone. -/
theorem C35_terminates {a size : Nat} (ha : a < size) :
    ∃ k ≤ Nat.clog 2 size, ∃ c, after a size k = .ok c ∧ c.done = true ∧
      c.left = a ∧ c.right = a + 1 := by
  have hex : ∃ k ≤ Nat.clog 2 size, ∃ c, after a size k = .ok c ∧ c.done = true := by
    rcases comm_size ha (Nat.le_pow_clog (by norm_num) size) (Nat.clog 2 size) le_rfl with
      ⟨j, hj, c, h1, h2⟩ | ⟨c, h1, h2⟩
    · exact ⟨j, hj, c, h1, h2⟩
    · refine ⟨_, le_rfl, c, h1, ?_⟩
      obtain ⟨a1, a2, a3, a4, a5⟩ := comm_inv ha h1
      simp only [Nat.sub_self, pow_zero] at h2
      simp only [done, beq_iff_eq]
      omega
  obtain ⟨k, hk, c, h1, h2⟩ := hex
  obtain ⟨a1, a2, a3, a4, a5⟩ := comm_inv ha h1
  have h2' := h2
  simp only [done, beq_iff_eq] at h2'
  exact ⟨k, hk, c, h1, h2, by omega, by omega⟩

theorem comm_mono {a size : Nat} (ha : a < size) : ∀ {k j : Nat} {c c' : Comm}, k ≤ j →
    after a size k = .ok c → after a size j = .ok c' → c.left ≤ c'.left ∧ c'.right ≤ c.right := by
  intro k j c c' hkj hc
  induction j generalizing c' with
  | zero =>
    intro hc'
    have : k = 0 := by omega
    subst this
    rw [hc] at hc'
    cases hc'
    exact ⟨le_rfl, le_rfl⟩
  | succ j ih =>
    intro hc'
    rcases Nat.eq_or_lt_of_le hkj with rfl | hlt
    · rw [hc] at hc'
      cases hc'
      exact ⟨le_rfl, le_rfl⟩
    · cases hj : after a size j with
      | error e => rw [after, hj] at hc'; simp [Except.bind] at hc'
      | ok cj =>
        have h1 := ih (by omega) hj
        obtain ⟨a1, a2, a3, a4, a5⟩ := comm_inv ha hj
        by_cases hd : cj.done = true
        · obtain ⟨e, he⟩ := (C35_groups_nest ha hj).1 hd
          rw [he] at hc'; cases hc'
        · simp only [Bool.not_eq_true] at hd
          rw [comm_step hj hd] at hc'
          simp only [done, beq_eq_false_iff_ne, ne_eq] at hd
          split at hc' <;> cases hc' <;> simp only <;> omega

/-- **C35**: two ranks exchange a message in at most one stage, so messages of different stages
can never be mistaken for each other. -/
theorem C35_pair_meets_once {a b size k j : Nat} {c c' : Comm} (ha : a < size)
    (hc : after a size k = .ok c) (hc' : after a size j = .ok c') (hd : c.done = false)
    (hd' : c'.done = false) (hk : b ∈ c.sinks) (hj : b ∈ c'.sinks) : k = j := by
  have main : ∀ {k j : Nat} {c c' : Comm}, after a size k = .ok c → after a size j = .ok c' →
      c.done = false → c'.done = false → b ∈ c.sinks → b ∈ c'.sinks → ¬ k < j := by
    intro k j c c' hc hc' hd hd' hk hj hlt
    obtain ⟨b1, h1, h2, h3, h4, h5, -⟩ := C35_one_sink ha hc hd
    obtain ⟨b2, g1, g2, g3, g4, g5, -⟩ := C35_one_sink ha hc' hd'
    rw [h1] at hk
    rw [g1] at hj
    simp only [List.mem_singleton] at hk hj
    subst hk
    subst hj
    obtain ⟨c1, k1, k2, k3, k4⟩ := (C35_groups_nest ha hc).2 hd
    have hm := comm_mono ha (Nat.succ_le_of_lt hlt) k1 hc'
    obtain ⟨i1, i2, i3, i4, i5⟩ := comm_inv ha hc'
    have hgrp : c'.left ≤ b ∧ b < c'.right := by
      simp only [messages] at g4 g5
      split at g4 <;> rename_i hx <;> simp only [hx, if_true, if_false] at g5 <;>
        simp only at g4 <;> omega
    have hgc : c.left ≤ b ∧ b < c.right := by
      have := comm_mono ha hlt.le hc hc'
      omega
    rcases (k4 b).1 hgc with ⟨-, hx⟩ | ⟨-, hx⟩
    · exact hx ⟨h4, h5⟩
    · exact hx ⟨by omega, by omega⟩
  rcases Nat.lt_trichotomy k j with h | h | h
  · exact absurd h (main hc hc' hd hd' hk hj)
  · exact h
  · exact absurd h (main hc' hc hd' hd hj hk)

/-- Seven ranks: the hypotheses of the theorems above hold for ranks 2 and 6 at stage 0, where
rank 2 receives two messages and rank 6 none, and rank 6 needs three stages. -/
example : ∃ c2 c6, after 2 7 0 = .ok c2 ∧ after 6 7 0 = .ok c6 ∧ c2.done = false ∧
    c6.done = false ∧ c6.sinks = [2] ∧ c2.sources = [5, 6] ∧ c6.sources = [] :=
  ⟨_, _, rfl, rfl, rfl, rfl, rfl, rfl, rfl⟩

example : ∃ c c', after 6 7 1 = .ok c ∧ c.done = false ∧ after 6 7 2 = .ok c' ∧
    c'.done = false ∧ c'.left = 5 ∧ c.sinks = [4] ∧ c'.sinks = [5] :=
  ⟨_, _, rfl, rfl, rfl, rfl, rfl, rfl, rfl⟩

end Boxtree
