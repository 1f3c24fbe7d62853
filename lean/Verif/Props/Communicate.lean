import Verif.Lemmas.CommunicateRun

/-!
# C36: the multipole reduction

Runs are sequences of `Step`s from `start`: in each step one rank, chosen arbitrarily, posts its
messages, completes a receive or finishes a stage.
-/

namespace Boxtree
open Dist Tools Comm

variable {V : Type} [AddCommMonoid V]

theorem inv_reachable {E : Setup} {mp : Nat → Nat → Nat → V} {ancestor : Nat → Nat → Bool}
    {responsible : Nat → List Nat} {w : Bool} {n : Nat} {σ : NetState V}
    (h : Steps w E n (start E mp ancestor responsible) σ) :
    Inv E (fun r => ⟨mp r, fun b => ancestor r b || (responsible r).contains b⟩) σ :=
  inv_steps (inv_init E _) h

/-- **C36** (result): whatever the order in which ranks run, messages arrive and sources are
served, and whether sends are buffered or not: a rank that has left `communicate_mpoles` holds,
for every box it uses and every coefficient, the sum over all ranks of what they started with.
The hypothesis says that a rank starts with zeros in boxes that are neither its responsible boxes
nor their ancestors. -/
theorem C36_used_multipoles_are_summed (E : Setup) (hL : E.layout.OK E.nboxes)
    (mp : Nat → Nat → Nat → V) (ancestor : Nat → Nat → Bool) (responsible : Nat → List Nat)
    (hz : ∀ r, r < E.size → ∀ b, b < E.nboxes → ancestor r b = false → b ∉ responsible r →
      ∀ i, mp r b i = 0)
    (hlast : ∀ l, l < E.layout.nlevels → E.layout.levelStart (l + 1) ≤ E.nboxes)
    (w : Bool) (n : Nat) (σ : NetState V) (h : Steps w E n (start E mp ancestor responsible) σ)
    (r : Nat) (hr : r < E.size) (hfin : (σ.ranks r).finished)
    (b : Nat) (hb : b < E.nboxes) (huse : r ∈ E.users.row b)
    (l : Nat) (hl : E.layout.OnLevel b l) (i : Nat) (hi : i < E.layout.ncoef l) :
    (σ.ranks r).data.mp b i = ∑ s ∈ Finset.range E.size, mp s b i := by
  have I := inv_reachable h
  have hc := I.comm r hr
  obtain ⟨c1, c2, c3, c4, c5⟩ := comm_inv hr hc
  have hd := hfin.2
  simp only [done, beq_iff_eq] at hd
  have hleft : (σ.ranks r).comm.left = r := by omega
  have hright : (σ.ranks r).comm.right = r + 1 := by omega
  have key := sync_total E hL (fun r => ⟨mp r, fun b => ancestor r b || (responsible r).contains b⟩)
    (fun r hr b l i hb' _ hcon => by
      simp only [Bool.or_eq_false_iff] at hcon
      refine hz r hr b ?_ hcon.1 (by simpa using hcon.2) i
      have := hlast l hb'.1
      have := hb'.2.2
      omega) hr hc hb hl hi ⟨r, huse, by omega, by omega⟩
  rw [hleft, hright, Nat.Ico_succ_singleton, Finset.sum_singleton] at key
  rw [I.head r hr hfin.1, key]

/-- **C36** (result of the other mode): with `communicate_mpoles_via_allreduce` every rank holds
the sum for every box. -/
theorem C36_allreduce (size : Nat) (mp : Nat → Nat → Nat → V) (r b i : Nat) :
    allreduce size mp r b i = ∑ s ∈ Finset.range size, mp s b i := by
  unfold allreduce
  rw [← List.sum_toFinset _ List.nodup_range, List.toFinset_range]

/-- **C36** (no leftovers): when all ranks have left the reduction, every message sent has been
received. -/
theorem C36_no_message_left (E : Setup) (mp : Nat → Nat → Nat → V)
    (ancestor : Nat → Nat → Bool) (responsible : Nat → List Nat)
    (w : Bool) (n : Nat) (σ : NetState V) (h : Steps w E n (start E mp ancestor responsible) σ)
    (hfin : ∀ r, r < E.size → (σ.ranks r).finished) (s d : Nat) (hs : s < E.size) :
    σ.net s d = [] := by
  have I := inv_reachable h
  by_cases hl : ∃ k, Link E.size s d k
  · obtain ⟨k, hl⟩ := hl
    apply I.quiet s hs d k hl
    rintro ⟨-, hrec⟩
    obtain ⟨hd, c, e1, e2, -⟩ := hl.source hs
    apply hrec
    left
    -- `d` is done at its stage and not done at stage `k`
    obtain ⟨f1, f2⟩ := hfin d hd
    have hc := I.comm d hd
    by_contra hlt
    rcases Nat.lt_or_ge (σ.ranks d).stage k with h | h
    · rw [after_not_done hc e1 h] at f2
      cases f2
    · have : k = (σ.ranks d).stage := by omega
      subst this
      rw [hc] at e1
      cases e1
      rw [f2] at e2
      cases e2
  · exact I.nolink s hs d fun k hk => hl ⟨k, hk⟩

/-- **C36** (no deadlock): after any run, as long as some rank has not left the reduction, some
rank can take a step, even if sends complete only when they are received. -/
theorem C36_no_deadlock (E : Setup) (mp : Nat → Nat → Nat → V)
    (ancestor : Nat → Nat → Bool) (responsible : Nat → List Nat)
    (w : Bool) (n : Nat) (σ : NetState V) (h : Steps w E n (start E mp ancestor responsible) σ)
    (hun : ∃ r, r < E.size ∧ ¬ (σ.ranks r).finished) : ∃ τ, Step true E σ τ :=
  progress (inv_reachable h) hun

/-- **C36** (termination): no run has more than `size * (4 * size + 3)` steps, so no rank waits
forever. -/
theorem C36_terminates (E : Setup) (mp : Nat → Nat → Nat → V)
    (ancestor : Nat → Nat → Bool) (responsible : Nat → List Nat)
    (w : Bool) (n : Nat) (σ : NetState V) (h : Steps w E n (start E mp ancestor responsible) σ) :
    n ≤ E.size * (4 * E.size + 3) := by
  have := steps_measure (inv_init E _) h
  have h0 : netMeasure E (start E mp ancestor responsible) = E.size * (4 * E.size + 3) := by
    unfold netMeasure start
    simp only [rankMeasure, Comm.init, Nat.sub_zero]
    simp
  rw [← h0]
  exact le_trans (Nat.le_add_right _ _) this

/-- **C36**: a run that cannot be continued, with buffered sends or without, is one in which all
ranks have left the reduction. -/
theorem C36_maximal_runs_finish (E : Setup) (mp : Nat → Nat → Nat → V)
    (ancestor : Nat → Nat → Bool) (responsible : Nat → List Nat)
    (w : Bool) (n : Nat) (σ : NetState V) (h : Steps w E n (start E mp ancestor responsible) σ)
    (hmax : ∀ τ, ¬ Step w E σ τ) (r : Nat) (hr : r < E.size) : (σ.ranks r).finished := by
  by_contra hc
  obtain ⟨τ, hτ⟩ := C36_no_deadlock E mp ancestor responsible w n σ h ⟨r, hr, hc⟩
  exact hmax τ (step_relax hτ)

/-! ### An instance

Three ranks, three boxes on two levels (two coefficients on level 0, one on level 1); box 1
belongs to rank 0, box 2 to rank 2, and rank 1 uses both.  Rank 2 sends to rank 0 first (stage 0
pairs 0 with 1, 2), so rank 1 gets the data of box 2. -/

namespace Ex

def exSetup : Setup where
  size := 3
  nboxes := 3
  layout := ⟨2, fun l => [0, 1, 3].getD l 0, fun l => 2 - l⟩
  users := buildLists [[], [1, 2], [0, 1]]

def exMp : Nat → Nat → Nat → ℤ := fun r b i =>
  if (r = 0 ∧ b ≠ 2) ∨ (r = 2 ∧ b ≠ 1) then 100 * r + 10 * b + i + 1 else 0

def exAncestor : Nat → Nat → Bool := fun r b => b == 0 && r != 1

def exResponsible : Nat → List Nat := fun r => [[1], [], [2]].getD r []

theorem exSetup_ok : exSetup.layout.OK exSetup.nboxes ∧
    (∀ l, l < exSetup.layout.nlevels → exSetup.layout.levelStart (l + 1) ≤ exSetup.nboxes) ∧
    ∀ r, r < exSetup.size → ∀ b, b < exSetup.nboxes → exAncestor r b = false →
      b ∉ exResponsible r → ∀ i, exMp r b i = 0 := by
  refine ⟨⟨by decide, ?_⟩, by decide, ?_⟩
  · intro b hb
    have : b < 3 := hb
    have : b = 0 ∨ b = 1 ∨ b = 2 := by omega
    rcases this with rfl | rfl | rfl
    · exact ⟨0, by unfold MpoleLayout.OnLevel; decide⟩
    · exact ⟨1, by unfold MpoleLayout.OnLevel; decide⟩
    · exact ⟨1, by unfold MpoleLayout.OnLevel; decide⟩
  · intro r hr b hb h1 h2 i
    have hr' : r < 3 := hr
    have hb' : b < 3 := hb
    unfold exMp
    rw [if_neg]
    have : r = 0 ∨ r = 1 ∨ r = 2 := by omega
    have : b = 0 ∨ b = 1 ∨ b = 2 := by omega
    rcases ‹r = 0 ∨ r = 1 ∨ r = 2› with rfl | rfl | rfl <;>
      rcases ‹b = 0 ∨ b = 1 ∨ b = 2› with rfl | rfl | rfl <;> revert h1 h2 <;> decide

/-- There is a run in which every rank finishes, and rank 1 then holds the sums for boxes 1 and
2. -/
example : ∃ n σ, Steps true exSetup n (start exSetup exMp exAncestor exResponsible) σ ∧
    (∀ r, r < 3 → (σ.ranks r).finished) ∧ (σ.ranks 1).data.mp 1 0 = 11 ∧
    (σ.ranks 1).data.mp 2 0 = 221 := by
  obtain ⟨n, σ, h1, h2⟩ := exists_complete exSetup exMp exAncestor exResponsible
  refine ⟨n, σ, h1, h2, ?_, ?_⟩
  · rw [C36_used_multipoles_are_summed exSetup exSetup_ok.1 exMp exAncestor exResponsible
      exSetup_ok.2.2 exSetup_ok.2.1 true n σ h1 1 (by decide) (h2 1 (by decide)) 1 (by decide)
      (by decide) 1 (by unfold MpoleLayout.OnLevel; decide) 0 (by decide)]
    decide
  · rw [C36_used_multipoles_are_summed exSetup exSetup_ok.1 exMp exAncestor exResponsible
      exSetup_ok.2.2 exSetup_ok.2.1 true n σ h1 1 (by decide) (h2 1 (by decide)) 2 (by decide)
      (by decide) 1 (by unfold MpoleLayout.OnLevel; decide) 0 (by decide)]
    decide

end Ex

end Boxtree
