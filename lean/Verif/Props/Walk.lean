import Verif.Lemmas.Walk
import Verif.Examples

/-!
# C11: the explicit-stack tree walk
-/

namespace Boxtree
open BoxTree

/-- **C11**, termination: the walk loop ends, whatever the loop body decides to output and push,
and more iterations allowed do not change the result. -/
theorem C11_walk_terminates {α : Type} (t : BoxTree) (hw : t.WF)
    (visit : Nat → Nat → List α × Bool) (start : Nat) (hs : start < t.nboxes) :
    ∃ out, ∃ bound, ∀ fuel, bound ≤ fuel → walkRun t visit fuel (walkInit start) [] = some out :=
  ⟨_, walkFuel t, fun fuel hf => walkRun_eq_dfs visit hw hs fuel hf⟩

/-- **C11**, each box at most once: record every box the body is run for, under any decisions
`push` (which may depend on the depth).  The record has no repetition and holds exactly
the strict descendants of the start box all of whose ancestors below the start were
pushed. -/
theorem C11_visits_once (t : BoxTree) (hw : t.WF) (push : Nat → Nat → Bool) (start : Nat)
    (hs : start < t.nboxes) :
    let visited := walk t (fun k c => ([c], push k c)) start
    visited.Nodup ∧
    ∀ b, b ∈ visited ↔ b < t.nboxes ∧ t.level start < t.level b ∧
      t.ancAt b (t.level start) = start ∧
      ∀ l, t.level start < l → l < t.level b →
        push (l - t.level start - 1) (t.ancAt b l) = true := by
  intro visited
  have hlt : ∀ b ∈ visited, b < t.nboxes := by
    intro b hb
    obtain ⟨k, c, hc, _, he⟩ := mem_walk _ hw b hs hb
    simp at he; rw [he]; exact hc
  have hc : ∀ b, b < t.nboxes → _ := fun b hb =>
    count_walk (fun k c => ([c], push k c)) hw b b hb (fun k c _ h => by simp at h; exact h.symm)
      start hs
  have hR : ∀ b, Reached t (fun k c => (([c] : List Nat), push k c)) 0 start b ↔
      t.level start < t.level b ∧ t.ancAt b (t.level start) = start ∧
      ∀ l, t.level start < l → l < t.level b →
        push (l - t.level start - 1) (t.ancAt b l) = true := by
    intro b; unfold Reached; simp
  constructor
  · rw [List.nodup_iff_count_le_one]
    intro b
    by_cases hb : b ∈ visited
    · have := hc b (hlt b hb)
      by_cases hr : Reached t (fun k c => (([c] : List Nat), push k c)) 0 start b
      · have := this.1 hr; simp only [visited]; rw [this]; simp
      · have := this.2 hr; simp only [visited]; omega
    · rw [List.count_eq_zero.2 hb]; omega
  · intro b
    rw [← hR]
    constructor
    · intro hb
      refine ⟨hlt b hb, ?_⟩
      by_contra hr
      have := (hc b (hlt b hb)).2 hr
      have h1 := List.count_pos_iff.2 hb
      simp only [visited] at h1; omega
    · rintro ⟨hb, hr⟩
      apply List.count_pos_iff.1
      have := (hc b hb).1 hr
      simp only [visited]; rw [this]; simp

/-- **C11**, order: the visited boxes come in depth-first Morton order, i.e. the walk equals
the recursion "for each child in Morton order: body, then, if pushed, its children". -/
theorem C11_morton_order {α : Type} (t : BoxTree) (hw : t.WF)
    (visit : Nat → Nat → List α × Bool) (start : Nat) (hs : start < t.nboxes) :
    walk t visit start = dfs t visit (t.nlevels + 1) 0 start :=
  walk_eq_dfs visit hw hs

/-- The state of the walk after `n` iterations of the loop. -/
def walkAt {α : Type} (t : BoxTree) (visit : Nat → Nat → List α × Bool) (start : Nat) :
    Nat → WalkState
  | 0 => walkInit start
  | n + 1 => let s := walkAt t visit start n
             if s.cont then (walkStep t visit s).1 else s

/-- the stack holds a chain of parent/child steps down from the start box -/
def StackOK (t : BoxTree) (start : Nat) : List (Nat × Nat) → Nat → Prop
  | [], p => p = start
  | (p', m') :: rest, p => p' < t.nboxes ∧ m' < t.nch ∧ t.child m' p' = p ∧ p ≠ 0 ∧
      StackOK t start rest p'

theorem StackOK.level (t : BoxTree) (hw : t.WF) {start : Nat} :
    ∀ (stk : List (Nat × Nat)) (p : Nat), StackOK t start stk p →
      t.level p = t.level start + stk.length
  | [], p, h => by simp only [StackOK] at h; rw [h]; simp
  | (p', m') :: rest, p, h => by
    obtain ⟨h1, h2, h3, h4, h5⟩ := h
    have := StackOK.level t hw rest p' h5
    have hl := hw.level_child h2 h1 (by rw [h3]; exact h4)
    rw [h3] at hl
    simp only [List.length_cons]; omega

theorem StackOK.advance (t : BoxTree) (start : Nat) :
    ∀ (stk : List (Nat × Nat)) (p m : Nat), StackOK t start stk p → p < t.nboxes →
      let s := walkAdvance t.nch stk p m
      StackOK t start s.stack s.parent ∧ s.parent < t.nboxes ∧ (s.cont = true → s.morton < t.nch)
  | [], p, m, h, hp => by
    by_cases hm : m + 1 < t.nch
    · simp only [walkAdvance, hm, if_true]; exact ⟨h, hp, fun _ => trivial⟩
    · simp only [walkAdvance, hm, if_false]; exact ⟨h, hp, fun h => by cases h⟩
  | (p', m') :: rest, p, m, h, hp => by
    by_cases hm : m + 1 < t.nch
    · simp only [walkAdvance, hm, if_true]; exact ⟨h, hp, fun _ => trivial⟩
    · simp only [walkAdvance, hm, if_false]
      exact StackOK.advance t start rest p' m' h.2.2.2.2 h.1

theorem walkAt_inv {α : Type} (t : BoxTree) (hw : t.WF)
    (visit : Nat → Nat → List α × Bool) (start : Nat) (hs : start < t.nboxes) (n : Nat) :
    let s := walkAt t visit start n
    StackOK t start s.stack s.parent ∧ s.parent < t.nboxes ∧ (s.cont = true → s.morton < t.nch) := by
  induction n with
  | zero => exact ⟨rfl, hs, fun _ => nch_pos t⟩
  | succ n ih =>
    obtain ⟨h1, h2, h3⟩ := ih
    simp only [walkAt]
    generalize walkAt t visit start n = s at *
    by_cases hc : s.cont = true
    · rw [if_pos hc]
      unfold walkStep
      by_cases hz : t.child s.morton s.parent = 0
      · simp only [hz, if_true]
        exact StackOK.advance t start _ _ _ h1 h2
      · simp only [hz, if_false]
        by_cases hv : (visit s.stack.length (t.child s.morton s.parent)).2 = true
        · simp only [hv, if_true]
          refine ⟨⟨h2, h3 hc, rfl, hz, h1⟩, hw.child_lt _ (h3 hc) _ h2, fun _ => nch_pos t⟩
        · simp only [hv, Bool.false_eq_true, if_false]
          exact StackOK.advance t start _ _ _ h1 h2
    · rw [if_neg hc]; exact ⟨h1, h2, h3⟩

/-- `div_ceil(nlevels, 5) * 5`: the stack capacity `NLEVELS` compiled into the kernels,
`/repo/boxtree/traversal.py:2015`, `:232`. -/
def stackCapacity (nlevels : Nat) : Nat := (nlevels + 4) / 5 * 5

/-- **C11**, memory safety: at every point of every walk, the stack holds fewer entries than
there are levels (hence fewer than the compiled-in capacity), and while the walk goes on,
the child table is read at a valid position. -/
theorem C11_stack_bound {α : Type} (t : BoxTree) (hw : t.WF)
    (visit : Nat → Nat → List α × Bool) (start : Nat) (hs : start < t.nboxes) (n : Nat) :
    let s := walkAt t visit start n
    s.stack.length < t.nlevels ∧ s.stack.length < stackCapacity t.nlevels ∧
    s.parent < t.nboxes ∧ (s.cont = true → s.morton < t.nch) := by
  obtain ⟨h1, h2, h3⟩ := walkAt_inv t hw visit start hs n
  have h4 := StackOK.level t hw _ _ h1
  have h5 := hw.level_lt _ h2
  refine ⟨by omega, ?_, h2, h3⟩
  unfold stackCapacity
  omega

/-- Hypotheses are met by a four-level tree; the walk that pushes everything visits all boxes
but the root. -/
example : walk Ex.exTree (fun _ c => (([c] : List Nat), true)) 0 = [1, 3, 4, 2, 5, 6, 7, 8] := by
  decide +kernel

end Boxtree
