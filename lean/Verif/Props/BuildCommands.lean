import Verif.Model.BuildCommands
import Verif.Lemmas.AreaCommands
import Verif.Props.BuildCall

/-!
# C97: the tree builder and the events of its caller

`.given` is the launch of the caller that writes particles, targets and radii and whose event is in the
`wait_for` given to the builder; `c.run` is the tree of the arrays it writes.
-/

namespace Boxtree
open Queue Build

/-- Without targets and with an object array of particles, the tree is that of the particles the caller's launch
writes, in every order. -/
theorem C97_not_copied_partial (c : Call) (hT : c.args.targets = none)
    (s₀ : ∀ x, CallArr.Val x) (order : List CallArr) (ha : Allowed (c.launches true) [] order)
    (ht : .tree ∈ order) : .given ∈ order ∧ exec (c.launches true) order s₀ .tree = c.run := by
  obtain ⟨pre, h1, h2, h3, h4⟩ := exec_mem (c.launches true) .tree order s₀ _ rfl ha ht
  have hc : c.copied true = false := by simp [Call.copied, hT]
  have hg : CallArr.given ∈ pre := h3 _ (by simp [hc])
  obtain ⟨_, _, _, _, h5⟩ := exec_mem (c.launches true) .given pre s₀ _ rfl h2 hg
  have h5' : exec (c.launches true) pre s₀ .given = c.contents := h5
  refine ⟨h1 _ hg, ?_⟩
  rw [h4]
  simp only [hc, Bool.false_eq_true, h5']
  rfl

/-- In general this holds of the orders in which the caller's launch runs first. -/
theorem C97_given_first_partial (c : Call) (objectArray : Bool) (s₀ : ∀ x, CallArr.Val x)
    (rest : List CallArr) (ha : Allowed (c.launches objectArray) [] (.given :: rest)) (ht : .tree ∈ rest) :
    exec (c.launches objectArray) (.given :: rest) s₀ .tree = c.run := by
  have hgiv : ∀ l, Allowed (c.launches objectArray) [] (.given :: l) →
      exec (c.launches objectArray) (.given :: l) s₀ .given = c.contents := by
    intro l hl
    obtain ⟨_, _, _, _, h5⟩ := exec_mem (c.launches objectArray) .given (.given :: l) s₀ _ rfl hl (by simp)
    exact h5
  obtain ⟨r1, r2, rfl⟩ := List.append_of_mem ht
  have hn := (allowed_nodup _ _ _ ha).1
  have e1 : CallArr.given :: (r1 ++ .tree :: r2) = (.given :: r1) ++ .tree :: r2 := by simp
  rw [e1] at ha hn ⊢
  obtain ⟨a1, w1⟩ := allowed_split (c.launches objectArray) .tree r2 _ rfl _ [] ha
  rw [exec_at (c.launches objectArray) .tree _ r2 s₀ _ rfl
    (List.nodup_cons.1 (List.nodup_append.1 hn).2.1).1]
  cases hc : c.copied objectArray with
  | false =>
    simp only [Bool.false_eq_true, hgiv _ a1]
    rfl
  | true =>
    have hm : CallArr.copies ∈ r1 := by
      have := w1 .copies (by simp [hc])
      simpa using this
    obtain ⟨q1, q2, rfl⟩ := List.append_of_mem hm
    have e2 : CallArr.given :: (q1 ++ .copies :: q2) = (.given :: q1) ++ .copies :: q2 := by simp
    have hn2 := (allowed_nodup _ _ _ a1).1
    rw [e2] at a1 hn2 ⊢
    have hcop : c.launches objectArray .copies = some ⟨[], fun m => m .given⟩ := if_pos hc
    have a2 := (allowed_split (c.launches objectArray) .copies q2 _ hcop _ [] a1).1
    have h6 := exec_at (c.launches objectArray) .copies (.given :: q1) q2 s₀ _ hcop
      (List.nodup_cons.1 (List.nodup_append.1 hn2).2.1).1
    simp only [h6, hgiv _ a2]
    rfl

/-- Particles are copied without waiting for the caller's events: although the caller's launch is complete before
the rest of the builder runs, the tree may be that of whatever the arrays contained before. -/
theorem C97_copied_too_early (c : Call) (objectArray : Bool)
    (hT : c.args.targets.isSome ∨ objectArray = false) (s₀ : ∀ x, CallArr.Val x) :
    ∃ order, Allowed (c.launches objectArray) [] order ∧ .given ∈ order ∧ .copies ∈ order ∧ .tree ∈ order ∧
      exec (c.launches objectArray) order s₀ .tree = (c.withContents (s₀ .given)).run := by
  have hc : c.copied objectArray = true := by
    rcases hT with h | h
    · simp [Call.copied, h]
    · simp [Call.copied, h]
  have hcop : c.launches objectArray .copies = some ⟨[], fun m => m .given⟩ := if_pos hc
  have hal : Allowed (c.launches objectArray) [] [.copies, .given, .tree] :=
    ⟨⟨_, hcop, by simp⟩, by simp, ⟨_, rfl, by simp⟩, by simp, ⟨_, rfl, by simp [hc]⟩, by simp, trivial⟩
  refine ⟨_, hal, by simp, by simp, by simp, ?_⟩
  have h1 := exec_at (c.launches objectArray) .tree [.copies, .given] [] s₀ _ rfl (by simp)
  have h2 := exec_at (c.launches objectArray) .copies [] [.given] s₀ _ hcop (by simp)
  simp only [List.cons_append, List.nil_append] at h1 h2
  rw [h1]
  simp only [hc, h2]
  rfl

/-- A call with targets: the tree of other contents is another one. -/
example : Ex.call2.args.targets.isSome ∧ Ex.call.args.targets = none ∧
    Ex.look Ex.call2.run (fun t => (List.range 3).map t.particles.userSourceIds) ≠
      Ex.look (Ex.call2.withContents { Ex.call2.contents with
        src := fun _ p => [7 / 8, 1 / 2, 1 / 8].getD p 0 }).run
        (fun t => (List.range 3).map t.particles.userSourceIds) :=
  ⟨rfl, rfl, by decide +kernel⟩

end Boxtree
