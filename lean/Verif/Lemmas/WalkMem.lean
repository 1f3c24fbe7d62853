import Verif.Lemmas.Walk

/-! What a walk outputs at least. -/

namespace Boxtree
open BoxTree

section
variable {α : Type} {t : BoxTree} {visit : Nat → Nat → List α × Bool}

theorem mem_dfs_of_reached (hw : t.WF) {e : α} {s : Nat} (hs : s < t.nboxes) :
    ∀ (h k b : Nat), b < t.nboxes → t.level s ≤ t.level b + h → Reached t visit k b s →
      e ∈ (visit (k + (t.level s - t.level b - 1)) s).1 → e ∈ dfs t visit h k b := by
  intro h
  induction h with
  | zero => intro k b _ h1 h2 _; have := h2.1; omega
  | succ h ih =>
    intro k b hb hl hr he
    obtain ⟨hlt, hanc, hpush⟩ := hr
    have hal := hw.ancAt_lt hs (t.level b + 1)
    have hane := hw.ancAt_ne_zero hs (show t.level b + 1 ≤ t.level s by omega) (by omega)
    have hpar := ancAt_parent t hlt
    rw [hanc] at hpar
    obtain ⟨m, hm, hmc⟩ := hw.parent_child _ hal hane
    rw [hpar] at hmc
    have hc0 : t.child m b ≠ 0 := by rw [hmc]; exact hane
    have hlc := hw.level_child hm hb hc0
    have hcl := hw.child_lt m hm b hb
    rw [dfs_succ, List.mem_flatMap]
    refine ⟨m, List.mem_range.2 hm, ?_⟩
    unfold dfsChild
    simp only [hc0, if_false, List.mem_append]
    by_cases heq : t.level s = t.level b + 1
    · left
      have hcs : t.child m b = s := by rw [hmc, ← heq, ancAt_self]
      rw [hcs]
      rw [show t.level s - t.level b - 1 = 0 by omega] at he
      exact he
    · right
      have hp := hpush (t.level b + 1) (by omega) (by omega)
      rw [← hmc, show k + (t.level b + 1 - t.level b - 1) = k by omega] at hp
      rw [if_pos hp]
      refine ih (k + 1) _ hcl (by omega) ⟨by omega, by rw [hlc]; exact hmc.symm, ?_⟩ ?_
      · intro l h1 h2
        have := hpush l (by omega) h2
        rw [hlc] at h1
        rw [hlc, show k + 1 + (l - (t.level b + 1) - 1) = k + (l - t.level b - 1) by omega]
        exact this
      · rw [hlc, show k + 1 + (t.level s - (t.level b + 1) - 1) = k + (t.level s - t.level b - 1) by
          omega]
        exact he

theorem mem_walk_of_reached (hw : t.WF) {e : α} {b s : Nat} (hb : b < t.nboxes)
    (hs : s < t.nboxes) (hr : Reached t visit 0 b s)
    (he : e ∈ (visit (t.level s - t.level b - 1) s).1) : e ∈ walk t visit b := by
  rw [walk_eq_dfs visit hw hb]
  refine mem_dfs_of_reached hw hs _ _ _ hb ?_ hr (by rw [Nat.zero_add]; exact he)
  have := hw.level_lt s hs
  omega

end
end Boxtree
