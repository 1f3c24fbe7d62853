import Verif.Lemmas.Flat
import Verif.Lemmas.TreeLoop
import Verif.Lemmas.Tree

/-! The state of the level loop as a well-formed tree. -/

namespace Boxtree.Build

open BoxTree

section
variable {P : Params} {n : Nat} {s : State}

theorem id_lt (len : Nat → Nat) {l k d : Nat} (hl : l < d) (hk : k < len l) :
    levelStart len l + k < levelStart len d := by
  have := levelStart_mono len (show l + 1 ≤ d by omega)
  rw [levelStart_succ] at this
  omega

theorem rad_toTree (l : Nat) : (toTree P n s).rad l = radius P l := by
  unfold rad radius toTree
  simp only [Nat.add_comm]

variable (h : Inv P n s) {l k : Nat} (hk : k < s.used l)
include h hk

theorem level_toTree : (toTree P n s).level (levelStart s.used l + k) = l := by
  change (locate _ _ _ _).1 = _
  rw [locate_id s.used (h.used_level hk) hk]

theorem center_toTree (a : Nat) :
    (toTree P n s).center (levelStart s.used l + k) a = s.center l k a := by
  change s.center (locate _ _ _ _).1 (locate _ _ _ _).2 a = _
  rw [locate_id s.used (h.used_level hk) hk]

theorem parent_toTree : (toTree P n s).parent (levelStart s.used l + k)
    = if l = 0 then 0 else levelStart s.used (l - 1) + s.parent l k := by
  change (if (locate _ _ _ _).1 = 0 then 0 else
    levelStart s.used ((locate _ _ _ _).1 - 1) + s.parent (locate _ _ _ _).1 (locate _ _ _ _).2) = _
  rw [locate_id s.used (h.used_level hk) hk]

theorem child_toTree (m : Nat) : (toTree P n s).child m (levelStart s.used l + k)
    = match s.child m l k with
      | some c => levelStart s.used (l + 1) + c
      | none => 0 := by
  change (match s.child m (locate _ _ _ _).1 (locate _ _ _ _).2 with
      | some c => levelStart s.used ((locate _ _ _ _).1 + 1) + c
      | none => 0) = _
  rw [locate_id s.used (h.used_level hk) hk]

omit hk in
theorem start_pos (l : Nat) : 0 < levelStart s.used (l + 1) := by
  have h1 := levelStart_mono s.used (show 1 ≤ l + 1 by omega)
  have h2 : levelStart s.used 1 = 1 := by
    rw [show (1 : Nat) = 0 + 1 from rfl, levelStart_succ, h.used_zero]; rfl
  omega

omit hk in
/-- The child of a box with children. -/
theorem Inv.child_ok {m : Nat} {c : Nat} (hc : s.child m l k = some c) :
    s.hasCh l k = true ∧ m < P.nch ∧ c < s.used (l + 1) ∧ s.parent (l + 1) c = k ∧
      c % P.nch = m ∧ ∀ a, s.center (l + 1) c a = childCenter P l (s.center l k) m a := by
  have hh : s.hasCh l k = true := by
    by_contra hh
    rw [h.child_some m l k (.inl (by simpa using hh))] at hc
    cases hc
  have hm : m < P.nch := by
    by_contra hm
    rw [h.child_some m l k (.inr (by omega))] at hc
    cases hc
  obtain ⟨_, base, h1, h2, h3⟩ := h.children l k hh
  obtain ⟨h4, h5, _, _, h6, _⟩ := h3 m hm
  rw [hc] at h4
  obtain rfl := Option.some.inj h4
  refine ⟨hh, hm, by omega, h5, ?_, h6⟩
  obtain ⟨q, rfl⟩ := h1
  rw [Nat.mul_add_mod, Nat.mod_eq_of_lt hm]

omit hk in
/-- The stored center of the child of a box with children. -/
theorem Inv.child_stored {m : Nat} {c : Nat} (hc : s.child m l k = some c) (a : Nat) :
    s.stored (l + 1) c a = childStored P l (s.stored l k) m a := by
  obtain ⟨hh, hm, _⟩ := h.child_ok hc
  obtain ⟨_, base, h1, h2, h3⟩ := h.children l k hh
  obtain ⟨h4, _, _, _, _, h6⟩ := h3 m hm
  rw [hc] at h4
  obtain rfl := Option.some.inj h4
  exact h6 a

omit hk in
theorem Inv.toTree_wf (hpos : 0 < P.rootExtent) : (toTree P n s).WF where
  ext_pos := hpos
  nboxes_pos := by
    have h0 : 0 < s.used 0 := by rw [h.used_zero]; omega
    have := id_lt s.used (h.used_level h0) h0
    change 0 < levelStart s.used n
    omega
  level_root := level_toTree h (l := 0) (k := 0) (by rw [h.used_zero]; omega)
  parent_root := parent_toTree h (l := 0) (k := 0) (by rw [h.used_zero]; omega)
  parent_lt := by
    intro b hb
    obtain ⟨l, k, h1, h2, rfl⟩ := exists_loc s.used hb
    rw [parent_toTree h h2]
    split
    · have := id_lt s.used h1 h2
      change 0 < levelStart s.used n
      omega
    · obtain ⟨l, rfl⟩ : ∃ l', l = l' + 1 := ⟨l - 1, by omega⟩
      exact id_lt s.used (by omega) (h.parent_ok l k h2).1
  level_parent := by
    intro b hb h0
    obtain ⟨l, k, h1, h2, rfl⟩ := exists_loc s.used hb
    rw [parent_toTree h h2, level_toTree h h2]
    cases l with
    | zero =>
      rw [h.used_zero] at h2
      exact absurd (show levelStart s.used 0 + k = 0 by simp [levelStart]; omega) h0
    | succ l =>
      rw [if_neg (by omega), Nat.add_sub_cancel, level_toTree h (h.parent_ok l k h2).1]
  level_lt := by
    intro b hb
    obtain ⟨l, k, h1, h2, rfl⟩ := exists_loc s.used hb
    rw [level_toTree h h2]
    exact h1
  child_lt := by
    intro m hm b hb
    obtain ⟨l, k, h1, h2, rfl⟩ := exists_loc s.used hb
    rw [child_toTree h h2]
    cases hc : s.child m l k with
    | none => simp only; omega
    | some c =>
      have := (h.child_ok hc).2.2.1
      exact id_lt s.used (h.used_level this) this
  child_parent := by
    intro m hm b hb hne
    obtain ⟨l, k, h1, h2, rfl⟩ := exists_loc s.used hb
    rw [child_toTree h h2] at hne ⊢
    cases hc : s.child m l k with
    | none => rw [hc] at hne; exact absurd rfl hne
    | some c =>
      obtain ⟨_, _, h3, h4, _⟩ := h.child_ok hc
      rw [parent_toTree h h3, if_neg (by omega), Nat.add_sub_cancel, h4]
  child_inj := by
    intro m hm m' hm' b hb hne he
    obtain ⟨l, k, h1, h2, rfl⟩ := exists_loc s.used hb
    have hp := start_pos h l
    rw [child_toTree h h2] at hne he
    rw [child_toTree h h2] at he
    cases hc : s.child m l k with
    | none => rw [hc] at hne; exact absurd rfl hne
    | some c =>
      cases hc' : s.child m' l k with
      | none => rw [hc, hc'] at he; simp only at he; omega
      | some c' =>
        rw [hc, hc'] at he
        simp only at he
        have e : c = c' := by omega
        rw [← (h.child_ok hc).2.2.2.2.1, ← (h.child_ok hc').2.2.2.2.1, e]
  parent_child := by
    intro b hb h0
    obtain ⟨l, k, h1, h2, rfl⟩ := exists_loc s.used hb
    cases l with
    | zero =>
      rw [h.used_zero] at h2
      exact absurd (show levelStart s.used 0 + k = 0 by simp [levelStart]; omega) h0
    | succ l =>
      obtain ⟨h3, h4, h5⟩ := h.parent_ok l k h2
      refine ⟨k % P.nch, Nat.mod_lt _ (nch_pos P), ?_⟩
      rw [parent_toTree h h2, if_neg (by omega), Nat.add_sub_cancel, child_toTree h h3, h5]
  center_child := by
    intro m hm b hb hne a ha
    obtain ⟨l, k, h1, h2, rfl⟩ := exists_loc s.used hb
    rw [center_toTree h h2, level_toTree h h2, rad_toTree]
    rw [child_toTree h h2] at hne ⊢
    cases hc : s.child m l k with
    | none => rw [hc] at hne; exact absurd rfl hne
    | some c =>
      obtain ⟨_, _, h3, h4, _, h5⟩ := h.child_ok hc
      rw [center_toTree h h3, h5]
      unfold childCenter mortonSign
      change (if m / 2 ^ (P.dims - 1 - a) % 2 = 1 then _ else _)
        = s.center l k a + (if m / 2 ^ (P.dims - 1 - a) % 2 = 1 then (1 : ℚ) else -1) * _
      split <;> ring

end
end Boxtree.Build
