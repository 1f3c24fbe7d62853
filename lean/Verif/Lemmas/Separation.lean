import Verif.Spec.CauchyLib
import Verif.Lemmas.GridPos

/-!
# Distances between boxes that do not touch
-/

namespace Boxtree.BoxTree
variable {t : BoxTree}

theorem WF.child_offset (hw : t.WF) {c : Nat} (hc : c < t.nboxes) (h0 : c ≠ 0) {a : Nat}
    (ha : a < t.dims) : |t.center c a - t.center (t.parent c) a| = t.rad (t.level c) ∧
      t.rad (t.level (t.parent c)) = 2 * t.rad (t.level c) := by
  obtain ⟨m, hm, e⟩ := hw.parent_child c hc h0
  have h1 := hw.center_child m hm (t.parent c) (hw.parent_lt c hc) (by rw [e]; exact h0) a ha
  have hl := hw.level_parent c hc h0
  rw [e, ← hl] at h1
  refine ⟨?_, by rw [hl]; exact rad_succ t _⟩
  rw [h1, add_sub_cancel_left, abs_mul, abs_of_pos (hw.rad_pos _)]
  unfold mortonSign
  split <;> simp

/-- Boxes on one level, the first enlarged by `n - 1` widths does not touch the second: the centers
are `n + 1` widths apart. -/
theorem WF.far_same (hw : t.WF) {b s n : Nat} (hn : 1 ≤ n) (hb : b < t.nboxes) (hs : s < t.nboxes)
    (hl : t.level s = t.level b) (h : ¬ t.TouchEnlarged (n - 1) b s) :
    ∃ a, a < t.dims ∧ 2 * (n + 1) * t.rad (t.level b) ≤ |t.center b a - t.center s a| := by
  rw [hw.touchEnlarged_pos hb hs hl.symm] at h
  push Not at h
  obtain ⟨a, ha, h⟩ := h
  refine ⟨a, ha, ?_⟩
  have hr := hw.rad_pos (t.level b)
  rw [hw.center_pos hb ha, hw.center_pos hs ha, hl]
  have e : t.lo 0 a + (2 * (t.gridPos b a : ℚ) + 1) * t.rad (t.level b) -
      (t.lo 0 a + (2 * (t.gridPos s a : ℚ) + 1) * t.rad (t.level b)) =
      ((t.gridPos b a - t.gridPos s a : ℤ) : ℚ) * (2 * t.rad (t.level b)) := by
    push_cast; ring
  rw [e, abs_mul, abs_of_pos (show 0 < 2 * t.rad (t.level b) by linarith)]
  have h3 : ((n : ℤ) + 1) ≤ |t.gridPos b a - t.gridPos s a| := by
    by_cases h4 : t.gridPos s a ≤ t.gridPos b a + ((n - 1 : ℕ) + 1)
    · have h5 := h h4
      rw [abs_of_nonneg (by omega)]
      omega
    · rw [abs_of_neg (by omega)]
      omega
  have h4 : ((n : ℚ) + 1) ≤ ((|t.gridPos b a - t.gridPos s a| : ℤ) : ℚ) := by exact_mod_cast h3
  rw [Int.cast_abs] at h4
  have := mul_le_mul_of_nonneg_right h4 (show 0 ≤ 2 * t.rad (t.level b) by linarith)
  linarith

/-- Points near a box are three radii away from the center of a box of at most its size that does not
touch it. -/
theorem WF.far_finer (hw : t.WF) {b s : Nat} (hb : b < t.nboxes) (hs : s < t.nboxes)
    (hl : t.level b ≤ t.level s) (h : ¬ t.Touch b s) :
    ∃ a, a < t.dims ∧ ∀ z ε : ℚ, |z - t.center b a| ≤ t.rad (t.level b) + ε →
      3 * t.rad (t.level s) - ε ≤ |z - t.center s a| := by
  rw [hw.touch_pos hb hs hl le_rfl] at h
  push Not at h
  obtain ⟨a, ha, h⟩ := h
  refine ⟨a, ha, fun z ε hz => ?_⟩
  have hr := hw.rad_pos (t.level s)
  have h1 := hw.lo_pos hb ha hl
  have h2 := hw.hi_pos hb ha hl
  have h3 := hw.lo_pos hs ha le_rfl
  have h4 := hw.hi_pos hs ha le_rfl
  unfold lo at h1 h3
  unfold BoxTree.hi lo at h2 h4
  rw [Nat.sub_self, pow_zero, one_mul] at h3 h4 h
  set P := 2 ^ (t.level s - t.level b) * t.gridPos b a with hP
  have eP : 2 ^ (t.level s - t.level b) * (t.gridPos b a + 1) = P + 2 ^ (t.level s - t.level b) := by
    rw [hP]; ring
  rw [eP] at h h2
  set w : ℤ := 2 ^ (t.level s - t.level b) with hw'
  have hz1 := (abs_le.1 hz)
  by_cases h5 : t.gridPos s a ≤ P + w
  · have h6 := h h5
    rw [one_mul] at h6
    have h7 : (t.gridPos s a : ℚ) + 2 ≤ (P : ℚ) := by exact_mod_cast (show t.gridPos s a + 2 ≤ P by omega)
    have h8 := mul_le_mul_of_nonneg_right h7 (show 0 ≤ 2 * t.rad (t.level s) by linarith)
    push_cast at h4
    rw [le_abs]
    left
    linarith [hz1.1]
  · have h7 : (P : ℚ) + w + 1 ≤ (t.gridPos s a : ℚ) := by
      exact_mod_cast (show P + w + 1 ≤ t.gridPos s a by omega)
    have h8 := mul_le_mul_of_nonneg_right h7 (show 0 ≤ 2 * t.rad (t.level s) by linarith)
    push_cast at h2 h3
    rw [le_abs]
    right
    linarith [hz1.2]

theorem touch_comm {a b : Nat} : t.Touch a b ↔ t.Touch b a :=
  ⟨fun h i hi => (h i hi).symm, fun h i hi => (h i hi).symm⟩

end Boxtree.BoxTree
