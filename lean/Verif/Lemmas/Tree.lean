import Verif.Spec.Tree
import Mathlib.Tactic.Linarith
import Mathlib.Tactic.Ring
import Mathlib.Tactic.FieldSimp
import Mathlib.Tactic.Positivity

namespace Boxtree
namespace BoxTree
variable {t : BoxTree}

theorem nch_pos (t : BoxTree) : 0 < t.nch := Nat.pos_of_ne_zero (by simp [nch])

theorem WF.level_pos (h : t.WF) {b : Nat} (hb : b < t.nboxes) (h0 : b ≠ 0) : 0 < t.level b := by
  have := h.level_parent b hb h0; omega

theorem WF.eq_zero_of_level (h : t.WF) {b : Nat} (hb : b < t.nboxes) (hl : t.level b = 0) :
    b = 0 := by
  by_contra h0; have := h.level_pos hb h0; omega

theorem WF.level_child (h : t.WF) {m b : Nat} (hm : m < t.nch) (hb : b < t.nboxes)
    (hc : t.child m b ≠ 0) : t.level (t.child m b) = t.level b + 1 := by
  have h1 := h.level_parent _ (h.child_lt m hm b hb) hc
  rw [h.child_parent m hm b hb hc] at h1; exact h1

theorem ancAt_self (t : BoxTree) (b : Nat) : t.ancAt b (t.level b) = b := by
  simp [ancAt]

theorem ancAt_ge (t : BoxTree) {b l : Nat} (h : t.level b ≤ l) : t.ancAt b l = b := by
  simp [ancAt, Nat.sub_eq_zero_of_le h]

theorem WF.parent_level (h : t.WF) {b : Nat} (hb : b < t.nboxes) :
    t.level (t.parent b) = t.level b - 1 := by
  by_cases h0 : b = 0
  · subst h0; simp [h.parent_root, h.level_root]
  · have := h.level_parent b hb h0; omega

theorem WF.iter_parent (h : t.WF) {b : Nat} (hb : b < t.nboxes) (n : Nat) :
    t.parent^[n] b < t.nboxes ∧ t.level (t.parent^[n] b) = t.level b - n := by
  induction n with
  | zero => simp [hb]
  | succ n ih =>
    rw [Function.iterate_succ_apply']
    refine ⟨h.parent_lt _ ih.1, ?_⟩
    rw [h.parent_level ih.1, ih.2]; omega

theorem WF.ancAt_lt (h : t.WF) {b : Nat} (hb : b < t.nboxes) (l : Nat) :
    t.ancAt b l < t.nboxes := (h.iter_parent hb _).1

theorem WF.level_ancAt (h : t.WF) {b l : Nat} (hb : b < t.nboxes) (hl : l ≤ t.level b) :
    t.level (t.ancAt b l) = l := by
  have := (h.iter_parent hb (t.level b - l)).2
  unfold ancAt; omega

theorem ancAt_parent (t : BoxTree) {b l : Nat} (hl : l < t.level b) :
    t.parent (t.ancAt b (l + 1)) = t.ancAt b l := by
  unfold ancAt
  have : t.level b - l = (t.level b - (l + 1)) + 1 := by omega
  rw [this, Function.iterate_succ_apply']

theorem WF.parent_ancAt (h : t.WF) {b l : Nat} (hb : b < t.nboxes) (hl : l < t.level b) :
    t.ancAt (t.parent b) l = t.ancAt b l := by
  have hpl := h.parent_level hb
  unfold ancAt
  rw [hpl]
  have : t.level b - l = (t.level b - 1 - l) + 1 := by omega
  rw [this, Function.iterate_succ_apply]

theorem WF.ancAt_ancAt (h : t.WF) {b l l' : Nat} (hb : b < t.nboxes) (hl : l' ≤ l)
    (hl2 : l ≤ t.level b) : t.ancAt (t.ancAt b l) l' = t.ancAt b l' := by
  have h1 := h.level_ancAt hb hl2
  unfold ancAt at *
  rw [h1, ← Function.iterate_add_apply]
  congr 1; omega

theorem WF.ancAt_zero (h : t.WF) {b : Nat} (hb : b < t.nboxes) : t.ancAt b 0 = 0 :=
  h.eq_zero_of_level (h.ancAt_lt hb 0) (h.level_ancAt hb (Nat.zero_le _))

theorem WF.ancAt_ne_zero (h : t.WF) {b l : Nat} (hb : b < t.nboxes) (hl : l ≤ t.level b)
    (h0 : 0 < l) : t.ancAt b l ≠ 0 := by
  intro hc
  have := h.level_ancAt hb hl
  rw [hc, h.level_root] at this; omega

/-! ### geometry -/

theorem WF.rad_pos (h : t.WF) (l : Nat) : 0 < t.rad l := by
  unfold rad; have := h.ext_pos; positivity

theorem rad_succ (t : BoxTree) (l : Nat) : t.rad l = 2 * t.rad (l + 1) := by
  unfold rad
  rw [pow_succ (2:ℚ) (l+1)]
  field_simp

theorem WF.rad_anti (h : t.WF) {l l' : Nat} (hl : l ≤ l') : t.rad l' ≤ t.rad l := by
  induction hl with
  | refl => exact le_refl _
  | step _ ih =>
    rename_i m _
    have h1 := rad_succ t m
    have h2 := h.rad_pos (m+1)
    simp only [Nat.succ_eq_add_one]; linarith

theorem foldl_max_le {ι : Type} (f : ι → ℚ) (l : List ι) (a x : ℚ) :
    l.foldl (fun acc i => max acc (f i)) a ≤ x ↔ a ≤ x ∧ ∀ i ∈ l, f i ≤ x := by
  induction l generalizing a with
  | nil => simp
  | cons i l ih =>
    simp only [List.foldl_cons, ih, max_le_iff, List.mem_cons, forall_eq_or_imp]
    tauto

theorem linf_le_iff (t : BoxTree) (x y : Nat → ℚ) (r : ℚ) :
    t.linf x y ≤ r ↔ 0 ≤ r ∧ ∀ i, i < t.dims → |x i - y i| ≤ r := by
  unfold linf
  rw [foldl_max_le (fun i => |x i - y i|)]
  simp

theorem linf_nonneg (t : BoxTree) (x y : Nat → ℚ) : 0 ≤ t.linf x y := by
  have := ((linf_le_iff t x y (t.linf x y)).1 le_rfl).1
  exact this

theorem abs_le_linf (t : BoxTree) (x y : Nat → ℚ) {i : Nat} (hi : i < t.dims) :
    |x i - y i| ≤ t.linf x y := ((linf_le_iff t x y _).1 le_rfl).2 i hi

theorem linf_triangle (t : BoxTree) (x y z : Nat → ℚ) :
    t.linf x z ≤ t.linf x y + t.linf y z := by
  rw [linf_le_iff]
  refine ⟨add_nonneg (linf_nonneg ..) (linf_nonneg ..), fun i hi => ?_⟩
  have h1 := abs_le_linf t x y hi
  have h2 := abs_le_linf t y z hi
  have : x i - z i = (x i - y i) + (y i - z i) := by ring
  rw [this]
  exact (abs_add_le _ _).trans (add_le_add h1 h2)

theorem linf_comm (t : BoxTree) (x y : Nat → ℚ) : t.linf x y = t.linf y x := by
  apply le_antisymm <;> rw [linf_le_iff] <;> refine ⟨linf_nonneg .., fun i hi => ?_⟩ <;>
    rw [abs_sub_comm] <;> exact abs_le_linf t _ _ hi

theorem linf_self (t : BoxTree) (x : Nat → ℚ) : t.linf x x = 0 := by
  apply le_antisymm _ (linf_nonneg ..)
  rw [linf_le_iff]; simp

theorem mortonSign_abs (d m i : Nat) : |mortonSign d m i| = 1 := by
  unfold mortonSign; split <;> simp

/-- The center of a box is at distance at most (its own radius) from its parent's. -/
theorem WF.linf_parent (h : t.WF) {b : Nat} (hb : b < t.nboxes) :
    t.linf (t.center (t.parent b)) (t.center b) ≤ t.rad (t.level b) := by
  by_cases h0 : b = 0
  · subst h0; rw [h.parent_root, linf_self]; exact (h.rad_pos _).le
  · obtain ⟨m, hm, hc⟩ := h.parent_child b hb h0
    rw [linf_le_iff]
    refine ⟨(h.rad_pos _).le, fun i hi => ?_⟩
    have h1 := h.center_child m hm _ (h.parent_lt b hb) (by rw [hc]; exact h0) i hi
    rw [hc] at h1
    rw [h1, h.level_parent b hb h0]
    have : t.center (t.parent b) i -
        (t.center (t.parent b) i + mortonSign t.dims m i * t.rad (t.level (t.parent b) + 1))
        = -(mortonSign t.dims m i * t.rad (t.level (t.parent b) + 1)) := by ring
    rw [this, abs_neg, abs_mul, mortonSign_abs, one_mul, abs_of_pos (h.rad_pos _)]

/-! ### adjacency between boxes -/

/-- neighborhood test between two boxes -/
def nws (t : BoxTree) (n : Nat) (a b : Nat) : Prop :=
  t.linf (t.center a) (t.center b) ≤
    (2 * ((n:ℚ) - 1) + 1) * t.rad (t.level a) + t.rad (t.level b)
      + min (t.rad (t.level a)) (t.rad (t.level b))

theorem adjNbhd_iff (t : BoxTree) (n a b : Nat) :
    t.adjNbhd (t.center a) (t.level a) n (t.center b) (t.level b) = true ↔ t.nws n a b := by
  simp [adjNbhd, nws]

theorem adjOver_iff (t : BoxTree) (a b : Nat) :
    t.adjOver (t.center a) (t.level a) (t.center b) (t.level b) = true ↔ t.nws 1 a b := by
  unfold adjOver
  rw [← adjNbhd_iff]; simp

theorem nws_one_symm (t : BoxTree) {a b : Nat} (h : t.nws 1 a b) : t.nws 1 b a := by
  unfold nws at *
  rw [linf_comm, min_comm]; push_cast at *; linarith

/-- symmetric for same-level boxes -/
theorem nws_symm_of_level (t : BoxTree) {n a b : Nat} (hl : t.level a = t.level b)
    (h : t.nws n a b) : t.nws n b a := by
  unfold nws at *
  rw [linf_comm]; rw [hl] at *; exact h

/-- Moving the target to its parent keeps the test true. -/
theorem WF.nws_parent_left (hw : t.WF) {n a b : Nat} (hn : 1 ≤ n) (ha : a < t.nboxes)
    (h : t.nws n a b) : t.nws n (t.parent a) b := by
  by_cases h0 : a = 0
  · subst h0; rw [hw.parent_root]; exact h
  unfold nws at *
  have h1 := hw.linf_parent ha
  have h2 := linf_triangle t (t.center (t.parent a)) (t.center a) (t.center b)
  have h3 := hw.level_parent a ha h0
  have h4 := rad_succ t (t.level (t.parent a))
  rw [← h3] at h4
  have hr := hw.rad_pos (t.level a)
  have hr' := hw.rad_pos (t.level b)
  have hn' : (1:ℚ) ≤ n := by exact_mod_cast hn
  have h5 : min (t.rad (t.level a)) (t.rad (t.level b)) ≤
      min (t.rad (t.level (t.parent a))) (t.rad (t.level b)) :=
    min_le_min (by linarith) le_rfl
  have h6 : 0 ≤ (2 * ((n:ℚ) - 1)) * t.rad (t.level a) :=
    mul_nonneg (by linarith) hr.le
  rw [h4] at *
  nlinarith

theorem WF.nws_parent_right (hw : t.WF) {n a b : Nat} (hb : b < t.nboxes)
    (h : t.nws n a b) : t.nws n a (t.parent b) := by
  by_cases h0 : b = 0
  · subst h0; rw [hw.parent_root]; exact h
  unfold nws at *
  have h1 := hw.linf_parent hb
  rw [linf_comm] at h1
  have h2 := linf_triangle t (t.center a) (t.center b) (t.center (t.parent b))
  have h3 := hw.level_parent b hb h0
  have h4 := rad_succ t (t.level (t.parent b))
  rw [← h3] at h4
  have hr' := hw.rad_pos (t.level b)
  have h5 : min (t.rad (t.level a)) (t.rad (t.level b)) ≤
      min (t.rad (t.level a)) (t.rad (t.level (t.parent b))) :=
    min_le_min le_rfl (by linarith)
  rw [h4] at *
  linarith

theorem WF.nws_mono (hw : t.WF) {n n' a b : Nat} (hn : n ≤ n')
    (h : t.nws n a b) : t.nws n' a b := by
  unfold nws at *
  have hr := hw.rad_pos (t.level a)
  have hn' : (n:ℚ) ≤ n' := by exact_mod_cast hn
  nlinarith

theorem WF.nws_ancAt_left (hw : t.WF) {n a b l : Nat} (hn : 1 ≤ n) (ha : a < t.nboxes)
    (h : t.nws n a b) : t.nws n (t.ancAt a l) b := by
  unfold ancAt
  induction t.level a - l with
  | zero => exact h
  | succ k ih =>
    rw [Function.iterate_succ_apply']
    exact hw.nws_parent_left hn (hw.iter_parent ha _).1 ih

theorem WF.nws_ancAt_right (hw : t.WF) {n a b l : Nat} (hb : b < t.nboxes)
    (h : t.nws n a b) : t.nws n a (t.ancAt b l) := by
  unfold ancAt
  induction t.level b - l with
  | zero => exact h
  | succ k ih =>
    rw [Function.iterate_succ_apply']
    exact hw.nws_parent_right (hw.iter_parent hb _).1 ih

theorem WF.nws_self (hw : t.WF) {n a : Nat} (hn : 1 ≤ n) : t.nws n a a := by
  unfold nws
  rw [linf_self]
  have hr := hw.rad_pos (t.level a)
  have hn' : (1:ℚ) ≤ n := by exact_mod_cast hn
  have : 0 ≤ (2 * ((n:ℚ) - 1)) * t.rad (t.level a) := mul_nonneg (by linarith) hr.le
  rw [min_self]
  nlinarith

/-- Boxes sharing a parent are adjacent. -/
theorem WF.nws_of_parent_eq (hw : t.WF) {n a b : Nat} (hn : 1 ≤ n) (ha : a < t.nboxes)
    (hb : b < t.nboxes) (ha0 : a ≠ 0) (hb0 : b ≠ 0) (h : t.parent a = t.parent b) :
    t.nws n a b := by
  apply hw.nws_mono hn
  have h1 := hw.linf_parent ha
  rw [linf_comm] at h1
  have h2 := hw.linf_parent hb
  have h3 := hw.level_parent a ha ha0
  have h4 := hw.level_parent b hb hb0
  rw [← h] at h4
  have h5 := linf_triangle t (t.center a) (t.center (t.parent a)) (t.center b)
  unfold nws
  rw [← h] at h2
  have h6 : t.level b = t.level a := by omega
  rw [h6] at h2 ⊢
  rw [min_self]
  have := hw.rad_pos (t.level a)
  push_cast; linarith

/-- An ancestor (or self) is adjacent to its descendants. -/
theorem WF.nws_anc (hw : t.WF) {a l : Nat} (ha : a < t.nboxes) :
    t.nws 1 (t.ancAt a l) a :=
  hw.nws_ancAt_left le_rfl ha (hw.nws_self le_rfl)

end BoxTree
end Boxtree
