import Verif.Spec.Locate
import Verif.Lemmas.Tree
import Mathlib.Tactic.Linarith
import Mathlib.Tactic.Ring

set_option linter.unusedVariables false

/-!
# Locating a point in the dyadic tree
-/

namespace Boxtree

theorem mortonOf_lt (d : Nat) (f : Nat → Bool) : mortonOf d f < 2 ^ d := by
  induction d with
  | zero => simp [mortonOf]
  | succ d ih =>
    have : mortonOf (d + 1) f = 2 * mortonOf d f + (f d).toNat := by
      simp [mortonOf, List.range_succ]
    rw [this, Nat.pow_succ]
    have := Bool.toNat_le (f d)
    omega

theorem mortonOf_bit (d : Nat) (f : Nat → Bool) (i : Nat) (hi : i < d) :
    mortonOf d f / 2 ^ (d - 1 - i) % 2 = (f i).toNat := by
  induction d with
  | zero => omega
  | succ d ih =>
    have e : mortonOf (d + 1) f = 2 * mortonOf d f + (f d).toNat := by
      simp [mortonOf, List.range_succ]
    have hb := Bool.toNat_le (f d)
    rw [e]
    by_cases h : i = d
    · subst h; simp; omega
    · have h1 := ih (by omega)
      rw [← h1, show d + 1 - 1 - i = 1 + (d - 1 - i) by omega, Nat.pow_add, ← Nat.div_div_eq_div_mul]
      congr 2
      simp; omega

theorem mortonSign_mortonOf (d : Nat) (f : Nat → Bool) (i : Nat) (hi : i < d) :
    mortonSign d (mortonOf d f) i = if f i then 1 else -1 := by
  unfold mortonSign
  rw [mortonOf_bit d f i hi]
  cases f i <;> simp

/-- A Morton number is determined by its signs. -/
theorem morton_eq_of_signs {d : Nat} : ∀ {m m' : Nat}, m < 2 ^ d → m' < 2 ^ d →
    (∀ i, i < d → mortonSign d m i = mortonSign d m' i) → m = m' := by
  intro m m' hm hm' h
  apply Nat.eq_of_testBit_eq
  intro j
  by_cases hj : j < d
  · have := h (d - 1 - j) (by omega)
    unfold mortonSign at this
    rw [show d - 1 - (d - 1 - j) = j by omega] at this
    rw [Nat.testBit_eq_decide_div_mod_eq, Nat.testBit_eq_decide_div_mod_eq]
    rcases Nat.mod_two_eq_zero_or_one (m / 2 ^ j) with h1 | h1 <;>
      rcases Nat.mod_two_eq_zero_or_one (m' / 2 ^ j) with h2 | h2 <;>
      simp [h1, h2] at this ⊢ <;> norm_num at this
  · have hp : 2 ^ d ≤ 2 ^ j := Nat.pow_le_pow_right (by omega) (by omega)
    rw [Nat.testBit_lt_two_pow (by omega), Nat.testBit_lt_two_pow (by omega)]

namespace BoxTree
variable {t : BoxTree}

theorem inCell_root_of_axis {b : Nat} {x : Nat → ℚ} (h : t.InCell b x) {i : Nat} (hi : i < t.dims) :
    |x i - t.center b i| ≤ t.rad (t.level b) := by
  have := h i hi
  rw [abs_le]; constructor <;> linarith

theorem WF.inCell_child_iff (hw : t.WF) {b m : Nat} {x : Nat → ℚ} (hb : b < t.nboxes)
    (hm : m < t.nch) (hne : t.child m b ≠ 0) (hx : t.InCell b x) :
    t.InCell (t.child m b) x ↔
      ∀ i, i < t.dims → mortonSign t.dims m i = if t.center b i ≤ x i then 1 else -1 := by
  have hl := hw.level_child hm hb hne
  have hr := rad_succ t (t.level b)
  have hp := hw.rad_pos (t.level b + 1)
  unfold InCell at *
  rw [hl]
  constructor
  · intro h i hi
    have h1 := h i hi
    rw [hw.center_child m hm b hb hne i hi] at h1
    have hs : mortonSign t.dims m i = 1 ∨ mortonSign t.dims m i = -1 := by
      unfold mortonSign; split <;> simp
    rcases hs with hs | hs <;> rw [hs] at h1 ⊢
    · rw [if_pos (by linarith)]
    · rw [if_neg (by push Not; linarith)]
  · intro h i hi
    have h1 := h i hi
    have h2 := hx i hi
    rw [hw.center_child m hm b hb hne i hi, h1]
    split_ifs with h3
    · constructor <;> linarith
    · push Not at h3; constructor <;> linarith

theorem WF.inCell_parent (hw : t.WF) {b : Nat} {x : Nat → ℚ} (hb : b < t.nboxes)
    (h : t.InCell b x) : t.InCell (t.parent b) x := by
  by_cases h0 : b = 0
  · rw [h0, hw.parent_root]; rwa [h0] at h
  obtain ⟨m, hm, hc⟩ := hw.parent_child b hb h0
  have hpl := hw.parent_lt b hb
  have hl := hw.level_parent b hb h0
  have hr := rad_succ t (t.level (t.parent b))
  have hp := hw.rad_pos (t.level (t.parent b) + 1)
  intro i hi
  have h1 := h i hi
  have h2 := hw.center_child m hm _ hpl (by rw [hc]; exact h0) i hi
  rw [hc] at h2
  rw [hl, h2] at h1
  have hs : mortonSign t.dims m i = 1 ∨ mortonSign t.dims m i = -1 := by
    unfold mortonSign; split <;> simp
  rcases hs with hs | hs <;> rw [hs] at h1 <;> constructor <;> linarith

theorem WF.inCell_iter (hw : t.WF) {b : Nat} {x : Nat → ℚ} (hb : b < t.nboxes)
    (h : t.InCell b x) (k : Nat) : t.InCell (t.parent^[k] b) x ∧ t.parent^[k] b < t.nboxes := by
  induction k with
  | zero => exact ⟨h, hb⟩
  | succ k ih =>
    rw [Function.iterate_succ_apply']
    exact ⟨hw.inCell_parent ih.2 ih.1, hw.parent_lt _ ih.2⟩

/-- Boxes of the same level that share a point are the same box. -/
theorem WF.inCell_unique (hw : t.WF) {x : Nat → ℚ} : ∀ {l a b : Nat}, a < t.nboxes → b < t.nboxes →
    t.level a = l → t.level b = l → t.InCell a x → t.InCell b x → a = b := by
  intro l
  induction l with
  | zero =>
    intro a b ha hb hla hlb _ _
    rw [hw.eq_zero_of_level ha hla, hw.eq_zero_of_level hb hlb]
  | succ l ih =>
    intro a b ha hb hla hlb hxa hxb
    have ha0 : a ≠ 0 := by rintro rfl; rw [hw.level_root] at hla; omega
    have hb0 : b ≠ 0 := by rintro rfl; rw [hw.level_root] at hlb; omega
    have hpa := hw.level_parent a ha ha0
    have hpb := hw.level_parent b hb hb0
    have hpp := ih (hw.parent_lt a ha) (hw.parent_lt b hb) (by omega) (by omega)
      (hw.inCell_parent ha hxa) (hw.inCell_parent hb hxb)
    obtain ⟨m, hm, hc⟩ := hw.parent_child a ha ha0
    obtain ⟨m', hm', hc'⟩ := hw.parent_child b hb hb0
    rw [← hpp] at hc'
    have hpl := hw.parent_lt a ha
    have hxp := hw.inCell_parent ha hxa
    have h1 := (hw.inCell_child_iff hpl hm (by rw [hc]; exact ha0) hxp).1 (by rw [hc]; exact hxa)
    have h2 := (hw.inCell_child_iff hpl hm' (by rw [hc']; exact hb0) hxp).1 (by rw [hc']; exact hxb)
    have : m = m' := morton_eq_of_signs hm hm' (fun i hi => by rw [h1 i hi, h2 i hi])
    rw [← hc, ← hc', this]

/-- If two boxes share a point, the one on the coarser (or same) level is an ancestor or the box
itself. -/
theorem WF.inCell_anc (hw : t.WF) {a b : Nat} {x : Nat → ℚ} (ha : a < t.nboxes) (hb : b < t.nboxes)
    (hxa : t.InCell a x) (hxb : t.InCell b x) (hl : t.level a ≤ t.level b) : t.IsAncOrSelf a b := by
  refine ⟨hl, ?_⟩
  have h1 : t.InCell (t.ancAt b (t.level a)) x := (hw.inCell_iter hb hxb _).1
  exact hw.inCell_unique (hw.ancAt_lt hb _) ha (hw.level_ancAt hb hl) rfl h1 hxa

/-- In a box with all its children, one of them contains the point. -/
theorem WF.exists_child_inCell (hw : t.WF) {b : Nat} {x : Nat → ℚ} (hb : b < t.nboxes)
    (hall : ∀ m, m < t.nch → t.child m b ≠ 0) (hx : t.InCell b x) :
    ∃ m, m < t.nch ∧ t.InCell (t.child m b) x := by
  let f : Nat → Bool := fun i => decide (t.center b i ≤ x i)
  have hm : mortonOf t.dims f < t.nch := mortonOf_lt _ _
  refine ⟨mortonOf t.dims f, hm, ?_⟩
  rw [hw.inCell_child_iff hb hm (hall _ hm) hx]
  intro i hi
  rw [mortonSign_mortonOf _ _ _ hi]
  simp [f]

/-- In a tree where every box has all children or none, every point of a box lies in a leaf below
it. -/
theorem WF.exists_leaf_inCell (hw : t.WF)
    (hfull : ∀ b, b < t.nboxes → (∀ m, m < t.nch → t.child m b = 0) ∨
      (∀ m, m < t.nch → t.child m b ≠ 0)) {x : Nat → ℚ} :
    ∀ k b, b < t.nboxes → t.nlevels - t.level b = k → t.InCell b x →
      ∃ c, c < t.nboxes ∧ (∀ m, m < t.nch → t.child m c = 0) ∧ t.InCell c x := by
  intro k
  induction k with
  | zero =>
    intro b hb hk _
    have := hw.level_lt b hb
    omega
  | succ k ih =>
    intro b hb hk hx
    rcases hfull b hb with h | h
    · exact ⟨b, hb, h, hx⟩
    · obtain ⟨m, hm, hxm⟩ := hw.exists_child_inCell hb h hx
      have hl := hw.level_child hm hb (h m hm)
      exact ih _ (hw.child_lt m hm b hb) (by omega) hxm

end BoxTree
end Boxtree
