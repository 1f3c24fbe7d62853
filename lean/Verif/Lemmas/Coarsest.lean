import Verif.Lemmas.Grid
import Verif.Lemmas.GridPos
import Verif.Lemmas.Locate
import Verif.Spec.Coarsest

/-!
# The cells of a box tree in another tree over the same root box
-/

namespace Boxtree
namespace BoxTree

variable {t t' : BoxTree}

/-- The two trees are over the same root box. -/
structure SameRoot (t t' : BoxTree) : Prop where
  dims : t'.dims = t.dims
  extent : t'.rootExtent = t.rootExtent
  center : ∀ a < t.dims, t'.center 0 a = t.center 0 a

theorem SameRoot.rad (h : SameRoot t t') (l : Nat) : t'.rad l = t.rad l := by
  unfold BoxTree.rad; rw [h.extent]

/-- A box with the center of a box that is not larger contains it. -/
theorem inside_of_center (hw : t.WF) (hw' : t'.WF) (hs : SameRoot t t') {b f : Nat}
    (hb : b < t.nboxes) (hf : f < t'.nboxes) (hl : t'.level f ≤ t.level b) {i : Nat} (hi : i < t.dims)
    (h : |t.center b i - t'.center f i| ≤ t.rad (t'.level f)) :
    |t.center b i - t'.center f i| ≤ t.rad (t'.level f) - t.rad (t.level b) := by
  have e1 := hw.center_pos hb hi
  have e2 := hw'.center_pos hf (hs.dims ▸ hi)
  have e3 : t'.lo 0 i = t.lo 0 i := by
    unfold BoxTree.lo
    rw [hs.center i hi, hs.rad, hw.level_root, hw'.level_root]
  rw [e3, hs.rad] at e2
  obtain ⟨j, hj⟩ := Nat.exists_eq_add_of_le hl
  have e4 : t.rad (t'.level f) = 2 ^ j * t.rad (t.level b) := by rw [hj]; exact rad_mul_pow t _ j
  have hr := hw.rad_pos (t.level b)
  rw [e4] at h e2 ⊢
  generalize t.rad (t.level b) = r at *
  generalize t.gridPos b i = g at *
  generalize t'.gridPos f i = g' at *
  have e5 : t.center b i - t'.center f i = (((2 * g + 1) - 2 ^ j * (2 * g' + 1) : ℤ) : ℚ) * r := by
    rw [e1, e2]; push_cast; ring
  rw [e5, abs_mul, abs_of_pos hr] at h ⊢
  have h1 : |(((2 * g + 1) - 2 ^ j * (2 * g' + 1) : ℤ) : ℚ)| ≤ 2 ^ j := le_of_mul_le_mul_right h hr
  have h2 : |((2 * g + 1) - 2 ^ j * (2 * g' + 1) : ℤ)| ≤ 2 ^ j := by exact_mod_cast h1
  have h3 : |((2 * g + 1) - 2 ^ j * (2 * g' + 1) : ℤ)| ≤ 2 ^ j - 1 := by
    rcases Nat.eq_zero_or_pos j with rfl | h0
    · rw [abs_le] at h2 ⊢
      simp only [pow_zero, one_mul] at h2 ⊢
      omega
    · obtain ⟨j, rfl⟩ : ∃ k, j = k + 1 := ⟨j - 1, by omega⟩
      rw [pow_succ] at h2 ⊢
      rw [show (2 : ℤ) ^ j * 2 * (2 * g' + 1) = 2 * (2 ^ j * (2 * g' + 1)) by ring] at h2 ⊢
      generalize (2 : ℤ) ^ j * (2 * g' + 1) = x at *
      generalize (2 : ℤ) ^ j = y at *
      rw [abs_le] at h2 ⊢
      omega
  have h4 : |(((2 * g + 1) - 2 ^ j * (2 * g' + 1) : ℤ) : ℚ)| ≤ 2 ^ j - 1 := by exact_mod_cast h3
  have := mul_le_mul_of_nonneg_right h4 hr.le
  linarith

/-- `y` is in the closed cube of `b`. -/
def InClosed (t : BoxTree) (b : Nat) (y : Nat → ℚ) : Prop :=
  ∀ a < t.dims, |y a - t.center b a| ≤ t.rad (t.level b)

theorem WF.inClosed_child (hw : t.WF) {b : Nat} (hb : b < t.nboxes)
    (hall : ∀ m < t.nch, t.child m b ≠ 0) {y : Nat → ℚ} (hy : t.InClosed b y) :
    ∃ m < t.nch, t.InClosed (t.child m b) y := by
  refine ⟨_root_.Boxtree.mortonOf t.dims fun i => decide (t.center b i ≤ y i), _root_.Boxtree.mortonOf_lt _ _, fun i hi => ?_⟩
  have hm : _root_.Boxtree.mortonOf t.dims (fun i => decide (t.center b i ≤ y i)) < t.nch := _root_.Boxtree.mortonOf_lt _ _
  have h1 := hw.center_child _ hm b hb (hall _ hm) i hi
  have h2 := hw.level_child hm hb (hall _ hm)
  have h3 := rad_succ t (t.level b)
  have h4 := hy i hi
  rw [h1, h2, mortonSign_mortonOf _ _ _ hi]
  rw [h3] at h4
  by_cases hc : t.center b i ≤ y i
  · simp only [hc, decide_true, if_true]
    rw [abs_le] at h4 ⊢
    constructor <;> linarith [h4.1, h4.2]
  · simp only [hc, decide_false, Bool.false_eq_true, if_false]
    rw [abs_le] at h4 ⊢
    constructor <;> linarith [h4.1, h4.2]

/-- Below a box there is a leaf at every point. -/
theorem WF.exists_leaf_inClosed (hw : t.WF)
    (hfull : ∀ b < t.nboxes, (∀ m < t.nch, t.child m b = 0) ∨ ∀ m < t.nch, t.child m b ≠ 0)
    {y : Nat → ℚ} : ∀ k b, b < t.nboxes → t.nlevels - t.level b = k → t.InClosed b y →
      ∃ c, Build.IsLeaf t c ∧ t.InClosed c y ∧
        t.level b + (if ∃ m < t.nch, t.child m b ≠ 0 then 1 else 0) ≤ t.level c := by
  intro k
  induction k with
  | zero =>
    intro b hb hk _
    have := hw.level_lt b hb
    omega
  | succ k ih =>
    intro b hb hk hy
    rcases hfull b hb with h | h
    · refine ⟨b, ⟨hb, h⟩, hy, ?_⟩
      rw [if_neg (by rintro ⟨m, hm, h0⟩; exact h0 (h m hm))]
      omega
    · obtain ⟨m, hm, hym⟩ := hw.inClosed_child hb h hy
      have hl := hw.level_child hm hb (h m hm)
      obtain ⟨c, h1, h2, h3⟩ := ih _ (hw.child_lt m hm b hb) (by omega) hym
      refine ⟨c, h1, h2, ?_⟩
      split <;> omega

theorem WF.inClosed_parent (hw : t.WF) {b : Nat} (hb : b < t.nboxes) {y : Nat → ℚ}
    (hy : t.InClosed b y) : t.InClosed (t.parent b) y := by
  by_cases h0 : b = 0
  · rw [h0, hw.parent_root]; rwa [h0] at hy
  intro i hi
  have h1 := (linf_le_iff t _ _ _).1 (hw.linf_parent hb)
  have h2 := h1.2 i hi
  have h3 := hy i hi
  have h4 := hw.level_parent b hb h0
  have h5 := rad_succ t (t.level (t.parent b))
  rw [← h4] at h5
  rw [abs_le] at *
  constructor <;> linarith [h2.1, h2.2, h3.1, h3.2]

theorem WF.inClosed_anc (hw : t.WF) {b : Nat} (hb : b < t.nboxes) {y : Nat → ℚ}
    (hy : t.InClosed b y) (l : Nat) : t.InClosed (t.ancAt b l) y := by
  unfold ancAt
  generalize t.level b - l = k
  have : t.InClosed (t.parent^[k] b) y ∧ t.parent^[k] b < t.nboxes := by
    induction k with
    | zero => exact ⟨hy, hb⟩
    | succ k ih =>
      rw [Function.iterate_succ_apply']
      exact ⟨hw.inClosed_parent ih.2 ih.1, hw.parent_lt _ ih.2⟩
  exact this.1

/-- A cell of one tree is part of a leaf of the other one, or is a cell of the other one that is
split. -/
theorem cell_cases (hw : t.WF) (hw' : t'.WF) (hs : SameRoot t t')
    (hfull : ∀ b < t'.nboxes, (∀ m < t'.nch, t'.child m b = 0) ∨ ∀ m < t'.nch, t'.child m b ≠ 0)
    {b : Nat} (hb : b < t.nboxes) :
    (∃ f, Build.IsLeaf t' f ∧ t'.level f ≤ t.level b ∧
      ∀ a < t.dims, |t.center b a - t'.center f a| ≤ t.rad (t'.level f) - t.rad (t.level b)) ∨
    ∃ b' < t'.nboxes, t'.level b' = t.level b ∧ (∀ a < t.dims, t'.center b' a = t.center b a) ∧
      ∃ m < t'.nch, t'.child m b' ≠ 0 := by
  have hroot : t'.InClosed 0 (t.center b) := by
    intro a ha
    have ha' : a < t.dims := hs.dims ▸ ha
    have h1 : t.InClosed b (t.center b) := fun i _ => by
      rw [sub_self, abs_zero]; exact (hw.rad_pos _).le
    have h2 := hw.inClosed_anc hb h1 0
    rw [hw.ancAt_zero hb] at h2
    have := h2 a ha'
    rw [hs.center a ha', hs.rad, hw'.level_root]
    rwa [hw.level_root] at this
  obtain ⟨f, hf, hy, _⟩ := hw'.exists_leaf_inClosed hfull _ 0 hw'.nboxes_pos rfl hroot
  rcases Nat.lt_or_ge (t.level b) (t'.level f) with hlt | hge
  · right
    have hl' : t'.level (t'.ancAt f (t.level b)) = t.level b := hw'.level_ancAt hf.1 hlt.le
    refine ⟨t'.ancAt f (t.level b), hw'.ancAt_lt hf.1 _, hl', fun a ha => ?_, ?_⟩
    · have h1 := hw'.inClosed_anc hf.1 hy (t.level b) a (hs.dims ▸ ha)
      rw [hs.rad] at h1
      have h2 := inside_of_center hw hw' hs hb (hw'.ancAt_lt hf.1 _) (by omega) ha h1
      rw [hl', sub_self] at h2
      have := abs_eq_zero.1 (le_antisymm h2 (abs_nonneg _))
      linarith
    · have hne := hw'.ancAt_ne_zero hf.1 (l := t.level b + 1) (by omega) (by omega)
      have hlt' := hw'.ancAt_lt hf.1 (t.level b + 1)
      have hpar := t'.ancAt_parent (b := f) hlt
      obtain ⟨m, hm, hc⟩ := hw'.parent_child _ hlt' hne
      rw [hpar] at hc
      exact ⟨m, hm, by rw [hc]; exact hne⟩
  · left
    refine ⟨f, hf, hge, fun a ha => ?_⟩
    have h1 := hy a (hs.dims ▸ ha)
    rw [hs.rad] at h1
    exact inside_of_center hw hw' hs hb hf.1 hge ha h1

end BoxTree

namespace Build
open BoxTree

variable {t t' : BoxTree}

/-- In a balanced tree a cell is split if it touches a cell of half its size that is split. -/
theorem split_of_touch (hw : t.WF) (hw' : t'.WF) (hs : SameRoot t t')
    (hfull : ∀ b < t'.nboxes, (∀ m < t'.nch, t'.child m b = 0) ∨ ∀ m < t'.nch, t'.child m b ≠ 0)
    (hbal : ∀ b c, IsLeaf t' b → IsLeaf t' c → Touch t' b c → t'.level c ≤ t'.level b + 1)
    {b c : Nat} (hb : b < t.nboxes) (hl : t.level c = t.level b + 1)
    (ht : ∀ a < t.dims, |t.center c a - t.center b a| ≤ t.rad (t.level c) + t.rad (t.level b))
    {c' : Nat} (hc' : c' < t'.nboxes) (hlc : t'.level c' = t.level c)
    (hcc : ∀ a < t.dims, t'.center c' a = t.center c a) (hsp : ∃ m < t'.nch, t'.child m c' ≠ 0) :
    ∃ b' < t'.nboxes, t'.level b' = t.level b ∧ (∀ a < t.dims, t'.center b' a = t.center b a) ∧
      ∃ m < t'.nch, t'.child m b' ≠ 0 := by
  rcases cell_cases hw hw' hs hfull hb with ⟨f, hf, hlf, hin⟩ | h
  swap
  · exact h
  exfalso
  -- the point of `c` closest to the center of `b`
  let y : Nat → ℚ := fun a => max (t.center c a - t.rad (t.level c))
    (min (t.center b a) (t.center c a + t.rad (t.level c)))
  have hrc := hw.rad_pos (t.level c)
  have hy : t'.InClosed c' y := by
    intro a ha
    rw [hlc, hs.rad, hcc a (hs.dims ▸ ha), abs_le]
    show -_ ≤ max _ (min _ _) - _ ∧ max _ (min _ _) - _ ≤ _
    constructor
    · have := le_max_left (t.center c a - t.rad (t.level c))
        (min (t.center b a) (t.center c a + t.rad (t.level c)))
      linarith
    · have : max (t.center c a - t.rad (t.level c))
        (min (t.center b a) (t.center c a + t.rad (t.level c))) ≤ t.center c a + t.rad (t.level c) :=
        max_le (by linarith) (min_le_right _ _)
      linarith
  obtain ⟨e, he, hye, hle⟩ := hw'.exists_leaf_inClosed hfull _ c' hc' rfl hy
  rw [if_pos hsp, hlc, hl] at hle
  have hrb := hw.rad_pos (t.level b)
  have := hbal f e hf he fun a ha => by
    have ha' : a < t.dims := hs.dims ▸ ha
    have h1 := hye a ha
    have h2 := hin a ha'
    have h3 := ht a ha'
    have h4 : |y a - t.center b a| ≤ t.rad (t.level b) := by
      rw [abs_le] at h3 ⊢
      show -_ ≤ max _ (min _ _) - _ ∧ max _ (min _ _) - _ ≤ _
      constructor
      · rcases le_total (t.center b a) (t.center c a + t.rad (t.level c)) with h | h
        · rw [min_eq_left h]
          have := le_max_right (t.center c a - t.rad (t.level c)) (t.center b a)
          linarith
        · rw [min_eq_right h]
          have := le_max_right (t.center c a - t.rad (t.level c)) (t.center c a + t.rad (t.level c))
          linarith [h3.1]
      · have : max (t.center c a - t.rad (t.level c))
          (min (t.center b a) (t.center c a + t.rad (t.level c))) ≤ t.center b a + t.rad (t.level b) :=
          max_le (by linarith [h3.2]) (le_trans (min_le_left _ _) (by linarith))
        linarith
    rw [hs.rad] at h1 ⊢
    rw [hs.rad]
    rw [abs_le] at *
    constructor <;> linarith [h1.1, h1.2, h2.1, h2.2, h4.1, h4.2]
  omega

end Build
end Boxtree
