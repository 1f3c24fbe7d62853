import Verif.Lemmas.Grid
import Mathlib.Algebra.Order.Floor.Ring
import Mathlib.Data.Rat.Floor
import Mathlib.Data.Fintype.BigOperators
import Mathlib.Data.Int.Interval
import Mathlib.Tactic.FieldSimp
import Mathlib.Tactic.Positivity

/-!
# Positions of boxes in the grid of their level
-/

namespace Boxtree.BoxTree
variable {t : BoxTree}

/-- Number of the box along axis `i` among the cells of its level. -/
def gridPos (t : BoxTree) (b i : Nat) : ℤ := ⌊(t.lo b i - t.lo 0 i) / t.width b⌋

theorem WF.center_pos (hw : t.WF) {b : Nat} (hb : b < t.nboxes) {i : Nat} (hi : i < t.dims) :
    t.center b i = t.lo 0 i + (2 * t.gridPos b i + 1) * t.rad (t.level b) := by
  obtain ⟨k, hk⟩ := hw.grid hb i hi
  have hr := hw.rad_pos (t.level b)
  have : t.gridPos b i = k := by
    unfold gridPos
    have e : (t.lo b i - t.lo 0 i) / t.width b = k := by
      rw [div_eq_iff (by unfold width; positivity)]
      unfold width
      show t.center b i - t.rad (t.level b) - t.lo 0 i = _
      rw [hk]; ring
    rw [e, Int.floor_intCast]
  rw [hk, this]

/-- The lower end of a box in cells of a finer level. -/
theorem WF.lo_pos (hw : t.WF) {b : Nat} (hb : b < t.nboxes) {i : Nat} (hi : i < t.dims) {l : Nat}
    (hl : t.level b ≤ l) :
    t.lo b i = t.lo 0 i + ((2 ^ (l - t.level b) * t.gridPos b i : ℤ) : ℚ) * (2 * t.rad l) := by
  have h := hw.center_pos hb hi
  have hr := rad_mul_pow t (t.level b) (l - t.level b)
  rw [Nat.add_sub_cancel' hl] at hr
  show t.center b i - t.rad (t.level b) = _
  rw [h, hr]; push_cast; ring

theorem WF.hi_pos (hw : t.WF) {b : Nat} (hb : b < t.nboxes) {i : Nat} (hi : i < t.dims) {l : Nat}
    (hl : t.level b ≤ l) :
    t.hi b i =
      t.lo 0 i + ((2 ^ (l - t.level b) * (t.gridPos b i + 1) : ℤ) : ℚ) * (2 * t.rad l) := by
  have h := hw.center_pos hb hi
  have hr := rad_mul_pow t (t.level b) (l - t.level b)
  rw [Nat.add_sub_cancel' hl] at hr
  show t.center b i + t.rad (t.level b) = _
  rw [h, hr]; push_cast; ring

theorem cell_le {x y : ℤ} {a r : ℚ} (hr : 0 < r) : a + (x : ℚ) * r ≤ a + y * r ↔ x ≤ y := by
  rw [add_le_add_iff_left, mul_le_mul_iff_left₀ hr]
  exact_mod_cast Iff.rfl

/-- Two boxes touch, in cells of a level at least as fine as both. -/
theorem WF.touch_pos (hw : t.WF) {a b : Nat} (ha : a < t.nboxes) (hb : b < t.nboxes) {l : Nat}
    (hla : t.level a ≤ l) (hlb : t.level b ≤ l) :
    t.Touch a b ↔ ∀ i, i < t.dims →
      2 ^ (l - t.level b) * t.gridPos b i ≤ 2 ^ (l - t.level a) * (t.gridPos a i + 1) ∧
      2 ^ (l - t.level a) * t.gridPos a i ≤ 2 ^ (l - t.level b) * (t.gridPos b i + 1) := by
  have hr : 0 < 2 * t.rad l := mul_pos (by norm_num) (hw.rad_pos l)
  unfold Touch
  refine forall_congr' fun i => imp_congr_right fun hi => ?_
  rw [hw.lo_pos hb hi hlb, hw.lo_pos ha hi hla, hw.hi_pos hb hi hlb, hw.hi_pos ha hi hla,
    cell_le hr, cell_le hr]

/-- Boxes on one level, the first enlarged. -/
theorem WF.touchEnlarged_pos (hw : t.WF) {a b : Nat} (ha : a < t.nboxes) (hb : b < t.nboxes)
    (hl : t.level a = t.level b) (m : Nat) :
    t.TouchEnlarged m a b ↔ ∀ i, i < t.dims →
      t.gridPos b i ≤ t.gridPos a i + (m + 1) ∧ t.gridPos a i - (m + 1) ≤ t.gridPos b i := by
  have hr : 0 < 2 * t.rad (t.level b) := mul_pos (by norm_num) (hw.rad_pos _)
  unfold TouchEnlarged
  refine forall_congr' fun i => imp_congr_right fun hi => ?_
  rw [hw.lo_pos hb hi le_rfl, hw.lo_pos ha hi hl.le, hw.hi_pos hb hi le_rfl, hw.hi_pos ha hi hl.le,
    hl, Nat.sub_self]
  have e1 : t.lo 0 i + ((2 ^ 0 * (t.gridPos a i + 1) : ℤ) : ℚ) * (2 * t.rad (t.level b)) +
      m * t.width a =
      t.lo 0 i + ((t.gridPos a i + (m + 1) : ℤ) : ℚ) * (2 * t.rad (t.level b)) := by
    unfold width; rw [hl]; push_cast; ring
  have e2 : t.lo 0 i + ((2 ^ 0 * t.gridPos a i : ℤ) : ℚ) * (2 * t.rad (t.level b)) -
      m * t.width a =
      t.lo 0 i + ((t.gridPos a i - m : ℤ) : ℚ) * (2 * t.rad (t.level b)) := by
    unfold width; rw [hl]; push_cast; ring
  rw [e1, e2, cell_le hr, cell_le hr]
  constructor
  · rintro ⟨h1, h2⟩; constructor <;> omega
  · rintro ⟨h1, h2⟩; constructor <;> omega

/-- The position of a child. -/
theorem WF.pos_child (hw : t.WF) {b m : Nat} (hb : b < t.nboxes) (h0 : b ≠ 0) (hm : m < t.nch)
    (hc : t.child m (t.parent b) = b) {i : Nat} (hi : i < t.dims) :
    t.gridPos b i = 2 * t.gridPos (t.parent b) i +
      if m / 2 ^ (t.dims - 1 - i) % 2 = 1 then 1 else 0 := by
  have hcc := hw.center_child m hm (t.parent b) (hw.parent_lt b hb) (by rw [hc]; exact h0) i hi
  have hl := hw.level_parent b hb h0
  rw [hc, ← hl, hw.center_pos hb hi, hw.center_pos (hw.parent_lt b hb) hi,
    rad_succ t (t.level (t.parent b)), ← hl] at hcc
  have hr := hw.rad_pos (t.level b)
  have key : (2 * t.gridPos b i + 1 : ℚ) =
      2 * (2 * t.gridPos (t.parent b) i + 1) + mortonSign t.dims m i := by
    have : (2 * t.gridPos b i + 1 : ℚ) * t.rad (t.level b) =
        (2 * (2 * t.gridPos (t.parent b) i + 1) + mortonSign t.dims m i) * t.rad (t.level b) := by
      linear_combination hcc
    exact mul_right_cancel₀ hr.ne' this
  unfold mortonSign at key
  split
  · rename_i h
    rw [if_pos h] at key
    have : (t.gridPos b i : ℚ) = 2 * t.gridPos (t.parent b) i + 1 := by linarith
    exact_mod_cast this
  · rename_i h
    rw [if_neg h] at key
    have : (t.gridPos b i : ℚ) = 2 * t.gridPos (t.parent b) i + 0 := by linarith
    exact_mod_cast this

theorem WF.pos_parent (hw : t.WF) {b : Nat} (hb : b < t.nboxes) (h0 : b ≠ 0) {i : Nat}
    (hi : i < t.dims) : t.gridPos (t.parent b) i = t.gridPos b i / 2 := by
  obtain ⟨m, hm, hc⟩ := hw.parent_child b hb h0
  rw [hw.pos_child hb h0 hm hc hi]
  split <;> omega

theorem WF.pos_anc (hw : t.WF) {b : Nat} (hb : b < t.nboxes) {i : Nat} (hi : i < t.dims) {l : Nat}
    (hl : l ≤ t.level b) : t.gridPos (t.ancAt b l) i = t.gridPos b i / 2 ^ (t.level b - l) := by
  obtain ⟨k, hk⟩ := Nat.exists_eq_add_of_le hl
  induction k generalizing l with
  | zero =>
    have : l = t.level b := by omega
    subst this
    rw [ancAt_self]; simp
  | succ k ih =>
    have h1 := ih (l := l + 1) (by omega) (by omega)
    rw [← ancAt_parent t (by omega : l < t.level b),
      hw.pos_parent (hw.ancAt_lt hb _) (hw.ancAt_ne_zero hb (by omega) (by omega)) hi, h1,
      Int.ediv_ediv_of_nonneg (by positivity)]
    have : t.level b - l = (t.level b - (l + 1)) + 1 := by omega
    rw [this, pow_succ]

theorem eq_of_axis_bits {d m m' : Nat} (hm : m < 2 ^ d) (hm' : m' < 2 ^ d)
    (h : ∀ i, i < d → (m / 2 ^ (d - 1 - i) % 2 = 1 ↔ m' / 2 ^ (d - 1 - i) % 2 = 1)) : m = m' := by
  apply Nat.eq_of_testBit_eq
  intro j
  rcases Nat.lt_or_ge j d with hj | hj
  · have := h (d - 1 - j) (by omega)
    rw [show d - 1 - (d - 1 - j) = j by omega] at this
    rw [Nat.testBit_eq_decide_div_mod_eq, Nat.testBit_eq_decide_div_mod_eq]
    exact decide_eq_decide.2 this
  · rw [Nat.testBit_lt_two_pow (lt_of_lt_of_le hm (Nat.pow_le_pow_right (by norm_num) hj)),
      Nat.testBit_lt_two_pow (lt_of_lt_of_le hm' (Nat.pow_le_pow_right (by norm_num) hj))]

/-- Different boxes on a level have different positions. -/
theorem WF.pos_inj (hw : t.WF) {a b : Nat} (ha : a < t.nboxes) (hb : b < t.nboxes)
    (hl : t.level a = t.level b) (h : ∀ i, i < t.dims → t.gridPos a i = t.gridPos b i) : a = b := by
  generalize hn : t.level b = n
  rw [hn] at hl
  induction n generalizing a b with
  | zero => rw [hw.eq_zero_of_level ha hl, hw.eq_zero_of_level hb hn]
  | succ n ih =>
    have ha0 : a ≠ 0 := by rintro rfl; rw [hw.level_root] at hl; omega
    have hb0 : b ≠ 0 := by rintro rfl; rw [hw.level_root] at hn; omega
    have hp : t.parent a = t.parent b := by
      refine ih (hw.parent_lt a ha) (hw.parent_lt b hb) (fun i hi => ?_) ?_ ?_
      · rw [hw.pos_parent ha ha0 hi, hw.pos_parent hb hb0 hi, h i hi]
      · have := hw.level_parent a ha ha0; omega
      · have := hw.level_parent b hb hb0; omega
    obtain ⟨m, hm, hc⟩ := hw.parent_child a ha ha0
    obtain ⟨m', hm', hc'⟩ := hw.parent_child b hb hb0
    have e : m = m' := by
      refine eq_of_axis_bits hm hm' fun i hi => ?_
      have h1 := hw.pos_child ha ha0 hm hc hi
      have h2 := hw.pos_child hb hb0 hm' hc' hi
      rw [h i hi, hp, h2] at h1
      by_cases hA : m / 2 ^ (t.dims - 1 - i) % 2 = 1 <;>
        by_cases hB : m' / 2 ^ (t.dims - 1 - i) % 2 = 1 <;> simp_all
    rw [← hc, ← hc', e, hp]

/-! ### counting boxes by cells -/

/-- `a` and `b` are the same box or neither contains the other. -/
def Apart (t : BoxTree) (a b : Nat) : Prop := t.IsAncOrSelf a b → a = b

theorem WF.eq_of_cell (hw : t.WF) {l s s' : Nat} (hs : s < t.nboxes) (hs' : s' < t.nboxes)
    (hl : t.level s ≤ l) (hl' : t.level s' ≤ l) (h1 : t.Apart s s') (h2 : t.Apart s' s) (c : Nat → ℤ)
    (hc : ∀ i, i < t.dims → c i / 2 ^ (l - t.level s) = t.gridPos s i)
    (hc' : ∀ i, i < t.dims → c i / 2 ^ (l - t.level s') = t.gridPos s' i) : s = s' := by
  have key : ∀ {s s' : Nat}, s < t.nboxes → s' < t.nboxes → t.level s' ≤ l → t.Apart s s' →
      (∀ i, i < t.dims → c i / 2 ^ (l - t.level s) = t.gridPos s i) →
      (∀ i, i < t.dims → c i / 2 ^ (l - t.level s') = t.gridPos s' i) →
      t.level s ≤ t.level s' → s = s' := by
    intro s s' hs hs' hl' hap hc hc' h
    refine hap ⟨h, hw.pos_inj (hw.ancAt_lt hs' _) hs (hw.level_ancAt hs' h) fun i hi => ?_⟩
    rw [hw.pos_anc hs' hi h, ← hc' i hi, ← hc i hi,
      Int.ediv_ediv_of_nonneg (by positivity), ← pow_add]
    congr 2
    omega
  rcases Nat.le_total (t.level s) (t.level s') with h | h
  · exact key hs hs' hl' h1 hc hc' h
  · exact (key hs' hs hl h2 hc' hc h).symm

/-- A list of boxes that do not contain each other has no more entries than a set of cells that has
a cell of each of the boxes. -/
theorem WF.length_le_cells (hw : t.WF) {l : Nat} {S : List Nat} (hS : S.Nodup)
    (hlt : ∀ s ∈ S, s < t.nboxes) (hlev : ∀ s ∈ S, t.level s ≤ l)
    (hap : ∀ s ∈ S, ∀ s' ∈ S, t.Apart s s') (T : Finset (Fin t.dims → ℤ))
    (c : Nat → Nat → ℤ) (hc : ∀ s ∈ S, ∀ i, i < t.dims → c s i / 2 ^ (l - t.level s) = t.gridPos s i)
    (hT : ∀ s ∈ S, (fun i : Fin t.dims => c s i) ∈ T) : S.length ≤ T.card := by
  rw [← List.toFinset_card_of_nodup hS]
  refine Finset.card_le_card_of_injOn (fun s => fun i : Fin t.dims => c s i)
    (fun s hs => hT s (by simpa using hs)) ?_
  intro s hs s' hs' he
  have hs : s ∈ S := by simpa using hs
  have hs' : s' ∈ S := by simpa using hs'
  have he : ∀ i, i < t.dims → c s i = c s' i := fun i hi => congrFun he ⟨i, hi⟩
  exact hw.eq_of_cell (hlt s hs) (hlt s' hs') (hlev s hs) (hlev s' hs') (hap s hs s' hs')
    (hap s' hs' s hs) (c s) (hc s hs) fun i hi => by rw [he i hi]; exact hc s' hs' i hi

/-- All cells with coordinates in the given ranges. -/
def cells (d : Nat) (lo hi : Nat → ℤ) : Finset (Fin d → ℤ) :=
  Fintype.piFinset fun i : Fin d => Finset.Icc (lo i) (hi i)

theorem mem_cells {d : Nat} {lo hi : Nat → ℤ} {c : Nat → ℤ} :
    (fun i : Fin d => c i) ∈ cells d lo hi ↔ ∀ i, i < d → lo i ≤ c i ∧ c i ≤ hi i := by
  unfold cells
  rw [Fintype.mem_piFinset]
  constructor
  · intro h i hi
    exact Finset.mem_Icc.1 (h ⟨i, hi⟩)
  · intro h i
    exact Finset.mem_Icc.2 (h i i.2)

theorem card_cells (d : Nat) (lo hi : Nat → ℤ) (n : Nat) (h : ∀ i, i < d → hi i = lo i + n - 1) :
    (cells d lo hi).card = n ^ d := by
  unfold cells
  rw [Fintype.card_piFinset]
  have : ∀ i : Fin d, (Finset.Icc (lo i) (hi i)).card = n := by
    intro i
    rw [Int.card_Icc, h i i.2]
    omega
  simp [this]

theorem cells_subset {d : Nat} {lo hi lo' hi' : Nat → ℤ}
    (h : ∀ i, i < d → lo' i ≤ lo i ∧ hi i ≤ hi' i) : cells d lo hi ⊆ cells d lo' hi' := by
  unfold cells
  exact Fintype.piFinset_subset _ _ fun i => Finset.Icc_subset_Icc (h i i.2).1 (h i i.2).2

theorem ediv_pow_iff {c x : ℤ} {k : Nat} : c / 2 ^ k = x ↔ 2 ^ k * x ≤ c ∧ c < 2 ^ k * (x + 1) := by
  have hp : (0 : ℤ) < 2 ^ k := by positivity
  constructor
  · rintro rfl
    have h1 := Int.mul_ediv_add_emod c (2 ^ k)
    have h2 := Int.emod_nonneg c hp.ne'
    have h3 := Int.emod_lt_of_pos c hp
    constructor
    · linarith
    · rw [mul_add, mul_one]; linarith
  · rintro ⟨h1, h2⟩
    apply le_antisymm
    · exact Int.lt_add_one_iff.1 (Int.ediv_lt_of_lt_mul hp (by linarith))
    · exact Int.le_ediv_of_mul_le hp (by linarith)

/-- Boxes that do not contain each other and all have a cell in the range from `α` to `β`, if any such
cell is in `T`. -/
theorem WF.length_le_region (hw : t.WF) {l : Nat} {S : List Nat} (hS : S.Nodup)
    (hlt : ∀ s ∈ S, s < t.nboxes) (hlev : ∀ s ∈ S, t.level s ≤ l)
    (hap : ∀ s ∈ S, ∀ s' ∈ S, t.Apart s s') (α β : Nat → ℤ)
    (hmeet : ∀ s ∈ S, ∀ i, i < t.dims → α i ≤ β i ∧ 2 ^ (l - t.level s) * t.gridPos s i ≤ β i ∧
      α i < 2 ^ (l - t.level s) * (t.gridPos s i + 1))
    (T : Finset (Fin t.dims → ℤ))
    (hT : ∀ s ∈ S, ∀ c : Nat → ℤ, (∀ i, i < t.dims → α i ≤ c i ∧ c i ≤ β i ∧
      2 ^ (l - t.level s) * t.gridPos s i ≤ c i ∧ c i < 2 ^ (l - t.level s) * (t.gridPos s i + 1)) →
      (fun i : Fin t.dims => c i) ∈ T) : S.length ≤ T.card := by
  have hpos : ∀ s i, 2 ^ (l - t.level s) * t.gridPos s i <
      2 ^ (l - t.level s) * (t.gridPos s i + 1) := fun s i => by
    have : (0 : ℤ) < 2 ^ (l - t.level s) := by positivity
    rw [mul_add, mul_one]; linarith
  refine hw.length_le_cells hS hlt hlev hap T
    (fun s i => max (α i) (2 ^ (l - t.level s) * t.gridPos s i)) (fun s hs i hi => ?_)
    fun s hs => hT s hs (fun i => max (α i) (2 ^ (l - t.level s) * t.gridPos s i)) fun i hi => ?_
  · obtain ⟨_, h2, h3⟩ := hmeet s hs i hi
    exact ediv_pow_iff.2 ⟨le_max_right _ _, max_lt h3 (hpos s i)⟩
  · obtain ⟨h1, h2, h3⟩ := hmeet s hs i hi
    exact ⟨le_max_left _ _, max_le h1 h2, le_max_right _ _, max_lt h3 (hpos s i)⟩

/-- Double counting. -/
theorem sum_rows (T : List Nat) (f : Nat → List Nat) (N : Nat) (hnd : ∀ a ∈ T, (f a).Nodup)
    (hlt : ∀ a ∈ T, ∀ s ∈ f a, s < N) :
    (T.map fun a => (f a).length).sum =
      ∑ s ∈ Finset.range N, (T.filter fun a => decide (s ∈ f a)).length := by
  induction T with
  | nil => simp
  | cons a T ih =>
    rw [List.map_cons, List.sum_cons, ih (fun a ha => hnd a (List.mem_cons_of_mem _ ha))
      fun a ha => hlt a (List.mem_cons_of_mem _ ha)]
    have h1 : (f a).length = ∑ s ∈ Finset.range N, if s ∈ f a then 1 else 0 := by
      rw [← Finset.sum_filter, ← Finset.card_eq_sum_ones,
        ← List.toFinset_card_of_nodup (hnd a List.mem_cons_self)]
      congr 1
      ext s
      simp only [List.mem_toFinset, Finset.mem_filter, Finset.mem_range]
      exact ⟨fun h => ⟨hlt a List.mem_cons_self s h, h⟩, fun h => h.2⟩
    rw [h1, ← Finset.sum_add_distrib]
    refine Finset.sum_congr rfl fun s _ => ?_
    rw [List.filter_cons]
    by_cases h : s ∈ f a
    · simp [h, Nat.add_comm]
    · simp [h]

end Boxtree.BoxTree
