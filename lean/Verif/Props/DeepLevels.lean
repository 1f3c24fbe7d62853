import Verif.Model.IntShift
import Verif.Lemmas.Tree
import Mathlib.Tactic.IntervalCases
import Mathlib.Tactic.NormNum

/-!
# C51: box radii are exact at every level the kernels can handle

The tree builder accepts trees of up to `2 * (mantissa bits + 1)` levels
(`/repo/boxtree/tree_build.py`), but the radius macros compute `1 << (level + 1)` in 32-bit `int`.
-/

namespace Boxtree
open BoxTree

/-- **C51** (partial: the property asks for every level).  Up to level 29 the 32-bit radius is the
exact one, so the model's `rad` is what the kernels compute. -/
theorem C51_radius_exact_partial (t : BoxTree) (l : Nat) (hl : l ≤ 29) : t.rad32 l = t.rad l := by
  unfold rad32 rad
  have h : shl32 (l + 1) = 2 ^ (l + 1) := by
    interval_cases l <;> decide
  rw [h]; push_cast; ring

/-- The adjacency test used by the list model is the 32-bit one up to level 29. -/
theorem C51_adjacency_exact_partial (t : BoxTree) (a b : Nat → ℚ) (la lb : Nat) (ha : la ≤ 29)
    (hb : lb ≤ 29) : t.adjOver32 a la b lb = t.adjOver a la b lb := by
  unfold adjOver32 adjOver adjNbhd
  rw [C51_radius_exact_partial t la ha, C51_radius_exact_partial t lb hb]

/-- **C51** fails at level 30: the radius is negative. -/
theorem C51_radius_level30 (t : BoxTree) (hp : 0 < t.rootExtent) : t.rad32 30 < 0 := by
  unfold rad32
  have h : shl32 31 = -2147483648 := by decide
  rw [h]
  push_cast
  rw [mul_one]
  exact div_neg_of_pos_of_neg hp (by norm_num)

/-- **C51** fails at level 31: the radius equals the extent of the whole root box. -/
theorem C51_radius_level31 (t : BoxTree) : t.rad32 31 = t.rootExtent := by
  unfold rad32
  have h : shl32 32 = 1 := by decide
  rw [h]; push_cast; ring

/-- `1 << n` in 32 bits is too small for the true power of two from `n = 31` on. -/
theorem shl32_lt {n : Nat} (h : 31 ≤ n) : shl32 n < 2 ^ n := by
  have hb : shl32 n ≤ 2 ^ 30 := by
    unfold shl32
    have hm : n % 32 < 32 := Nat.mod_lt _ (by omega)
    generalize n % 32 = k at hm
    interval_cases k <;> decide
  have h1 : (2 : Int) ^ 31 ≤ 2 ^ n := pow_le_pow_right₀ (by norm_num) h
  have h2 : (2 : Int) ^ 30 < 2 ^ 31 := by norm_num
  omega

/-- **C51**, exactly where it holds: the radius is right up to level 29 and wrong on every level from
30 on. -/
theorem C51_radius_exact_iff (t : BoxTree) (hp : 0 < t.rootExtent) (l : Nat) :
    t.rad32 l = t.rad l ↔ l ≤ 29 := by
  refine ⟨fun h => ?_, C51_radius_exact_partial t l⟩
  by_contra hl
  have h1 := shl32_lt (n := l + 1) (by omega)
  have h1' : ((shl32 (l + 1) : Int) : ℚ) < 2 ^ (l + 1) := by exact_mod_cast h1
  have hr : t.rad l = t.rootExtent / 2 ^ (l + 1) := by
    unfold rad
    ring
  rw [hr] at h
  unfold rad32 at h
  rw [mul_one] at h
  have hpos : (0 : ℚ) < t.rootExtent / 2 ^ (l + 1) := by positivity
  have hne : ((shl32 (l + 1) : Int) : ℚ) ≠ 0 := by
    intro h0
    rw [h0, div_zero] at h
    exact absurd h (ne_of_lt hpos)
  rw [div_eq_div_iff hne (by positivity)] at h
  exact absurd (mul_left_cancel₀ hp.ne' h) (ne_of_gt h1')

/-- Consequence: on level 30 a box is not adjacent to itself, so the list-1 kernel of a tree that
deep drops every level-30 leaf from its own list 1. -/
theorem C51_level30_not_adjacent_to_itself (t : BoxTree) (hp : 0 < t.rootExtent) (c : Nat → ℚ) :
    t.adjOver32 c 30 c 30 = false := by
  unfold adjOver32
  have h := C51_radius_level30 t hp
  simp only [linf_self, min_self, decide_eq_false_iff_not, not_le]
  linarith

example : (0 : ℚ) < (⟨1, 1, 31, 16, id, fun _ _ => 0, id, fun _ _ => 0, id, id, fun _ _ => 0,
    fun _ _ => 0, id⟩ : BoxTree).rootExtent := by norm_num

end Boxtree
