import Verif.Spec.FmmLib
import Verif.Lemmas.FmmTotal
import Verif.Lemmas.LevelStarts
import Mathlib.Algebra.Order.Ring.Nat

/-!
# Lemmas: the flat storage and the simulation of the library run by multisets of sources
-/

namespace Boxtree.FmmLib
open Boxtree BoxTree

variable {A W D C P : Type}

/-! ### storage -/

section Storage
variable {t : BoxTree} {w : Wrangler A D}

theorem levelStarts_mono : ∀ {l l' : Nat}, l ≤ l' → levelStarts t w l ≤ levelStarts t w l' := by
  intro l l' h
  induction h with
  | refl => exact le_rfl
  | step _ ih => exact ih.trans (by simp [levelStarts])

/-- the slot of a box lies inside its level -/
theorem offset_bounds (hw : t.WF) (hl : t.LevelsOK) {b : Nat} (hb : b < t.nboxes) :
    levelStarts t w (t.level b) ≤ offset t w (t.level b) b ∧
    offset t w (t.level b) b + w.size t (t.level b) ≤ levelStarts t w (t.level b + 1) := by
  have h1 := hl.start_le b hb
  have h2 := hl.lt_start b hb (t.level b + 1) (by omega) (hw.level_lt b hb)
  unfold offset
  refine ⟨by omega, ?_⟩
  rw [levelStarts, Nat.add_assoc]
  apply Nat.add_le_add_left
  have : (b - t.levelStart (t.level b)) + 1 ≤ t.levelStart (t.level b + 1) - t.levelStart (t.level b) := by
    omega
  calc (b - t.levelStart (t.level b)) * w.size t (t.level b) + w.size t (t.level b)
      = w.size t (t.level b) * ((b - t.levelStart (t.level b)) + 1) := by ring
    _ ≤ _ := Nat.mul_le_mul_left _ this

/-- slots of different boxes do not overlap -/
theorem offset_disjoint (hw : t.WF) (hl : t.LevelsOK) {b c : Nat} (hb : b < t.nboxes)
    (hc : c < t.nboxes) (hne : b ≠ c) :
    offset t w (t.level b) b + w.size t (t.level b) ≤ offset t w (t.level c) c ∨
    offset t w (t.level c) c + w.size t (t.level c) ≤ offset t w (t.level b) b := by
  have hB := offset_bounds (w := w) hw hl hb
  have hC := offset_bounds (w := w) hw hl hc
  rcases Nat.lt_trichotomy (t.level b) (t.level c) with h | h | h
  · have := levelStarts_mono (t := t) (w := w) (Nat.succ_le_of_lt h)
    left; simp only [Nat.succ_eq_add_one] at this; omega
  · have h1 := hl.start_le b hb
    have h2 := hl.start_le c hc
    rw [← h] at h2 ⊢
    unfold offset
    rcases Nat.lt_or_ge b c with h' | h'
    · left
      rw [Nat.add_assoc]
      apply Nat.add_le_add_left
      calc (b - t.levelStart (t.level b)) * w.size t (t.level b) + w.size t (t.level b)
          = ((b - t.levelStart (t.level b)) + 1) * w.size t (t.level b) := by ring
        _ ≤ _ := Nat.mul_le_mul_right _ (by omega)
    · right
      rw [Nat.add_assoc]
      apply Nat.add_le_add_left
      calc (c - t.levelStart (t.level b)) * w.size t (t.level b) + w.size t (t.level b)
          = ((c - t.levelStart (t.level b)) + 1) * w.size t (t.level b) := by ring
        _ ≤ _ := Nat.mul_le_mul_right _ (by omega)
  · have := levelStarts_mono (t := t) (w := w) (Nat.succ_le_of_lt h)
    right; simp only [Nat.succ_eq_add_one] at this; omega

theorem getExpn_set_same [Zero C] (a : Nat → C) (l b : Nat) (v : List C)
    (hv : v.length = w.size t l) : getExpn t w (setExpn t w a l b v) l b = v := by
  unfold getExpn setExpn
  apply List.ext_getElem
  · simp [hv]
  · intro i h1 h2
    simp only [List.length_map, List.length_range] at h1
    simp only [List.getElem_map, List.getElem_range]
    rw [if_pos (by omega), Nat.add_sub_cancel_left, List.getD_eq_getElem _ _ h2]

theorem getExpn_set_ne [Zero C] (hw : t.WF) (hl : t.LevelsOK) (a : Nat → C) {b c : Nat}
    (hb : b < t.nboxes) (hc : c < t.nboxes) (hne : b ≠ c) (v : List C) :
    getExpn t w (setExpn t w a (t.level b) b v) (t.level c) c = getExpn t w a (t.level c) c := by
  unfold getExpn setExpn
  apply List.map_congr_left
  intro i hi
  have hi := List.mem_range.1 hi
  rcases offset_disjoint (w := w) hw hl hb hc hne with h | h
  · rw [if_neg (by omega)]
  · rw [if_neg (by omega)]

theorem getExpn_add [AddCommMonoid C] (a a' : Nat → C) (l b : Nat) :
    getExpn t w (fun k => a k + a' k) l b =
      List.zipWith (· + ·) (getExpn t w a l b) (getExpn t w a' l b) := by
  unfold getExpn
  rw [List.zipWith_map]
  apply List.ext_getElem
  · simp
  · intro i h1 h2
    simp

theorem getExpn_zero [AddCommMonoid C] (l b : Nat) :
    getExpn t w (fun _ => (0 : C)) l b = List.replicate (w.size t l) 0 := by
  unfold getExpn
  apply List.ext_getElem
  · simp
  · intro i h1 h2
    simp

end Storage

/-! ### loops over levels -/

section Levels
variable {t : BoxTree} {boxes : List Nat} {β : Type}

/-- A loop over the levels and over the positions of the boxes of each level visits all positions
in order. -/
theorem foldl_levels_idx (hb : BoxListOK t boxes) (hw : t.WF) (hl : t.LevelsOK)
    (f : Nat → β → Nat → β) (a : β) :
    (List.range t.nlevels).foldl (fun a lev =>
      (List.range' ((extractLevelStarts t boxes).getD lev 0)
        ((extractLevelStarts t boxes).getD (lev + 1) 0 -
          (extractLevelStarts t boxes).getD lev 0)).foldl (f lev) a) a =
    (List.range boxes.length).foldl (fun a i => f (t.level (boxes.getD i 0)) a i) a := by
  obtain ⟨-, h2⟩ := extractLevelStarts_spec hb hw hl
  have hsort := hb.levels_sorted hw hl
  have hmono : ∀ l, cntLt t boxes l ≤ cntLt t boxes (l + 1) := by
    intro l
    unfold cntLt
    apply List.Sublist.length_le
    apply List.monotone_filter_right
    intro b hb
    simp only [decide_eq_true_eq] at hb ⊢
    omega
  have hle : ∀ l, cntLt t boxes l ≤ boxes.length := fun l => List.length_filter_le _ _
  have key : ∀ n, n ≤ t.nlevels → (List.range n).foldl (fun a lev =>
      (List.range' ((extractLevelStarts t boxes).getD lev 0)
        ((extractLevelStarts t boxes).getD (lev + 1) 0 -
          (extractLevelStarts t boxes).getD lev 0)).foldl (f lev) a) a =
      (List.range (cntLt t boxes n)).foldl (fun a i => f (t.level (boxes.getD i 0)) a i) a := by
    intro n
    induction n with
    | zero =>
      intro _
      have : cntLt t boxes 0 = 0 := by
        unfold cntLt
        simp
      rw [this]; rfl
    | succ n ih =>
      intro hn
      rw [List.range_succ, List.foldl_append, List.foldl_cons, List.foldl_nil, ih (by omega),
        h2 n (by omega), h2 (n + 1) (by omega)]
      have e : cntLt t boxes (n + 1) = cntLt t boxes n + (cntLt t boxes (n + 1) - cntLt t boxes n) := by
        have := hmono n; omega
      conv_rhs => rw [e, List.range_add, List.foldl_append]
      rw [← List.range'_eq_map_range]
      apply List.foldl_ext
      intro a i hi
      rw [List.mem_range'_1] at hi
      have hi' : i < boxes.length := by have := hle (n + 1); omega
      have h3 := index_lt_cnt t.level n boxes hsort i hi'
      have h4 := index_lt_cnt t.level (n + 1) boxes hsort i hi'
      have : t.level (boxes.getD i 0) = n := by
        unfold cntLt at hi
        omega
      rw [this]
  rw [key _ le_rfl]
  rw [cntLt_nlevels hb hw]

theorem foldl_range_getD (g : β → Nat → β) (a : β) :
    (List.range boxes.length).foldl (fun a i => g a (boxes.getD i 0)) a = boxes.foldl g a := by
  induction boxes generalizing a with
  | nil => rfl
  | cons b l ih =>
    rw [List.length_cons, List.range_succ_eq_map, List.foldl_cons, List.foldl_map]
    simp only [List.getD_cons_succ, List.getD_cons_zero, List.foldl_cons]
    exact ih _

/-- A loop over the levels and over the boxes of each level visits all boxes in order. -/
theorem foldl_levels (hb : BoxListOK t boxes) (hw : t.WF) (hl : t.LevelsOK)
    (f : Nat → β → Nat → β) (a : β) :
    (List.range t.nlevels).foldl (fun a lev =>
      (Fmm.levelSlice (extractLevelStarts t boxes) boxes lev).foldl (f lev) a) a =
    boxes.foldl (fun a b => f (t.level b) a b) a := by
  rw [← foldl_range_getD (fun a b => f (t.level b) a b), ← foldl_levels_idx hb hw hl
    (fun lev a i => f lev a (boxes.getD i 0))]
  apply List.foldl_ext
  intro a lev hlev
  have hlev := List.mem_range.1 hlev
  obtain ⟨-, h2⟩ := extractLevelStarts_spec hb hw hl
  have hle : cntLt t boxes (lev + 1) ≤ boxes.length := List.length_filter_le _ _
  have e : Fmm.levelSlice (extractLevelStarts t boxes) boxes lev =
      (List.range' ((extractLevelStarts t boxes).getD lev 0)
        ((extractLevelStarts t boxes).getD (lev + 1) 0 -
          (extractLevelStarts t boxes).getD lev 0)).map fun i => boxes.getD i 0 := by
    unfold Fmm.levelSlice
    simp only
    rw [h2 lev hlev.le, h2 (lev + 1) hlev]
    apply List.ext_getElem
    · simp; omega
    · intro i h3 h4
      simp only [List.length_map, List.length_range'] at h4
      simp only [List.getElem_take, List.getElem_drop, List.getElem_map, List.getElem_range']
      rw [List.getD_eq_getElem _ _ (by omega)]
      simp
  rw [e, List.foldl_map]

end Levels

end Boxtree.FmmLib
