import Verif.Lemmas.Traversal
import Verif.Model.Fmm

set_option linter.unusedSimpArgs false
set_option linter.unusedVariables false

namespace Boxtree
open BoxTree

/-- box list increasing and within the tree -/
structure BoxListOK (t : BoxTree) (l : List Nat) : Prop where
  sorted : l.Pairwise (· < ·)
  lt : ∀ b ∈ l, b < t.nboxes

theorem BoxTree.LevelsOK.mono {t : BoxTree} (hl : t.LevelsOK) (hw : t.WF) {a b : Nat}
    (ha : a < t.nboxes) (hb : b < t.nboxes) (h : a ≤ b) : t.level a ≤ t.level b := by
  by_contra hc
  have h1 := hl.lt_start b hb (t.level a) (by omega) (hw.level_lt a ha).le
  have h2 := hl.start_le a ha
  omega

/-- number of listed boxes above level `l` -/
def cntLt (t : BoxTree) (boxes : List Nat) (l : Nat) : Nat :=
  (boxes.filter fun b => decide (t.level b < l)).length

theorem cntLt_le (t : BoxTree) (boxes : List Nat) (l : Nat) : cntLt t boxes l ≤ boxes.length :=
  List.length_filter_le _ _

theorem split_sorted (key : Nat → Nat) (L : Nat) : ∀ (l : List Nat),
    l.Pairwise (fun a b => key a ≤ key b) →
    l = l.filter (fun b => decide (key b < L)) ++ l.filter (fun b => !decide (key b < L))
  | [], _ => rfl
  | x :: l, h => by
    have h' := List.pairwise_cons.1 h
    by_cases hx : key x < L
    · have ih := split_sorted key L l h'.2
      simp only [List.filter_cons, hx, decide_true, if_true, Bool.not_true, Bool.false_eq_true,
        if_false, List.cons_append]
      rw [← ih]
    · have h1 : l.filter (fun b => decide (key b < L)) = [] := by
        rw [List.filter_eq_nil_iff]
        intro a ha
        have := h'.1 a ha
        simp; omega
      have h2 : l.filter (fun b => !decide (key b < L)) = l := by
        rw [List.filter_eq_self]
        intro a ha
        have := h'.1 a ha
        simp; omega
      simp [List.filter_cons, hx, h1, h2]

theorem index_lt_cnt (key : Nat → Nat) (L : Nat) (l : List Nat)
    (h : l.Pairwise (fun a b => key a ≤ key b)) (i : Nat) (hi : i < l.length) :
    key (l.getD i 0) < L ↔ i < (l.filter fun b => decide (key b < L)).length := by
  have hs := split_sorted key L l h
  set A := l.filter fun b => decide (key b < L) with hA
  set B := l.filter fun b => !decide (key b < L) with hB
  have hlen : l.length = A.length + B.length := by rw [hs]; simp
  constructor
  · intro hk
    by_contra hc
    have : l.getD i 0 ∈ B := by
      rw [hs, List.getD_eq_getElem _ _ (by rw [← hs]; exact hi),
        List.getElem_append_right (by omega)]
      exact List.getElem_mem _
    rw [hB, List.mem_filter] at this
    have h2 := this.2
    rw [Bool.not_eq_true', decide_eq_false_iff_not] at h2
    exact h2 hk
  · intro hk
    have : l.getD i 0 ∈ A := by
      rw [hs, List.getD_eq_getElem _ _ (by rw [← hs]; exact hi), List.getElem_append_left hk]
      exact List.getElem_mem _
    rw [hA, List.mem_filter] at this
    simpa using this.2

section
variable {t : BoxTree} {boxes : List Nat}

theorem BoxListOK.levels_sorted (hb : BoxListOK t boxes) (hw : t.WF) (hl : t.LevelsOK) :
    boxes.Pairwise (fun a b => t.level a ≤ t.level b) := by
  have := hb.sorted
  have hlt := hb.lt
  clear hb
  induction boxes with
  | nil => exact List.Pairwise.nil
  | cons x l ih =>
    rw [List.pairwise_cons] at this ⊢
    refine ⟨fun a ha => ?_, ih this.2 (fun b hb => hlt b (List.mem_cons_of_mem _ hb))⟩
    exact hl.mono hw (hlt x List.mem_cons_self) (hlt a (List.mem_cons_of_mem _ ha))
      (this.1 a ha).le

theorem getD_mem {l : List Nat} {i : Nat} (hi : i < l.length) : l.getD i 0 ∈ l := by
  rw [List.getD_eq_getElem _ _ hi]; exact List.getElem_mem hi

theorem pairwise_getD {l : List Nat} {R : Nat → Nat → Prop} (h : l.Pairwise R) {i j : Nat}
    (hij : i < j) (hj : j < l.length) : R (l.getD i 0) (l.getD j 0) := by
  rw [List.getD_eq_getElem _ _ (by omega), List.getD_eq_getElem _ _ hj]
  exact List.pairwise_iff_getElem.1 h i j (by omega) hj hij

theorem isLevelLeading_iff (hb : BoxListOK t boxes) (hw : t.WF) (hl : t.LevelsOK) {i : Nat}
    (hi : i < boxes.length) : isLevelLeading t boxes i = true ↔
      (i = 0 ∨ t.level (boxes.getD (i - 1) 0) < t.level (boxes.getD i 0)) := by
  unfold isLevelLeading
  by_cases h0 : i = 0
  · simp [h0]
  · simp only [h0, if_false, false_or, Bool.and_eq_true, decide_eq_true_eq]
    have hm := hb.lt _ (getD_mem hi)
    have hpm := hb.lt _ (getD_mem (by omega : i - 1 < boxes.length))
    constructor
    · rintro ⟨h1, _⟩
      by_contra hc
      have h2 := pairwise_getD (hb.levels_sorted hw hl) (by omega : i - 1 < i) hi
      have h3 : t.level (boxes.getD (i - 1) 0) = t.level (boxes.getD i 0) := by omega
      have := hl.start_le _ hpm
      rw [h3] at this; omega
    · intro h1
      exact ⟨hl.lt_start _ hpm _ h1 (hw.level_lt _ hm).le, hl.start_le _ hm⟩

theorem foldl_if_set (P : Nat → Bool) (g : Nat → Nat) (l : List Nat) (r : List Nat) :
    l.foldl (fun r i => if P i then r.set (g i) i else r) r =
      (l.filter P).foldl (fun r i => r.set (g i) i) r := by
  induction l generalizing r with
  | nil => rfl
  | cons x l ih =>
    by_cases hx : P x = true
    · simp [List.filter_cons, hx, ih]
    · simp [List.filter_cons, hx, ih]

theorem levelStartMarks_length : (levelStartMarks t boxes).length = t.nlevels + 1 := by
  unfold levelStartMarks
  rw [foldl_if_set _ (fun i => t.level (boxes.getD i 0)), set_fold_length]
  simp

theorem levelStartMarks_getD (hb : BoxListOK t boxes) (hw : t.WF) (hl : t.LevelsOK) {L : Nat}
    (hL : L < t.nlevels) :
    ((∃ b ∈ boxes, t.level b = L) →
      (levelStartMarks t boxes).getD L 0 = cntLt t boxes L) ∧
    ((¬ ∃ b ∈ boxes, t.level b = L) →
      (levelStartMarks t boxes).getD L 0 = boxes.length) := by
  have hsort := hb.levels_sorted hw hl
  have hidx := fun i hi => index_lt_cnt t.level L boxes hsort i hi
  unfold levelStartMarks
  rw [foldl_if_set _ (fun i => t.level (boxes.getD i 0))]
  constructor
  · rintro ⟨b, hbm, hbl⟩
    obtain ⟨j, hj, hjb⟩ := List.mem_iff_getElem.1 hbm
    have hjb' : boxes.getD j 0 = b := by rw [List.getD_eq_getElem _ _ hj]; exact hjb
    have hj0 : cntLt t boxes L ≤ j := by
      by_contra hc
      have := (hidx j hj).2 (by unfold cntLt at hc; omega)
      rw [hjb'] at this; omega
    have hi0 : cntLt t boxes L < boxes.length := by omega
    have hge : ¬ t.level (boxes.getD (cntLt t boxes L) 0) < L := by
      rw [hidx _ hi0]; unfold cntLt; omega
    have hle : t.level (boxes.getD (cntLt t boxes L) 0) ≤ L := by
      rcases Nat.lt_or_ge (cntLt t boxes L) j with h | h
      · have := pairwise_getD hsort h hj
        rw [hjb'] at this; omega
      · have : cntLt t boxes L = j := by omega
        rw [this, hjb']; omega
    have heq : t.level (boxes.getD (cntLt t boxes L) 0) = L := by omega
    have key := set_fold_getD_mem
      ((List.range boxes.length).filter fun i => isLevelLeading t boxes i)
      (fun i => t.level (boxes.getD i 0))
      (List.replicate (t.nlevels + 1) boxes.length) (cntLt t boxes L) ?_ ?_ ?_
    · simp only [heq] at key; exact key
    · rw [List.mem_filter]
      refine ⟨List.mem_range.2 hi0, ?_⟩
      rw [isLevelLeading_iff hb hw hl hi0]
      by_cases h0 : cntLt t boxes L = 0
      · exact Or.inl h0
      · right
        rw [heq, hidx _ (by omega)]
        unfold cntLt at *; omega
    · intro k hk hke
      rw [List.mem_filter] at hk
      have hk1 : k < boxes.length := List.mem_range.1 hk.1
      have hk2 := (isLevelLeading_iff hb hw hl hk1).1 hk.2
      simp only [heq] at hke
      have h1 : ¬ (k < cntLt t boxes L) := by
        intro hc
        have := (hidx k hk1).2 hc
        omega
      rcases Nat.lt_or_ge (cntLt t boxes L) k with h | h
      · rcases hk2 with h2 | h2
        · omega
        · have : t.level (boxes.getD (k - 1) 0) < L := by omega
          rw [hidx _ (by omega)] at this
          unfold cntLt at h; omega
      · omega
    · simp only [heq, List.length_replicate]; omega
  · intro hno
    rw [set_fold_getD_notMem _ (fun i => t.level (boxes.getD i 0))]
    · rw [List.getD_eq_getElem _ _ (by simp; omega)]; simp
    · intro k hk hke
      rw [List.mem_filter] at hk
      exact hno ⟨_, getD_mem (List.mem_range.1 hk.1), hke⟩

theorem levelStartMarks_last (hb : BoxListOK t boxes) (hw : t.WF) :
    (levelStartMarks t boxes).getD t.nlevels 0 = boxes.length := by
  unfold levelStartMarks
  rw [foldl_if_set _ (fun i => t.level (boxes.getD i 0)),
    set_fold_getD_notMem _ (fun i => t.level (boxes.getD i 0))]
  · rw [List.getD_eq_getElem _ _ (by simp)]; simp
  · intro k hk
    rw [List.mem_filter] at hk
    have := hw.level_lt _ (hb.lt _ (getD_mem (List.mem_range.1 hk.1)))
    omega

theorem cntLt_mono {l l' : Nat} (h : l ≤ l') : cntLt t boxes l ≤ cntLt t boxes l' := by
  unfold cntLt
  apply List.Sublist.length_le
  apply List.monotone_filter_right
  intro b hb
  simp at hb ⊢; omega

theorem cntLt_succ_of_none {l : Nat} (h : ¬ ∃ b ∈ boxes, t.level b = l) :
    cntLt t boxes (l + 1) = cntLt t boxes l := by
  unfold cntLt
  congr 1
  apply List.filter_congr
  intro b hb
  have : t.level b ≠ l := fun hc => h ⟨b, hb, hc⟩
  simp only [decide_eq_decide]; omega

theorem cntLt_nlevels (hb : BoxListOK t boxes) (hw : t.WF) :
    cntLt t boxes t.nlevels = boxes.length := by
  unfold cntLt
  rw [List.filter_eq_self.2]
  intro b hb'
  simpa using hw.level_lt b (hb.lt b hb')

theorem levelStartPost_spec (c : Nat → Nat) : ∀ (n prev : Nat) (r : List Nat), n < r.length →
    prev = c n → (∀ l, l < n → min (r.getD l 0) (c (l + 1)) = c l) →
    (levelStartPost n prev r).length = r.length ∧
    (∀ l, l < n → (levelStartPost n prev r).getD l 0 = c l) ∧
    (∀ l, n ≤ l → (levelStartPost n prev r).getD l 0 = r.getD l 0)
  | 0, prev, r, _, _, _ => ⟨rfl, fun l hl => by omega, fun l _ => rfl⟩
  | n + 1, prev, r, hn, hp, h => by
    simp only [levelStartPost]
    have hv : min (r.getD n 0) prev = c n := by rw [hp]; exact h n (by omega)
    rw [hv]
    have ih := levelStartPost_spec c n (c n) (r.set n (c n)) (by simp; omega) rfl (by
      intro l hl
      rw [List.getD_eq_getElem?_getD, List.getElem?_set_ne (by omega), ← List.getD_eq_getElem?_getD]
      exact h l (by omega))
    refine ⟨by rw [ih.1]; simp, ?_, ?_⟩
    · intro l hl
      rcases Nat.lt_or_ge l n with h1 | h1
      · exact ih.2.1 l h1
      · have : l = n := by omega
        subst this
        rw [ih.2.2 l le_rfl, List.getD_eq_getElem?_getD, List.getElem?_set_self (by omega)]
        rfl
    · intro l hl
      rw [ih.2.2 l (by omega), List.getD_eq_getElem?_getD, List.getElem?_set_ne (by omega),
        ← List.getD_eq_getElem?_getD]

theorem extractLevelStarts_spec (hb : BoxListOK t boxes) (hw : t.WF) (hl : t.LevelsOK) :
    (extractLevelStarts t boxes).length = t.nlevels + 1 ∧
    ∀ l, l ≤ t.nlevels → (extractLevelStarts t boxes).getD l 0 = cntLt t boxes l := by
  unfold extractLevelStarts
  obtain ⟨h1, h2, h3⟩ := levelStartPost_spec (cntLt t boxes) t.nlevels boxes.length
    (levelStartMarks t boxes) (by rw [levelStartMarks_length]; omega)
    (cntLt_nlevels hb hw).symm (by
      intro l hl'
      have hm := levelStartMarks_getD hb hw hl hl'
      by_cases hex : ∃ b ∈ boxes, t.level b = l
      · rw [hm.1 hex]; exact min_eq_left (cntLt_mono (by omega))
      · rw [hm.2 hex, cntLt_succ_of_none hex]; exact min_eq_right (cntLt_le _ _ _))
  refine ⟨by rw [h1, levelStartMarks_length], fun l hl' => ?_⟩
  rcases Nat.lt_or_ge l t.nlevels with h | h
  · exact h2 l h
  · have : l = t.nlevels := by omega
    subst this
    rw [h3 _ le_rfl, levelStartMarks_last hb hw, cntLt_nlevels hb hw]

theorem levelSlice_extract (hb : BoxListOK t boxes) (hw : t.WF) (hl : t.LevelsOK) {l : Nat}
    (hlt : l < t.nlevels) :
    Fmm.levelSlice (extractLevelStarts t boxes) boxes l =
      boxes.filter fun b => decide (t.level b = l) := by
  obtain ⟨_, h2⟩ := extractLevelStarts_spec hb hw hl
  unfold Fmm.levelSlice
  simp only
  rw [h2 l hlt.le, h2 (l + 1) hlt]
  have hsort := hb.levels_sorted hw hl
  have hs1 := split_sorted t.level l boxes hsort
  set B := boxes.filter fun b => !decide (t.level b < l) with hB
  have hdrop : boxes.drop (cntLt t boxes l) = B := by
    unfold cntLt
    conv_lhs => arg 2; rw [hs1]
    exact List.drop_left
  rw [hdrop]
  have hs2 := split_sorted t.level (l + 1) B (hsort.filter _)
  have hC : B.filter (fun b => decide (t.level b < l + 1)) =
      boxes.filter fun b => decide (t.level b = l) := by
    rw [hB, List.filter_filter]
    apply List.filter_congr
    intro b _
    by_cases h1 : t.level b = l
    · simp [h1]
    · by_cases h2 : t.level b < l
      · simp [h1, h2]
      · simp [h1, h2]; omega
  have hlen : cntLt t boxes (l + 1) - cntLt t boxes l =
      (B.filter fun b => decide (t.level b < l + 1)).length := by
    have : cntLt t boxes (l + 1) = cntLt t boxes l +
        (B.filter fun b => decide (t.level b < l + 1)).length := by
      unfold cntLt
      conv_lhs => rw [hs1]
      rw [List.filter_append, List.length_append]
      congr 1
      rw [List.filter_filter]
      congr 1
      apply List.filter_congr
      intro b _
      by_cases h2 : t.level b < l
      · simp [h2]; omega
      · simp [h2]
    omega
  rw [hlen]
  conv_lhs => arg 2; rw [hs2]
  rw [List.take_left, hC]

end
end Boxtree
