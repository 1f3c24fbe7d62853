import Verif.Lemmas.Lists

set_option linter.unusedSimpArgs false
set_option linter.unusedVariables false

namespace Boxtree
open BoxTree

variable {t : BoxTree} {p : TravParams}

/-- well-separatedness on a level propagates down the two chains -/
theorem nws_chain (hw : t.WF) (hn : 1 ≤ p.nAway) {a b l l' : Nat} (ha : a < t.nboxes)
    (hb : b < t.nboxes) (hl : l' ≤ l) (hla : l ≤ t.level a) (hlb : l ≤ t.level b)
    (h : t.nws p.nAway (t.ancAt a l) (t.ancAt b l)) :
    t.nws p.nAway (t.ancAt a l') (t.ancAt b l') := by
  have h1 := hw.nws_ancAt_left (l := l') hn (hw.ancAt_lt ha l) h
  rw [hw.ancAt_ancAt ha hl hla] at h1
  have h2 := hw.nws_ancAt_right (l := l') (hw.ancAt_lt hb l) h1
  rwa [hw.ancAt_ancAt hb hl hlb] at h2

theorem nws_of_adj (hw : t.WF) (hn : 1 ≤ p.nAway) {a b l l' : Nat} (ha : a < t.nboxes)
    (hb : b < t.nboxes) (h : t.nws 1 a b) :
    t.nws p.nAway (t.ancAt a l) (t.ancAt b l') :=
  hw.nws_mono hn (hw.nws_ancAt_left le_rfl ha (hw.nws_ancAt_right hb h))

/-- total number of list-2 interactions between the two ancestor chains -/
def l2sum (t : BoxTree) (p : TravParams) (slnws : Nat → List Nat) (tgt s : Nat) : Nat :=
  ((List.range (t.level tgt + 1)).map fun l =>
    ((List.range (t.level s + 1)).map fun l' =>
      (list2Kernel t p slnws (t.ancAt tgt l)).count (t.ancAt s l')).sum).sum

open Classical in
theorem l2sum_eq (hw : t.WF) (hn : AdjOK t p) {slnws : Nat → List Nat}
    (hsl : ∀ b, b < t.nboxes → slnws b = slnwsKernel t p b) {tgt s : Nat}
    (ht : tgt < t.nboxes) (hs : s < t.nboxes) :
    l2sum t p slnws tgt s =
      if ∃ l, l ≤ t.level tgt ∧ l ≤ t.level s ∧ ¬ t.nws p.nAway (t.ancAt tgt l) (t.ancAt s l)
      then 1 else 0 := by
  unfold l2sum
  have hval : ∀ l, l ≤ t.level tgt → ∀ l', l' ≤ t.level s →
      (list2Kernel t p slnws (t.ancAt tgt l)).count (t.ancAt s l') =
      if l' = l ∧ l ≠ 0 ∧ t.nws p.nAway (t.ancAt tgt (l - 1)) (t.ancAt s (l - 1)) ∧
        ¬ t.nws p.nAway (t.ancAt tgt l) (t.ancAt s l) then 1 else 0 := by
    intro l hl l' hl'
    rw [count_list2 hw hn hsl (hw.ancAt_lt ht l) (hw.ancAt_lt hs l'),
      hw.level_ancAt ht hl, hw.level_ancAt hs hl']
    congr 1
    rw [eq_iff_iff]
    constructor
    · rintro ⟨h1, h2, h3, h4⟩
      subst h2
      have hl0 : l' ≠ 0 := by
        intro h; subst h; exact h1 (hw.ancAt_zero ht)
      refine ⟨rfl, hl0, ?_, h4⟩
      have e1 := ancAt_parent t (b := tgt) (l := l' - 1) (by omega)
      have e2 := ancAt_parent t (b := s) (l := l' - 1) (by omega)
      rw [show l' - 1 + 1 = l' by omega] at e1 e2
      rw [← e1, ← e2]; exact h3
    · rintro ⟨h1, h2, h3, h4⟩
      subst h1
      refine ⟨hw.ancAt_ne_zero ht hl (by omega), rfl, ?_, h4⟩
      have e1 := ancAt_parent t (b := tgt) (l := l' - 1) (by omega)
      have e2 := ancAt_parent t (b := s) (l := l' - 1) (by omega)
      rw [show l' - 1 + 1 = l' by omega] at e1 e2
      rw [e1, e2]; exact h3
  by_cases hex : ∃ l, l ≤ t.level tgt ∧ l ≤ t.level s ∧
      ¬ t.nws p.nAway (t.ancAt tgt l) (t.ancAt s l)
  · rw [if_pos hex]
    obtain ⟨hk1, hk2, hk3⟩ := Nat.find_spec hex
    have hmin := fun m => @Nat.find_min _ _ hex m
    generalize Nat.find hex = k at hk1 hk2 hk3 hmin
    have hk0 : k ≠ 0 := by
      intro h; subst h
      apply hk3
      rw [hw.ancAt_zero ht, hw.ancAt_zero hs]; exact hw.nws_self hn.pos
    have hkm : t.nws p.nAway (t.ancAt tgt (k-1)) (t.ancAt s (k-1)) := by
      have := hmin (k-1) (by omega)
      by_contra hc
      exact this ⟨by omega, by omega, hc⟩
    rw [sum_eq_single List.nodup_range (List.mem_range.2 (by omega : k < t.level tgt + 1))]
    · rw [sum_eq_single List.nodup_range (List.mem_range.2 (by omega : k < t.level s + 1))]
      · rw [hval k hk1 k hk2, if_pos ⟨rfl, hk0, hkm, hk3⟩]
      · intro l' hl' hne
        rw [hval k hk1 l' (by have := List.mem_range.1 hl'; omega), if_neg]
        rintro ⟨h, _⟩; exact hne h
    · intro l hl hne
      have hl := List.mem_range.1 hl
      apply sum_eq_zero'
      intro l' hl'
      have hl' := List.mem_range.1 hl'
      rw [hval l (by omega) l' (by omega), if_neg]
      rintro ⟨h1, h2, h3, h4⟩
      subst h1
      rcases Nat.lt_trichotomy l' k with h | h | h
      · exact hmin l' h ⟨by omega, by omega, h4⟩
      · exact hne h
      · exact hk3 (nws_chain hw hn.pos ht hs (by omega : k ≤ l' - 1) (by omega) (by omega) h3)
  · rw [if_neg hex]
    apply sum_eq_zero'
    intro l hl
    have hl := List.mem_range.1 hl
    apply sum_eq_zero'
    intro l' hl'
    have hl' := List.mem_range.1 hl'
    rw [hval l (by omega) l' (by omega), if_neg]
    rintro ⟨h1, h2, h3, h4⟩
    subst h1
    exact hex ⟨l', by omega, by omega, h4⟩

/-- list-3 interactions, over all source levels, with ancestors-or-self of `s` -/
def l3sum (t : BoxTree) (p : TravParams) (slnws : Nat → List Nat) (tgt s : Nat) : Nat :=
  ((List.range t.nlevels).map fun (L : Nat) =>
    ((List.range (t.level s + 1)).map fun l' =>
      (list3Kernel t p slnws (L : Int) tgt).count (Out.sep (t.ancAt s l'))).sum).sum

/-- condition for the ancestor of `s` on level `l'` to be in list 3 of `tgt` -/
def In3 (t : BoxTree) (p : TravParams) (tgt s l' : Nat) : Prop :=
  t.level tgt < l' ∧ tgt ≠ 0 ∧ t.ancAt s (t.level tgt) ≠ tgt ∧
  t.nws p.nAway tgt (t.ancAt s (t.level tgt)) ∧
  ¬ t.nws 1 tgt (t.ancAt s l') ∧ Sep3 t p tgt (t.ancAt s l') ∧
  (∀ l, t.level tgt < l → l < l' → Open3 t p tgt (t.ancAt s l))

open Classical in
theorem l3sum_eq (hw : t.WF) (hf : t.FlagsOK) (hn : AdjOK t p) {slnws : Nat → List Nat}
    (hsl : ∀ b, b < t.nboxes → slnws b = slnwsKernel t p b) {tgt s : Nat}
    (ht : tgt < t.nboxes) (hs : s < t.nboxes) (hsrc : t.isSource s = true) :
    l3sum t p slnws tgt s = if ∃ l', l' ≤ t.level s ∧ In3 t p tgt s l' then 1 else 0 := by
  unfold l3sum
  have hval : ∀ (L : Nat) l', l' ≤ t.level s →
      (list3Kernel t p slnws (L : Int) tgt).count (Out.sep (t.ancAt s l')) =
      if l' = L ∧ In3 t p tgt s l' then 1 else 0 := by
    intro L l' hl'
    rw [count_list3_sep hw hf hn hsl ht (hw.ancAt_lt hs l'), hw.level_ancAt hs hl']
    congr 1
    rw [eq_iff_iff]
    unfold In3
    constructor
    · rintro ⟨h1, h2, h3, h4, h5, h6, h7, h8, h9⟩
      rw [hw.ancAt_ancAt hs h2.le hl'] at h4 h5
      refine ⟨h1, h2, h3, h4, h5, h7, h8, fun l ha hb => ?_⟩
      have := h9 l ha hb
      rwa [hw.ancAt_ancAt hs hb.le hl'] at this
    · rintro ⟨h1, h2, h3, h4, h5, h7, h8, h9⟩
      refine ⟨h1, h2, h3, ?_, ?_, ?_, h7, h8, fun l ha hb => ?_⟩
      · rwa [hw.ancAt_ancAt hs h2.le hl']
      · rwa [hw.ancAt_ancAt hs h2.le hl']
      · rcases Nat.lt_or_ge l' (t.level s) with h | h
        · exact Or.inr (hf.src_anc hw hs (Or.inl hsrc) h)
        · rw [ancAt_ge t h]; exact Or.inl hsrc
      · rw [hw.ancAt_ancAt hs hb.le hl']; exact h9 l ha hb
  by_cases hex : ∃ l', l' ≤ t.level s ∧ In3 t p tgt s l'
  · rw [if_pos hex]
    obtain ⟨k, hk, h3⟩ := hex
    have hkl : k < t.nlevels := lt_of_le_of_lt hk (hw.level_lt s hs)
    have huniq : ∀ l', In3 t p tgt s l' → l' = k := by
      intro l' h'
      unfold In3 at h3 h'
      rcases Nat.lt_trichotomy l' k with h | h | h
      · exfalso
        rcases h3.2.2.2.2.2.2 l' h'.1 h with ho | ho
        · exact h'.2.2.2.2.1 ho
        · exact ho h'.2.2.2.2.2.1
      · exact h
      · exfalso
        rcases h'.2.2.2.2.2.2 k h3.1 h with ho | ho
        · exact h3.2.2.2.2.1 ho
        · exact ho h3.2.2.2.2.2.1
    rw [sum_eq_single List.nodup_range (List.mem_range.2 hkl)]
    · rw [sum_eq_single List.nodup_range (List.mem_range.2 (by omega : k < t.level s + 1))]
      · rw [hval k k hk, if_pos ⟨rfl, h3⟩]
      · intro l' hl' hne
        rw [hval k l' (by have := List.mem_range.1 hl'; omega), if_neg]
        rintro ⟨h, _⟩; exact hne h
    · intro L _ hne
      apply sum_eq_zero'
      intro l' hl'
      rw [hval L l' (by have := List.mem_range.1 hl'; omega), if_neg]
      rintro ⟨h, h'⟩
      exact hne (by rw [← h, huniq l' h'])
  · rw [if_neg hex]
    apply sum_eq_zero'
    intro L _
    apply sum_eq_zero'
    intro l' hl'
    have hl' := List.mem_range.1 hl'
    rw [hval L l' (by omega), if_neg]
    rintro ⟨_, h⟩; exact hex ⟨l', by omega, h⟩

/-- list-4 interactions of the target's ancestor chain with `s` -/
def l4sum (t : BoxTree) (p : TravParams) (slnws : Nat → List Nat) (tgt s : Nat) : Nat :=
  ((List.range (t.level tgt + 1)).map fun l =>
    (list4Kernel t p slnws (t.ancAt tgt l)).count (Out.sep s)).sum

theorem far4_chain (hw : t.WF) (hm : SepMono t p)
    {a s l l' : Nat} (ha : a < t.nboxes) (hs : s < t.nboxes) (hl : l ≤ l')
    (hl' : l' ≤ t.level a) (h : Far4 t p (t.ancAt a l) s) : Far4 t p (t.ancAt a l') s := by
  induction l', hl using Nat.le_induction with
  | base => exact h
  | succ k hk ih =>
    have := ih (by omega)
    rw [← ancAt_parent t (by omega : k < t.level a)] at this
    exact this.of_parent hw hm (hw.ancAt_lt ha _) hs

open Classical in
theorem l4sum_eq (hw : t.WF) (hn : AdjOK t p) (hm : SepMono t p) {slnws : Nat → List Nat}
    (hsl : ∀ b, b < t.nboxes → slnws b = slnwsKernel t p b) {tgt s : Nat}
    (ht : tgt < t.nboxes) (hs : s < t.nboxes) (hsrc : t.isSource s = true) :
    l4sum t p slnws tgt s =
      if s ≠ 0 ∧ t.level s ≤ t.level tgt ∧ s ≠ t.ancAt tgt (t.level s) ∧
        t.nws p.nAway (t.ancAt tgt (t.level s)) s ∧ Far4 t p tgt s then 1 else 0 := by
  unfold l4sum
  have hval : ∀ l, l ≤ t.level tgt →
      (list4Kernel t p slnws (t.ancAt tgt l)).count (Out.sep s) =
      if s ≠ 0 ∧ t.level s ≤ l ∧ s ≠ t.ancAt tgt (t.level s) ∧
        t.nws p.nAway (t.ancAt tgt (t.level s)) s ∧ Far4 t p (t.ancAt tgt l) s ∧
        ¬ (t.level s < l ∧ Far4 t p (t.ancAt tgt (l - 1)) s) then 1 else 0 := by
    intro l hl
    rw [count_list4_sep hw hn hsl (hw.ancAt_lt ht l) hs, hw.level_ancAt ht hl]
    congr 1
    rw [eq_iff_iff]
    constructor
    · rintro ⟨h1, h2, h3, h4, h5, _, h7, h8⟩
      rw [hw.ancAt_ancAt ht h3 hl] at h4 h5
      refine ⟨h2, h3, h4, h5, h7, ?_⟩
      rintro ⟨ha, hb⟩
      apply h8
      have e1 := ancAt_parent t (b := tgt) (l := l - 1) (by omega)
      rw [show l - 1 + 1 = l by omega] at e1
      rw [e1]; exact ⟨hb, ha⟩
    · rintro ⟨h2, h3, h4, h5, h7, h8⟩
      have hls := hw.level_pos hs h2
      refine ⟨hw.ancAt_ne_zero ht hl (by omega), h2, h3, ?_, ?_, hsrc, h7, ?_⟩
      · rwa [hw.ancAt_ancAt ht h3 hl]
      · rwa [hw.ancAt_ancAt ht h3 hl]
      · rintro ⟨ha, hb⟩
        apply h8
        have e1 := ancAt_parent t (b := tgt) (l := l - 1) (by omega)
        rw [show l - 1 + 1 = l by omega] at e1
        rw [e1] at ha; exact ⟨hb, ha⟩
  by_cases hc : s ≠ 0 ∧ t.level s ≤ t.level tgt ∧ s ≠ t.ancAt tgt (t.level s) ∧
        t.nws p.nAway (t.ancAt tgt (t.level s)) s ∧ Far4 t p tgt s
  · rw [if_pos hc]
    obtain ⟨h2, h3, h4, h5, h6⟩ := hc
    have hex : ∃ l, t.level s ≤ l ∧ l ≤ t.level tgt ∧ Far4 t p (t.ancAt tgt l) s :=
      ⟨t.level tgt, h3, le_rfl, by rwa [ancAt_self]⟩
    obtain ⟨hk1, hk2, hk3⟩ := Nat.find_spec hex
    have hmin := fun m => @Nat.find_min _ _ hex m
    generalize Nat.find hex = k at hk1 hk2 hk3 hmin
    rw [sum_eq_single List.nodup_range (List.mem_range.2 (by omega : k < t.level tgt + 1))]
    · rw [hval k hk2, if_pos]
      refine ⟨h2, hk1, h4, h5, hk3, ?_⟩
      rintro ⟨ha, hb⟩
      exact hmin (k-1) (by omega) ⟨by omega, by omega, hb⟩
    · intro l hl hne
      have hl := List.mem_range.1 hl
      rw [hval l (by omega), if_neg]
      rintro ⟨_, g3, _, _, g6, g7⟩
      rcases Nat.lt_trichotomy l k with h | h | h
      · exact hmin l h ⟨g3, by omega, g6⟩
      · exact hne h
      · exact g7 ⟨by omega,
          far4_chain hw hm ht hs (by omega : k ≤ l - 1) (by omega) hk3⟩
  · rw [if_neg hc]
    apply sum_eq_zero'
    intro l hl
    have hl := List.mem_range.1 hl
    rw [hval l (by omega), if_neg]
    rintro ⟨g2, g3, g4, g5, g6, _⟩
    apply hc
    refine ⟨g2, by omega, g4, g5, ?_⟩
    have := far4_chain hw hm ht hs (by omega : l ≤ t.level tgt) le_rfl g6
    rwa [ancAt_self] at this

/-- Every source box / target box pair is handled by exactly one mechanism, exactly once. -/
theorem exactly_once_core (hw : t.WF) (hf : t.FlagsOK) (hn : AdjOK t p)
    (hm : SepMono t p) {slnws : Nat → List Nat}
    (hsl : ∀ b, b < t.nboxes → slnws b = slnwsKernel t p b) {tgt s : Nat}
    (ht : tgt < t.nboxes) (hs : s < t.nboxes) (htgt : t.isTarget tgt = true)
    (hsrc : t.isSource s = true) :
    (list1Kernel t p tgt).count s
      + l2sum t p slnws tgt s
      + l3sum t p slnws tgt s
      + (list3Kernel t p slnws (-1) tgt).count (Out.close s)
      + l4sum t p slnws tgt s
      + (list4Kernel t p slnws tgt).count (Out.close s) = 1 := by
  classical
  rw [count_list1 hw hf hn ht hs, l2sum_eq hw hn hsl ht hs, l3sum_eq hw hf hn hsl ht hs hsrc,
    count_list3_close hw hf hn hsl ht hs, l4sum_eq hw hn hm hsl ht hs hsrc,
    count_list4_close hw hn hsl ht hs]
  by_cases hex : ∃ l, l ≤ t.level tgt ∧ l ≤ t.level s ∧
      ¬ t.nws p.nAway (t.ancAt tgt l) (t.ancAt s l)
  · -- well separated on some level: list 2 only
    rw [if_pos hex]
    obtain ⟨l, hl1, hl2, hl3⟩ := hex
    rw [if_neg, if_neg, if_neg, if_neg, if_neg]
    · rintro ⟨_, _, h3, _, h5, _⟩
      apply hl3
      have hnn : t.nws p.nAway (t.ancAt tgt (t.level s)) (t.ancAt s (t.level s)) := by
        rwa [ancAt_self]
      exact nws_chain hw hn.pos ht hs hl2 h3 le_rfl hnn
    · rintro ⟨_, h3, _, h5, _⟩
      apply hl3
      have hnn : t.nws p.nAway (t.ancAt tgt (t.level s)) (t.ancAt s (t.level s)) := by
        rwa [ancAt_self]
      exact nws_chain hw hn.pos ht hs hl2 h3 le_rfl hnn
    · rintro ⟨h1, _, _, h5, _⟩
      apply hl3
      have hnn : t.nws p.nAway (t.ancAt tgt (t.level tgt)) (t.ancAt s (t.level tgt)) := by
        rwa [ancAt_self]
      exact nws_chain hw hn.pos ht hs hl1 le_rfl h1.le hnn
    · rintro ⟨l', hl', h1, _, _, h5, _⟩
      apply hl3
      have hnn : t.nws p.nAway (t.ancAt tgt (t.level tgt)) (t.ancAt s (t.level tgt)) := by
        rwa [ancAt_self]
      exact nws_chain hw hn.pos ht hs hl1 le_rfl (by omega) hnn
    · rintro ⟨_, h⟩
      exact hl3 (nws_of_adj hw hn.pos ht hs h)
  rw [if_neg hex]
  have hall : ∀ l, l ≤ t.level tgt → l ≤ t.level s →
      t.nws p.nAway (t.ancAt tgt l) (t.ancAt s l) := by
    intro l h1 h2
    by_contra hc
    exact hex ⟨l, h1, h2, hc⟩
  rcases Nat.lt_or_ge (t.level tgt) (t.level s) with hlt | hge
  · -- source box finer than target box
    have h4 : ¬ (t.level s ≤ t.level tgt) := by omega
    rw [if_neg (c := s ≠ 0 ∧ t.level s ≤ t.level tgt ∧ _) (fun h => h4 h.2.1),
      if_neg (c := tgt ≠ 0 ∧ s ≠ 0 ∧ t.level s ≤ t.level tgt ∧ _) (fun h => h4 h.2.2.1)]
    have hnws : t.nws p.nAway tgt (t.ancAt s (t.level tgt)) := by
      have := hall (t.level tgt) le_rfl hlt.le
      rwa [ancAt_self] at this
    by_cases hdesc : t.ancAt s (t.level tgt) = tgt
    · -- s is a descendant of the target box
      have hadj : t.nws 1 tgt s := by
        have := hw.nws_anc (l := t.level tgt) hs
        rwa [hdesc] at this
      rw [if_pos ⟨hsrc, hadj⟩, if_neg, if_neg]
      · rintro ⟨_, _, h, _⟩; exact h hdesc
      · rintro ⟨_, _, _, _, h, _⟩; exact h hdesc
    · have ht0 : tgt ≠ 0 := by
        intro h; apply hdesc
        rw [h, hw.level_root, hw.ancAt_zero hs]
      by_cases hin : ∃ l', l' ≤ t.level s ∧ In3 t p tgt s l'
      · rw [if_pos hin]
        obtain ⟨l', hl', hi⟩ := hin
        unfold In3 at hi
        obtain ⟨i1, i2, i3, i4, i5, i6, i7⟩ := hi
        rw [if_neg, if_neg]
        · rintro ⟨_, _, _, _, _, h6, h7, h8⟩
          rcases Nat.lt_or_ge l' (t.level s) with h | h
          · rcases h8 l' i1 h with ho | ho
            · exact i5 ho
            · exact ho i6
          · rw [ancAt_ge t h] at i6; exact h7 i6
        · rintro ⟨_, h⟩
          exact i5 (hw.nws_ancAt_right hs h)
      · rw [if_neg hin]
        have hopen : ∀ l, t.level tgt < l → l ≤ t.level s → Open3 t p tgt (t.ancAt s l) := by
          intro l
          induction l using Nat.strong_induction_on with
          | _ l ih =>
            intro h1 h2
            by_contra hc
            unfold Open3 at hc
            push Not at hc
            exact hin ⟨l, h2, h1, ht0, hdesc, hnws, hc.1, hc.2,
              fun j hj1 hj2 => ih j hj2 hj1 (by omega)⟩
        by_cases hadj : t.nws 1 tgt s
        · rw [if_pos ⟨hsrc, hadj⟩, if_neg]
          rintro ⟨_, _, _, _, _, h, _⟩; exact h hadj
        · rw [if_neg (fun h => hadj h.2), if_pos]
          refine ⟨hlt, ht0, hdesc, hnws, hsrc, hadj, ?_, fun l h1 h2 => hopen l h1 h2.le⟩
          have := hopen (t.level s) hlt le_rfl
          rw [ancAt_self] at this
          exact this.resolve_left hadj
  · -- source box coarser than (or as fine as) the target box
    have h3 : ¬ (t.level tgt < t.level s) := by omega
    rw [if_neg (c := ∃ l', l' ≤ t.level s ∧ In3 t p tgt s l')
        (by rintro ⟨l', h1, h2, _⟩; omega),
      if_neg (c := t.level tgt < t.level s ∧ _) (fun h => h3 h.1)]
    have hnws : t.nws p.nAway (t.ancAt tgt (t.level s)) s := by
      have := hall (t.level s) hge le_rfl
      rwa [ancAt_self] at this
    by_cases hanc : s = t.ancAt tgt (t.level s)
    · have hadj : t.nws 1 tgt s := by
        have := nws_one_symm t (hw.nws_anc (l := t.level s) ht)
        rwa [← hanc] at this
      rw [if_pos ⟨hsrc, hadj⟩, if_neg, if_neg]
      · rintro ⟨_, _, _, h, _⟩; exact h hanc
      · rintro ⟨_, _, h, _⟩; exact h hanc
    · have hs0 : s ≠ 0 := by
        intro h; apply hanc
        rw [h, hw.level_root, hw.ancAt_zero ht]
      have ht0 : tgt ≠ 0 := by
        intro h
        rw [h, hw.level_root] at hge
        exact hs0 (hw.eq_zero_of_level hs (by omega))
      by_cases hadj : t.nws 1 tgt s
      · rw [if_pos ⟨hsrc, hadj⟩, if_neg, if_neg]
        · rintro ⟨_, _, _, _, _, _, _, h, _⟩; exact h hadj
        · rintro ⟨_, _, _, _, h⟩; exact h.1 hadj
      · rw [if_neg (fun h => hadj h.2)]
        by_cases hcr : Crit4 t p tgt s
        · rw [if_pos ⟨hs0, hge, hanc, hnws, hadj, hcr⟩, if_neg]
          rintro ⟨_, _, _, _, _, _, _, _, h⟩; exact h hcr
        · rw [if_neg, if_pos ⟨ht0, hs0, hge, hanc, hnws, hsrc, htgt, hadj, hcr⟩]
          rintro ⟨_, _, _, _, h⟩; exact hcr h.2

end Boxtree
