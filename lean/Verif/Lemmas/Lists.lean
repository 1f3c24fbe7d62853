import Verif.Lemmas.Walk
import Verif.Model.Lists

set_option linter.unusedSimpArgs false
set_option linter.unusedVariables false

namespace Boxtree
open BoxTree

variable {t : BoxTree} {p : TravParams}

theorem BoxTree.FlagsOK.src_anc (hw : t.WF) (hf : t.FlagsOK) {s l : Nat} (hs : s < t.nboxes)
    (h : t.isSource s = true ∨ t.hasSourceChild s = true) (hl : l < t.level s) :
    t.hasSourceChild (t.ancAt s l) = true := by
  have key : ∀ n, n < t.level s → t.hasSourceChild (t.parent^[n+1] s) = true := by
    intro n
    induction n with
    | zero =>
      intro hn
      apply hf.src s hs _ h
      intro h0; subst h0; rw [hw.level_root] at hn; omega
    | succ n ih =>
      intro hn
      rw [Function.iterate_succ_apply']
      obtain ⟨h1, h2⟩ := hw.iter_parent hs (n+1)
      apply hf.src _ h1 _ (Or.inr (ih (by omega)))
      intro h0
      rw [h0, hw.level_root] at h2; omega
  have := key (t.level s - l - 1) (by omega)
  unfold ancAt
  rwa [show t.level s - l - 1 + 1 = t.level s - l by omega] at this

theorem BoxTree.FlagsOK.tgt_anc (hw : t.WF) (hf : t.FlagsOK) {s l : Nat} (hs : s < t.nboxes)
    (h : t.isTarget s = true ∨ t.hasTargetChild s = true) (hl : l < t.level s) :
    t.hasTargetChild (t.ancAt s l) = true := by
  have key : ∀ n, n < t.level s → t.hasTargetChild (t.parent^[n+1] s) = true := by
    intro n
    induction n with
    | zero =>
      intro hn
      apply hf.tgt s hs _ h
      intro h0; subst h0; rw [hw.level_root] at hn; omega
    | succ n ih =>
      intro hn
      rw [Function.iterate_succ_apply']
      obtain ⟨h1, h2⟩ := hw.iter_parent hs (n+1)
      apply hf.tgt _ h1 _ (Or.inr (ih (by omega)))
      intro h0
      rw [h0, hw.level_root] at h2; omega
  have := key (t.level s - l - 1) (by omega)
  unfold ancAt
  rwa [show t.level s - l - 1 + 1 = t.level s - l by omega] at this

/-- The adjacency tests are decided as in exact arithmetic. -/
structure AdjOK (t : BoxTree) (p : TravParams) : Prop where
  pos : 1 ≤ p.nAway
  adj : ∀ n, n = 1 ∨ n = p.nAway → ∀ {a b : Nat}, a < t.nboxes → b < t.nboxes →
    (p.tests.adj t a (t.level a) n b (t.level b) = true ↔ t.nws n a b)

theorem AdjOK.far (h : AdjOK t p) {a b : Nat} (ha : a < t.nboxes) (hb : b < t.nboxes) :
    p.tests.adj t a (t.level a) p.nAway b (t.level b) = true ↔ t.nws p.nAway a b :=
  h.adj _ (Or.inr rfl) ha hb

theorem AdjOK.one (h : AdjOK t p) {a b : Nat} (ha : a < t.nboxes) (hb : b < t.nboxes) :
    p.tests.adj t a (t.level a) 1 b (t.level b) = true ↔ t.nws 1 a b :=
  h.adj _ (Or.inl rfl) ha hb

/-! ### same-level non-well-separated boxes -/

theorem slnwsVisit_own {box k c e : Nat} (h : e ∈ (slnwsVisit t p box k c).1) : c = e := by
  unfold slnwsVisit at h
  simp only at h
  split at h
  · split at h <;> simp at h
    exact h.symm
  · simp at h

open Classical in
theorem count_slnws (hw : t.WF) (hn : AdjOK t p) {b s : Nat} (hb : b < t.nboxes)
    (hs : s < t.nboxes) :
    (slnwsKernel t p b).count s =
      if b ≠ 0 ∧ s ≠ b ∧ t.level s = t.level b ∧ t.nws p.nAway b s then 1 else 0 := by
  unfold slnwsKernel
  by_cases h0 : b = 0
  · simp [h0]
  simp only [h0, if_false]
  have hlb := hw.level_pos hb h0
  have hcw := count_walk (slnwsVisit t p b) hw s s hs
    (fun k c _ h => slnwsVisit_own h) 0 hw.nboxes_pos
  rw [hw.level_root] at hcw
  by_cases hcond : s ≠ b ∧ t.level s = t.level b ∧ t.nws p.nAway b s
  · rw [if_pos ⟨h0, hcond⟩]
    obtain ⟨hne, hl, hnws⟩ := hcond
    rw [hcw.1]
    · unfold slnwsVisit
      rw [(hn.far hb hs).2 hnws]
      have : t.level s - 1 + 1 = t.level b := by omega
      simp [this, hne]
    · refine ⟨by rw [hw.level_root]; omega, by rw [hw.level_root, hw.ancAt_zero hs], ?_⟩
      intro l hl1 hl2
      rw [hw.level_root] at *
      unfold slnwsVisit
      rw [(hn.far hb (hw.ancAt_lt hs _)).2 (hw.nws_ancAt_right hs hnws)]
      have : ¬ (l - 1 + 1 = t.level b) := by omega
      simp [this]
  · rw [if_neg (by tauto)]
    by_cases hr : Reached t (slnwsVisit t p b) 0 0 s
    · rw [hcw.1 hr, List.count_eq_zero]
      intro hmem
      apply hcond
      obtain ⟨hr1, -⟩ := hr
      rw [hw.level_root] at hr1
      unfold slnwsVisit at hmem
      simp only at hmem
      split at hmem
      · rename_i ha
        split at hmem
        · rename_i hb'
          exact ⟨hb'.2, by omega, (hn.far hb hs).1 ha⟩
        · simp at hmem
      · simp at hmem
    · exact hcw.2 hr

theorem slnws_lt (hw : t.WF) {b s : Nat} (h : s ∈ slnwsKernel t p b) :
    s < t.nboxes := by
  unfold slnwsKernel at h
  split at h
  · simp at h
  · obtain ⟨k, c, hc, _, he⟩ := mem_walk _ hw s hw.nboxes_pos h
    exact slnwsVisit_own he ▸ hc

theorem mem_slnws (hw : t.WF) (hn : AdjOK t p) {b s : Nat} (hb : b < t.nboxes) :
    s ∈ slnwsKernel t p b ↔
      s < t.nboxes ∧ b ≠ 0 ∧ s ≠ b ∧ t.level s = t.level b ∧ t.nws p.nAway b s := by
  constructor
  · intro h
    have hs := slnws_lt hw h
    have := count_slnws (p := p) hw hn hb hs
    have h1 := List.count_pos_iff.2 h
    rw [this] at h1
    refine ⟨hs, ?_⟩
    by_contra hc
    rw [if_neg hc] at h1; omega
  · rintro ⟨hs, hc⟩
    have := count_slnws (p := p) hw hn hb hs
    rw [if_pos hc] at this
    exact List.count_pos_iff.1 (by omega)

theorem slnws_nodup (hw : t.WF) (hn : AdjOK t p) {b : Nat} (hb : b < t.nboxes) :
    (slnwsKernel t p b).Nodup := by
  rw [List.nodup_iff_count_le_one]
  intro a
  by_cases ha : a ∈ slnwsKernel t p b
  · rw [count_slnws hw hn hb (slnws_lt hw ha)]
    split <;> omega
  · rw [List.count_eq_zero.2 ha]; omega

/-! ### list 1 -/

theorem list1Visit_own {box k c e : Nat} (h : e ∈ (list1Visit t p box k c).1) : c = e := by
  unfold list1Visit at h
  simp only at h
  split at h
  · split at h <;> simp at h
    exact h.symm
  · simp at h

open Classical in
theorem count_list1 (hw : t.WF) (hf : t.FlagsOK) (hn : AdjOK t p) {b s : Nat} (hb : b < t.nboxes)
    (hs : s < t.nboxes) :
    (list1Kernel t p b).count s = if t.isSource s = true ∧ t.nws 1 b s then 1 else 0 := by
  unfold list1Kernel
  rw [List.count_append]
  have hcw := count_walk (list1Visit t p b) hw s s hs
    (fun k c _ h => list1Visit_own h) 0 hw.nboxes_pos
  rw [hw.level_root] at hcw
  by_cases h0 : s = 0
  · subst h0
    rw [hcw.2 (by rintro ⟨h, _⟩; omega)]
    have : t.nws 1 b 0 := by
      have := nws_one_symm t (hw.nws_anc (l := 0) hb)
      rwa [hw.ancAt_zero hb] at this
    simp only [this, and_true]
    by_cases hsrc : t.isSource 0 = true <;> simp [hsrc]
  · have hls := hw.level_pos hs h0
    have : (if t.isSource 0 = true then [0] else []).count s = 0 := by
      rw [List.count_eq_zero]; split <;> simp [h0]
    rw [this, Nat.zero_add]
    by_cases hcond : t.isSource s = true ∧ t.nws 1 b s
    · rw [if_pos hcond]
      obtain ⟨hsrc, hnws⟩ := hcond
      rw [hcw.1]
      · unfold list1Visit
        rw [(hn.one hb hs).2 hnws]; simp [hsrc]
      · refine ⟨by rw [hw.level_root]; omega, by rw [hw.level_root, hw.ancAt_zero hs], ?_⟩
        intro l hl1 hl2
        unfold list1Visit
        rw [(hn.one hb (hw.ancAt_lt hs _)).2 (hw.nws_ancAt_right hs hnws)]
        simp [hf.src_anc hw hs (Or.inl hsrc) hl2]
    · rw [if_neg hcond]
      by_cases hr : Reached t (list1Visit t p b) 0 0 s
      · rw [hcw.1 hr, List.count_eq_zero]
        intro hmem
        apply hcond
        unfold list1Visit at hmem
        simp only at hmem
        split at hmem
        · rename_i ha
          split at hmem
          · rename_i hb'
            exact ⟨hb', (hn.one hb hs).1 ha⟩
          · simp at hmem
        · simp at hmem
      · exact hcw.2 hr

theorem list1_lt (hw : t.WF) {b s : Nat} (h : s ∈ list1Kernel t p b) : s < t.nboxes := by
  unfold list1Kernel at h
  rw [List.mem_append] at h
  rcases h with h | h
  · split at h <;> simp at h
    rw [h]; exact hw.nboxes_pos
  · obtain ⟨k, c, hc, _, he⟩ := mem_walk _ hw s hw.nboxes_pos h
    exact list1Visit_own he ▸ hc

/-! ### list 2 -/

theorem count_ite_nil {c : Prop} [Decidable c] (x s : Nat) :
    (if c then [x] else []).count s = if c ∧ x = s then 1 else 0 := by
  by_cases hc : c <;> by_cases hx : x = s <;> simp [hc, hx]

open Classical in
theorem count_list2 (hw : t.WF) (hn : AdjOK t p) {slnws : Nat → List Nat}
    (hsl : ∀ b, b < t.nboxes → slnws b = slnwsKernel t p b) {b s : Nat} (hb : b < t.nboxes)
    (hs : s < t.nboxes) :
    (list2Kernel t p slnws b).count s =
      if b ≠ 0 ∧ t.level s = t.level b ∧ t.nws p.nAway (t.parent b) (t.parent s) ∧
        ¬ t.nws p.nAway b s then 1 else 0 := by
  unfold list2Kernel
  by_cases h0 : b = 0
  · simp [h0, hw.parent_root]
  have hlb := hw.level_parent b hb h0
  have hpne : t.parent b ≠ b := by
    intro h; rw [h] at hlb; omega
  have hpb := hw.parent_lt b hb
  simp only [hpne, if_false]
  rw [hsl _ hpb, count_flatMap']
  -- value per colleague of the parent
  have inner : ∀ x, x < t.nboxes → t.level x + 1 = t.level b →
      ((List.range t.nch).flatMap fun morton =>
        if t.child morton x = 0 then []
        else if (!p.tests.adj t b (t.level b) p.nAway (t.child morton x)
            (t.level (t.child morton x))) = true then [t.child morton x] else []).count s
      = if s ≠ 0 ∧ t.parent s = x ∧ ¬ t.nws p.nAway b s then 1 else 0 := by
    intro x hx hlx
    rw [count_flatMap']
    have hval : ∀ m, m < t.nch → (if t.child m x = 0 then []
        else if (!p.tests.adj t b (t.level b) p.nAway (t.child m x)
            (t.level (t.child m x))) = true then [t.child m x] else []).count s =
        if t.child m x ≠ 0 ∧ t.child m x = s ∧ ¬ t.nws p.nAway b s then 1 else 0 := by
      intro m hm
      by_cases hc : t.child m x = 0
      · simp [hc]
      · simp only [hc, if_false, ne_eq, not_false_eq_true, true_and]
        rw [count_ite_nil]
        congr 1
        rw [Bool.not_eq_true', ← Bool.not_eq_true, hn.far hb (hw.child_lt m hm x hx), eq_iff_iff]
        constructor
        · rintro ⟨h1, h2⟩; rw [h2] at h1; exact ⟨h2, h1⟩
        · rintro ⟨h1, h2⟩; rw [h1]; exact ⟨h2, rfl⟩
    rw [List.map_congr_left fun m hm => hval m (List.mem_range.1 hm)]
    by_cases hcond : s ≠ 0 ∧ t.parent s = x ∧ ¬ t.nws p.nAway b s
    · rw [if_pos hcond]
      obtain ⟨hs0, hps, hnn⟩ := hcond
      obtain ⟨m, hm, hmc⟩ := hw.parent_child s hs hs0
      rw [hps] at hmc
      rw [sum_eq_single List.nodup_range (List.mem_range.2 hm)]
      · simp [hmc, hs0, hnn]
      · intro m' hm' hne
        rw [if_neg]
        rintro ⟨h1, h2, _⟩
        exact hne (hw.child_inj m' (List.mem_range.1 hm') m hm x hx h1 (by rw [h2, hmc]))
    · rw [if_neg hcond]
      apply sum_eq_zero'
      intro m hm
      rw [if_neg]
      rintro ⟨h1, h2, h3⟩
      apply hcond
      refine ⟨by rw [← h2]; exact h1, ?_, h3⟩
      rw [← h2]; exact hw.child_parent m (List.mem_range.1 hm) x hx h1
  have hmap : ((slnwsKernel t p (t.parent b)).map fun x =>
      ((List.range t.nch).flatMap fun morton =>
        if t.child morton x = 0 then []
        else if (!p.tests.adj t b (t.level b) p.nAway (t.child morton x)
            (t.level (t.child morton x))) = true then [t.child morton x] else []).count s).sum =
      ((slnwsKernel t p (t.parent b)).map fun x =>
        if s ≠ 0 ∧ t.parent s = x ∧ ¬ t.nws p.nAway b s then 1 else 0).sum := by
    congr 1
    apply List.map_congr_left
    intro x hx
    have hx' := (mem_slnws hw hn hpb).1 hx
    exact inner x hx'.1 (by rw [hx'.2.2.2.1]; omega)
  rw [hmap]
  by_cases hcond : b ≠ 0 ∧ t.level s = t.level b ∧ t.nws p.nAway (t.parent b) (t.parent s) ∧
        ¬ t.nws p.nAway b s
  · rw [if_pos hcond]
    obtain ⟨-, hl, hpn, hnn⟩ := hcond
    have hs0 : s ≠ 0 := by
      intro h; rw [h, hw.level_root] at hl; omega
    have hls := hw.level_parent s hs hs0
    have hpp : t.parent s ≠ t.parent b := by
      intro h
      exact hnn (hw.nws_of_parent_eq hn.pos hb hs h0 hs0 h.symm)
    have hpb0 : t.parent b ≠ 0 := by
      intro h
      have : t.level (t.parent b) = 0 := by rw [h, hw.level_root]
      have h2 : t.level (t.parent s) = 0 := by omega
      apply hpp
      rw [hw.eq_zero_of_level (hw.parent_lt s hs) h2, h]
    have hmem : t.parent s ∈ slnwsKernel t p (t.parent b) :=
      (mem_slnws hw hn hpb).2 ⟨hw.parent_lt s hs, hpb0, hpp, by omega, hpn⟩
    rw [sum_eq_single (slnws_nodup hw hn hpb) hmem]
    · simp [hs0, hnn]
    · intro x _ hne
      rw [if_neg]
      rintro ⟨_, h, _⟩; exact hne h.symm
  · rw [if_neg hcond]
    apply sum_eq_zero'
    intro x hx
    have hx' := (mem_slnws hw hn hpb).1 hx
    rw [if_neg]
    rintro ⟨h1, h2, h3⟩
    apply hcond
    refine ⟨h0, ?_, by rw [h2]; exact hx'.2.2.2.2, h3⟩
    have := hw.level_parent s hs h1
    rw [h2, hx'.2.2.2.1] at this; omega

theorem list2_lt (hw : t.WF) {slnws : Nat → List Nat} 
    (hsl : ∀ b, b < t.nboxes → slnws b = slnwsKernel t p b) {b s : Nat} (hb : b < t.nboxes)
    (h : s ∈ list2Kernel t p slnws b) : s < t.nboxes := by
  unfold list2Kernel at h
  simp only at h
  split at h
  · simp at h
  · rw [List.mem_flatMap] at h
    obtain ⟨x, hx, h⟩ := h
    rw [List.mem_flatMap] at h
    obtain ⟨m, hm, h⟩ := h
    rw [hsl _ (hw.parent_lt b hb)] at hx
    split at h
    · simp at h
    · split at h <;> simp at h
      rw [h]
      exact hw.child_lt m (List.mem_range.1 hm) x (slnws_lt hw hx)

/-! ### list 3 -/

theorem list3Visit_own {tgt k c : Nat} {sl : Int} {e : Out}
    (h : e ∈ (list3Visit t p tgt sl k c).1) : c = e.box := by
  unfold list3Visit at h
  simp only at h
  repeat' split at h
  all_goals simp at h
  all_goals subst h; rfl

/-- the test of the kernel that sends a non-adjacent box to list 3 -/
def Sep3 (t : BoxTree) (p : TravParams) (tgt c : Nat) : Prop :=
  meetsSepSmaller t p tgt c = true ∧ forceClose t p c = false

/-- box `c` neither is adjacent nor passes the separation test -/
theorem sep3_of_no_extent (h : p.targetsHaveExtent = false) (tgt c : Nat) : Sep3 t p tgt c := by
  simp [Sep3, meetsSepSmaller, forceClose, h]

theorem list3Visit_push (hn : AdjOK t p) {tgt k c : Nat} {sl : Int}
    (ht : tgt < t.nboxes) (hc : c < t.nboxes) :
    (list3Visit t p tgt sl k c).2 = true ↔
      t.hasSourceChild c = true ∧
      ((t.nws 1 tgt c ∧ ((t.level c : Int) ≤ sl ∨ sl = -1)) ∨
       (¬ t.nws 1 tgt c ∧ ¬ Sep3 t p tgt c)) := by
  have hadj := hn.one ht hc
  have hne : p.targetsHaveExtent = false → Sep3 t p tgt c := fun h => sep3_of_no_extent h tgt c
  have hb : p.tests.adj t tgt (t.level tgt) 1 c (t.level c) = true ∨
    p.tests.adj t tgt (t.level tgt) 1 c (t.level c) = false := by
    cases p.tests.adj t tgt (t.level tgt) 1 c (t.level c) <;> simp
  unfold list3Visit Sep3 at *
  by_cases h1 : t.hasSourceChild c = true
  · rcases hb with h2 | h2
    · have h2' := hadj.1 h2
      simp [h1, h2, h2']
    · have h2' : ¬ t.nws 1 tgt c := fun h => by rw [hadj.2 h] at h2; cases h2
      simp only [h1, h2, h2', Bool.or_true, if_true]
      cases h3 : meetsSepSmaller t p tgt c <;> cases h4 : forceClose t p c <;>
        cases h5 : p.targetsHaveExtent <;> simp_all
  · simp only [h1, false_and, iff_false, Bool.not_eq_true]
    have h1' : t.hasSourceChild c = false := by simpa using h1
    simp only [h1', Bool.or_false, Bool.false_and, Bool.false_eq_true, false_and, iff_false,
      Bool.not_eq_true]
    split
    · split
      · rfl
      · split
        · rfl
        · split <;> rfl
    · rfl

open Classical in
theorem list3Visit_count_sep (hn : AdjOK t p) {tgt k c : Nat} {sl : Int}
    (ht : tgt < t.nboxes) (hc : c < t.nboxes) :
    (list3Visit t p tgt sl k c).1.count (Out.sep c) =
      if (t.isSource c = true ∨ t.hasSourceChild c = true) ∧ ¬ t.nws 1 tgt c ∧
        Sep3 t p tgt c ∧ sl = t.level c then 1 else 0 := by
  have hadj := hn.one ht hc
  have hb : p.tests.adj t tgt (t.level tgt) 1 c (t.level c) = true ∨
    p.tests.adj t tgt (t.level tgt) 1 c (t.level c) = false := by
    cases p.tests.adj t tgt (t.level tgt) 1 c (t.level c) <;> simp
  unfold list3Visit Sep3
  by_cases h1 : t.isSource c = true ∨ t.hasSourceChild c = true
  · have h1' : (t.isSource c || t.hasSourceChild c) = true := by simpa using h1
    simp only [h1, h1', if_true, true_and]
    rcases hb with h2 | h2
    · have h2' := hadj.1 h2
      simp [h2, h2']
    · have h2' : ¬ t.nws 1 tgt c := fun h => by rw [hadj.2 h] at h2; cases h2
      simp only [h2, h2']
      cases h3 : meetsSepSmaller t p tgt c <;> cases h4 : forceClose t p c <;>
        by_cases h5 : sl = t.level c <;> simp [h5] <;> (repeat' split) <;> simp
  · have h1' : (t.isSource c || t.hasSourceChild c) = false := by
      rw [Bool.eq_false_iff]; simpa using h1
    simp [h1, h1']

open Classical in
theorem list3Visit_count_close (hn : AdjOK t p) {tgt k c : Nat} {sl : Int}
    (ht : tgt < t.nboxes) (hc : c < t.nboxes) :
    (list3Visit t p tgt sl k c).1.count (Out.close c) =
      if t.isSource c = true ∧ ¬ t.nws 1 tgt c ∧
        ¬ Sep3 t p tgt c ∧ sl = -1 then 1 else 0 := by
  have hadj := hn.one ht hc
  have hne : p.targetsHaveExtent = false → Sep3 t p tgt c := fun h => sep3_of_no_extent h tgt c
  have hb : p.tests.adj t tgt (t.level tgt) 1 c (t.level c) = true ∨
    p.tests.adj t tgt (t.level tgt) 1 c (t.level c) = false := by
    cases p.tests.adj t tgt (t.level tgt) 1 c (t.level c) <;> simp
  unfold list3Visit Sep3 at *
  by_cases h1 : t.isSource c = true
  · have h1' : (t.isSource c || t.hasSourceChild c) = true := by simp [h1]
    simp only [h1, h1', if_true, true_and]
    rcases hb with h2 | h2
    · have h2' := hadj.1 h2
      simp [h2, h2']
    · have h2' : ¬ t.nws 1 tgt c := fun h => by rw [hadj.2 h] at h2; cases h2
      simp only [h2, h2']
      cases h3 : meetsSepSmaller t p tgt c <;> cases h4 : forceClose t p c <;>
        cases h5 : p.targetsHaveExtent <;> by_cases h6 : sl = -1 <;> simp_all
      all_goals (split <;> simp)
  · have h1' : t.isSource c = false := by simpa using h1
    simp only [h1', Bool.false_eq_true, false_and, if_false]
    rw [List.count_eq_zero]
    intro hmem
    simp only [Bool.false_and, Bool.false_or, Bool.false_eq_true, if_false] at hmem
    repeat' split at hmem
    all_goals simp at hmem

/-- The walk of list 3 with target `tgt` passes through `a` on its way down: `a` is adjacent to
`tgt`, or too close to be separated. -/
def Open3 (t : BoxTree) (p : TravParams) (tgt a : Nat) : Prop :=
  t.nws 1 tgt a ∨ ¬ Sep3 t p tgt a

open Classical in
/-- Occurrences in list 3 (for one source level). -/
theorem count_list3_sep (hw : t.WF) (hf : t.FlagsOK) (hn : AdjOK t p)
    {slnws : Nat → List Nat} (hsl : ∀ b, b < t.nboxes → slnws b = slnwsKernel t p b)
    {tgt s : Nat} (ht : tgt < t.nboxes) (hs : s < t.nboxes) (L : Nat) :
    (list3Kernel t p slnws (L : Int) tgt).count (Out.sep s) =
      if t.level s = L ∧ t.level tgt < t.level s ∧ tgt ≠ 0 ∧
        t.ancAt s (t.level tgt) ≠ tgt ∧ t.nws p.nAway tgt (t.ancAt s (t.level tgt)) ∧
        (t.isSource s = true ∨ t.hasSourceChild s = true) ∧
        ¬ t.nws 1 tgt s ∧ Sep3 t p tgt s ∧
        (∀ l, t.level tgt < l → l < t.level s → Open3 t p tgt (t.ancAt s l))
      then 1 else 0 := by
  unfold list3Kernel
  rw [hsl _ ht, count_flatMap']
  have hx0 : ∀ x ∈ slnwsKernel t p tgt,
      (if x = tgt then [] else walk t (list3Visit t p tgt L) x).count (Out.sep s) =
      if x = t.ancAt s (t.level tgt) ∧ t.level s = L ∧ t.level tgt < t.level s ∧
        (t.isSource s = true ∨ t.hasSourceChild s = true) ∧
        ¬ t.nws 1 tgt s ∧ Sep3 t p tgt s ∧
        (∀ l, t.level tgt < l → l < t.level s → Open3 t p tgt (t.ancAt s l)) then 1 else 0 := by
    intro x hx
    obtain ⟨hxl, h0, hxt, hlx, -⟩ := (mem_slnws hw hn ht).1 hx
    rw [if_neg hxt]
    have hcw := count_walk (list3Visit t p tgt L) hw (Out.sep s) s hs
      (fun k c _ h => list3Visit_own h) x hxl
    by_cases hr : Reached t (list3Visit t p tgt L) 0 x s
    · rw [hcw.1 hr, list3Visit_count_sep hn ht hs]
      obtain ⟨hr1, hr2, hr3⟩ := hr
      rw [hlx] at hr1 hr2
      congr 1
      rw [eq_iff_iff]
      constructor
      · rintro ⟨h1, h2, h3, h4⟩
        refine ⟨hr2.symm, by exact_mod_cast h4.symm, hr1, h1, h2, h3, ?_⟩
        intro l hl1 hl2
        have := hr3 l (by omega) hl2
        rw [list3Visit_push hn ht (hw.ancAt_lt hs _)] at this
        rcases this.2 with h | h
        · exact Or.inl h.1
        · exact Or.inr h.2
      · rintro ⟨_, h2, _, h4, h5, h6, _⟩
        exact ⟨h4, h5, h6, by exact_mod_cast h2.symm⟩
    · rw [hcw.2 hr, if_neg]
      rintro ⟨h1, h2, h3, h4, h5, h6, h7⟩
      apply hr
      refine ⟨by omega, by rw [hlx]; exact h1.symm, fun l hl1 hl2 => ?_⟩
      rw [list3Visit_push hn ht (hw.ancAt_lt hs _)]
      refine ⟨hf.src_anc hw hs h4 hl2, ?_⟩
      rcases h7 l (by omega) hl2 with h | h
      · refine Or.inl ⟨h, Or.inl ?_⟩
        rw [hw.level_ancAt hs hl2.le]; exact_mod_cast (by omega : l ≤ L)
      · by_cases h' : t.nws 1 tgt (t.ancAt s l)
        · refine Or.inl ⟨h', Or.inl ?_⟩
          rw [hw.level_ancAt hs hl2.le]; exact_mod_cast (by omega : l ≤ L)
        · exact Or.inr ⟨h', h⟩
  rw [List.map_congr_left hx0]
  by_cases hcond : t.level s = L ∧ t.level tgt < t.level s ∧ tgt ≠ 0 ∧
        t.ancAt s (t.level tgt) ≠ tgt ∧ t.nws p.nAway tgt (t.ancAt s (t.level tgt)) ∧
        (t.isSource s = true ∨ t.hasSourceChild s = true) ∧
        ¬ t.nws 1 tgt s ∧ Sep3 t p tgt s ∧
        (∀ l, t.level tgt < l → l < t.level s → Open3 t p tgt (t.ancAt s l))
  · rw [if_pos hcond]
    obtain ⟨h1, h2, h3, h4, h5, h6, h7, h8, h9⟩ := hcond
    have hmem : t.ancAt s (t.level tgt) ∈ slnwsKernel t p tgt :=
      (mem_slnws hw hn ht).2 ⟨hw.ancAt_lt hs _, h3, h4, hw.level_ancAt hs h2.le, h5⟩
    rw [sum_eq_single (slnws_nodup hw hn ht) hmem]
    · rw [if_pos ⟨rfl, h1, h2, h6, h7, h8, h9⟩]
    · intro x _ hne
      rw [if_neg]; rintro ⟨h, _⟩; exact hne h
  · rw [if_neg hcond]
    apply sum_eq_zero'
    intro x hx
    obtain ⟨hxl, h0, hxt, hlx, hnx⟩ := (mem_slnws hw hn ht).1 hx
    rw [if_neg]
    rintro ⟨h1, h2, h3, h4, h5, h6, h7⟩
    exact hcond ⟨h2, h3, h0, h1 ▸ hxt, h1 ▸ hnx, h4, h5, h6, h7⟩

open Classical in
/-- Occurrences in list 3 close. -/
theorem count_list3_close (hw : t.WF) (hf : t.FlagsOK) (hn : AdjOK t p)
    {slnws : Nat → List Nat} (hsl : ∀ b, b < t.nboxes → slnws b = slnwsKernel t p b)
    {tgt s : Nat} (ht : tgt < t.nboxes) (hs : s < t.nboxes) :
    (list3Kernel t p slnws (-1) tgt).count (Out.close s) =
      if t.level tgt < t.level s ∧ tgt ≠ 0 ∧
        t.ancAt s (t.level tgt) ≠ tgt ∧ t.nws p.nAway tgt (t.ancAt s (t.level tgt)) ∧
        t.isSource s = true ∧
        ¬ t.nws 1 tgt s ∧ ¬ Sep3 t p tgt s ∧
        (∀ l, t.level tgt < l → l < t.level s → Open3 t p tgt (t.ancAt s l))
      then 1 else 0 := by
  unfold list3Kernel
  rw [hsl _ ht, count_flatMap']
  have hx0 : ∀ x ∈ slnwsKernel t p tgt,
      (if x = tgt then [] else walk t (list3Visit t p tgt (-1)) x).count (Out.close s) =
      if x = t.ancAt s (t.level tgt) ∧ t.level tgt < t.level s ∧
        t.isSource s = true ∧
        ¬ t.nws 1 tgt s ∧ ¬ Sep3 t p tgt s ∧
        (∀ l, t.level tgt < l → l < t.level s → Open3 t p tgt (t.ancAt s l)) then 1 else 0 := by
    intro x hx
    obtain ⟨hxl, h0, hxt, hlx, -⟩ := (mem_slnws hw hn ht).1 hx
    rw [if_neg hxt]
    have hcw := count_walk (list3Visit t p tgt (-1)) hw (Out.close s) s hs
      (fun k c _ h => list3Visit_own h) x hxl
    by_cases hr : Reached t (list3Visit t p tgt (-1)) 0 x s
    · rw [hcw.1 hr, list3Visit_count_close hn ht hs]
      obtain ⟨hr1, hr2, hr3⟩ := hr
      rw [hlx] at hr1 hr2
      congr 1
      rw [eq_iff_iff]
      constructor
      · rintro ⟨h1, h2, h3, -⟩
        refine ⟨hr2.symm, hr1, h1, h2, h3, ?_⟩
        intro l hl1 hl2
        have := hr3 l (by omega) hl2
        rw [list3Visit_push hn ht (hw.ancAt_lt hs _)] at this
        rcases this.2 with h | h
        · exact Or.inl h.1
        · exact Or.inr h.2
      · rintro ⟨_, _, h4, h5, h6, _⟩
        exact ⟨h4, h5, h6, rfl⟩
    · rw [hcw.2 hr, if_neg]
      rintro ⟨h1, h3, h4, h5, h6, h7⟩
      apply hr
      refine ⟨by omega, by rw [hlx]; exact h1.symm, fun l hl1 hl2 => ?_⟩
      rw [list3Visit_push hn ht (hw.ancAt_lt hs _)]
      refine ⟨hf.src_anc hw hs (Or.inl h4) hl2, ?_⟩
      by_cases h' : t.nws 1 tgt (t.ancAt s l)
      · exact Or.inl ⟨h', Or.inr rfl⟩
      · exact Or.inr ⟨h', (h7 l (by omega) hl2).resolve_left h'⟩
  rw [List.map_congr_left hx0]
  by_cases hcond : t.level tgt < t.level s ∧ tgt ≠ 0 ∧
        t.ancAt s (t.level tgt) ≠ tgt ∧ t.nws p.nAway tgt (t.ancAt s (t.level tgt)) ∧
        t.isSource s = true ∧
        ¬ t.nws 1 tgt s ∧ ¬ Sep3 t p tgt s ∧
        (∀ l, t.level tgt < l → l < t.level s → Open3 t p tgt (t.ancAt s l))
  · rw [if_pos hcond]
    obtain ⟨h2, h3, h4, h5, h6, h7, h8, h9⟩ := hcond
    have hmem : t.ancAt s (t.level tgt) ∈ slnwsKernel t p tgt :=
      (mem_slnws hw hn ht).2 ⟨hw.ancAt_lt hs _, h3, h4, hw.level_ancAt hs h2.le, h5⟩
    rw [sum_eq_single (slnws_nodup hw hn ht) hmem]
    · rw [if_pos ⟨rfl, h2, h6, h7, h8, h9⟩]
    · intro x _ hne
      rw [if_neg]; rintro ⟨h, _⟩; exact hne h
  · rw [if_neg hcond]
    apply sum_eq_zero'
    intro x hx
    obtain ⟨hxl, h0, hxt, hlx, hnx⟩ := (mem_slnws hw hn ht).1 hx
    rw [if_neg]
    rintro ⟨h1, h3, h4, h5, h6, h7⟩
    exact hcond ⟨h3, h0, h1 ▸ hxt, h1 ▸ hnx, h4, h5, h6, h7⟩

/-! ### list 4 -/

/-- separation criterion of list 4 between two boxes -/
def Crit4 (t : BoxTree) (p : TravParams) (a s : Nat) : Prop :=
  p.targetsHaveExtent = false ∨
    p.tests.sepBigger t p.stickOut p.eps a (t.level a) s (t.level s) = true

/-- far enough for source box `s` to enter the local expansion of `a` -/
def Far4 (t : BoxTree) (p : TravParams) (a s : Nat) : Prop := ¬ t.nws 1 a s ∧ Crit4 t p a s

theorem list4Body_own {b l x : Nat} {e : Out} (h : e ∈ list4Body t p b l x) : x = e.box := by
  unfold list4Body at h
  simp only at h
  repeat' split at h
  all_goals simp at h
  all_goals subst h; rfl

open Classical in
theorem list4Body_count_sep (hw : t.WF) (hn : AdjOK t p) {b x : Nat} (hb : b < t.nboxes) (hb0 : b ≠ 0)
    (hx : x < t.nboxes) :
    (list4Body t p b (t.level x) x).count (Out.sep x) =
      if t.isSource x = true ∧ Far4 t p b x ∧
        ¬ (Far4 t p (t.parent b) x ∧ (p.nAway ≤ 1 ∨ t.level x < t.level b)) then 1 else 0 := by
  have h1 := hn.one hb hx
  have h2 := hn.one (hw.parent_lt b hb) hx
  have hl := hw.level_parent b hb hb0
  have hl' : t.level b - 1 = t.level (t.parent b) := by omega
  unfold list4Body Far4 Crit4
  rw [hl']
  by_cases hsrc : t.isSource x = true
  · simp only [hsrc, if_true, true_and]
    cases ha : p.tests.adj t b (t.level b) 1 x (t.level x) <;>
    cases ha2 : p.tests.adj t (t.parent b) (t.level (t.parent b)) 1 x (t.level x) <;>
    cases he : p.targetsHaveExtent <;>
    cases hc : p.tests.sepBigger t p.stickOut p.eps b (t.level b) x (t.level x) <;>
    cases hc2 : p.tests.sepBigger t p.stickOut p.eps (t.parent b) (t.level (t.parent b)) x
      (t.level x) <;>
    rw [ha] at h1 <;> rw [ha2] at h2 <;> simp only [Bool.false_eq_true, false_iff, true_iff] at h1 h2 <;>
    simp [h1, h2] <;> (repeat' split) <;> simp_all <;> omega
  · simp [hsrc]

open Classical in
theorem list4Body_count_close (hn : AdjOK t p) {b x : Nat} (hb : b < t.nboxes) (hx : x < t.nboxes) :
    (list4Body t p b (t.level x) x).count (Out.close x) =
      if t.isSource x = true ∧ t.isTarget b = true ∧ ¬ t.nws 1 b x ∧ ¬ Crit4 t p b x
      then 1 else 0 := by
  have h1 := hn.one hb hx
  unfold list4Body Crit4
  by_cases hsrc : t.isSource x = true
  · simp only [hsrc, if_true, true_and]
    cases ha : p.tests.adj t b (t.level b) 1 x (t.level x) <;>
    cases he : p.targetsHaveExtent <;>
    cases hc : p.tests.sepBigger t p.stickOut p.eps b (t.level b) x (t.level x) <;>
    rw [ha] at h1 <;> simp only [Bool.false_eq_true, false_iff, true_iff] at h1 <;>
    simp [h1] <;> (repeat' split) <;> simp_all
  · simp [hsrc]

theorem count_list4Loop (hw : t.WF) (hn : AdjOK t p)
    {slnws : Nat → List Nat} (hsl : ∀ b, b < t.nboxes → slnws b = slnwsKernel t p b)
    {b s : Nat} (hb : b < t.nboxes) (e : Out) (he : e.box = s) :
    ∀ l, l ≤ t.level b →
    ((s ∈ slnwsKernel t p (t.ancAt b (t.level s)) ∧ t.level s ≤ l) →
      (list4Loop t p slnws b l (t.ancAt b l)).count e =
        (list4Body t p b (t.level s) s).count e) ∧
    (¬ (s ∈ slnwsKernel t p (t.ancAt b (t.level s)) ∧ t.level s ≤ l) →
      (list4Loop t p slnws b l (t.ancAt b l)).count e = 0) := by
  intro l
  induction l with
  | zero =>
    intro _
    refine ⟨?_, fun _ => by simp [list4Loop]⟩
    rintro ⟨h1, h2⟩
    have h3 : t.level s = 0 := by omega
    rw [h3, hw.ancAt_zero hb] at h1
    simp [slnwsKernel] at h1
  | succ l ih =>
    intro hl
    have ih := ih (by omega)
    have hal := hw.ancAt_lt hb (l+1)
    have hll := hw.level_ancAt hb hl
    simp only [list4Loop, List.count_append]
    rw [ancAt_parent t (by omega : l < t.level b), hsl _ hal, count_flatMap']
    have hrow : ∀ x ∈ slnwsKernel t p (t.ancAt b (l+1)), x ≠ s →
        (list4Body t p b (l+1) x).count e = 0 := by
      intro x _ hne
      rw [List.count_eq_zero]
      intro hm
      exact hne (by rw [list4Body_own hm, he])
    by_cases hs : s ∈ slnwsKernel t p (t.ancAt b (l+1))
    · have hls := ((mem_slnws hw hn hal).1 hs).2.2.2.1
      rw [hll] at hls
      rw [sum_eq_single (slnws_nodup hw hn hal) hs _ hrow, ih.2 (by omega), Nat.add_zero]
      rw [hls]
      exact ⟨fun _ => rfl, fun h => absurd ⟨hs, le_rfl⟩ h⟩
    · rw [sum_eq_zero' _ (fun x hx => hrow x hx (fun h => hs (h ▸ hx))), Nat.zero_add]
      constructor
      · rintro ⟨h1, h2⟩
        apply ih.1
        refine ⟨h1, ?_⟩
        by_contra hc
        have : t.level s = l + 1 := by omega
        rw [this] at h1; exact hs h1
      · intro h
        apply ih.2
        rintro ⟨h1, h2⟩; exact h ⟨h1, by omega⟩

/-- colleague membership relation used by list 4 -/
theorem mem_slnws_anc (hw : t.WF) (hn : AdjOK t p) {b s : Nat} (hb : b < t.nboxes)
    (hs : s < t.nboxes) (hl : t.level s ≤ t.level b) :
    s ∈ slnwsKernel t p (t.ancAt b (t.level s)) ↔
      s ≠ 0 ∧ s ≠ t.ancAt b (t.level s) ∧ t.nws p.nAway (t.ancAt b (t.level s)) s := by
  rw [mem_slnws hw hn (hw.ancAt_lt hb _)]
  have h1 := hw.level_ancAt hb hl
  constructor
  · rintro ⟨_, h2, h3, h4, h5⟩
    refine ⟨?_, h3, h5⟩
    intro h; subst h
    rw [hw.level_root] at *
    exact h2 (hw.ancAt_zero hb)
  · rintro ⟨h2, h3, h4⟩
    refine ⟨hs, ?_, h3, h1.symm, h4⟩
    intro h
    rw [h, hw.level_root] at h1
    exact h2 (hw.eq_zero_of_level hs h1.symm)

open Classical in
/-- Occurrences in list 4. -/
theorem count_list4_sep (hw : t.WF) (hn : AdjOK t p)
    {slnws : Nat → List Nat} (hsl : ∀ b, b < t.nboxes → slnws b = slnwsKernel t p b)
    {b s : Nat} (hb : b < t.nboxes) (hs : s < t.nboxes) :
    (list4Kernel t p slnws b).count (Out.sep s) =
      if b ≠ 0 ∧ s ≠ 0 ∧ t.level s ≤ t.level b ∧ s ≠ t.ancAt b (t.level s) ∧
        t.nws p.nAway (t.ancAt b (t.level s)) s ∧ t.isSource s = true ∧ Far4 t p b s ∧
        ¬ (Far4 t p (t.parent b) s ∧ t.level s < t.level b) then 1 else 0 := by
  unfold list4Kernel
  by_cases h0 : t.level b = 0
  · have := hw.eq_zero_of_level hb h0
    simp [this, hw.level_root]
  have hb0 : b ≠ 0 := by rintro rfl; exact h0 hw.level_root
  rw [if_neg h0]
  by_cases h1 : p.nAway = 1
  · rw [if_pos h1]
    have hpar : t.parent b = t.ancAt b (t.level b - 1) := by
      have := ancAt_parent t (b := b) (l := t.level b - 1) (by omega)
      rw [show t.level b - 1 + 1 = t.level b by omega, ancAt_self] at this; exact this
    have hcl := count_list4Loop (s := s) hw hn hsl hb (Out.sep s) rfl (t.level b - 1) (by omega)
    rw [← hpar] at hcl
    by_cases hc : s ∈ slnwsKernel t p (t.ancAt b (t.level s)) ∧ t.level s ≤ t.level b - 1
    · rw [hcl.1 hc, list4Body_count_sep hw hn hb hb0 hs]
      obtain ⟨hc1, hc2⟩ := hc
      have hc1 := (mem_slnws_anc hw hn hb hs (by omega)).1 hc1
      congr 1
      rw [eq_iff_iff]
      constructor
      · rintro ⟨h2, h3, h4⟩
        exact ⟨hb0, hc1.1, by omega, hc1.2.1, hc1.2.2, h2, h3,
          fun h => h4 ⟨h.1, Or.inl (by omega)⟩⟩
      · rintro ⟨_, _, _, _, _, h2, h3, h4⟩
        exact ⟨h2, h3, fun h => h4 ⟨h.1, by have := hn.pos; omega⟩⟩
    · rw [hcl.2 hc, if_neg]
      rintro ⟨_, h2, h3, h4, h5, h6, h7, h8⟩
      apply hc
      refine ⟨(mem_slnws_anc hw hn hb hs h3).2 ⟨h2, h4, h5⟩, ?_⟩
      by_contra hlt
      have hl : t.level s = t.level b := by omega
      rw [hl, ancAt_self, h1] at h5
      exact h7.1 h5
  · rw [if_neg h1]
    have hcl := count_list4Loop (s := s) hw hn hsl hb (Out.sep s) rfl (t.level b) le_rfl
    rw [ancAt_self] at hcl
    by_cases hc : s ∈ slnwsKernel t p (t.ancAt b (t.level s)) ∧ t.level s ≤ t.level b
    · rw [hcl.1 hc, list4Body_count_sep hw hn hb hb0 hs]
      obtain ⟨hc1, hc2⟩ := hc
      have hc1 := (mem_slnws_anc hw hn hb hs (by omega)).1 hc1
      congr 1
      rw [eq_iff_iff]
      constructor
      · rintro ⟨h2, h3, h4⟩
        exact ⟨hb0, hc1.1, by omega, hc1.2.1, hc1.2.2, h2, h3,
          fun h => h4 ⟨h.1, Or.inr h.2⟩⟩
      · rintro ⟨_, _, _, _, _, h2, h3, h4⟩
        exact ⟨h2, h3, fun h => h4 ⟨h.1, by have := hn.pos; omega⟩⟩
    · rw [hcl.2 hc, if_neg]
      rintro ⟨_, h2, h3, h4, h5, h6, h7, h8⟩
      exact hc ⟨(mem_slnws_anc hw hn hb hs h3).2 ⟨h2, h4, h5⟩, h3⟩

open Classical in
/-- Occurrences in list 4 close. -/
theorem count_list4_close (hw : t.WF) (hn : AdjOK t p)
    {slnws : Nat → List Nat} (hsl : ∀ b, b < t.nboxes → slnws b = slnwsKernel t p b)
    {b s : Nat} (hb : b < t.nboxes) (hs : s < t.nboxes) :
    (list4Kernel t p slnws b).count (Out.close s) =
      if b ≠ 0 ∧ s ≠ 0 ∧ t.level s ≤ t.level b ∧ s ≠ t.ancAt b (t.level s) ∧
        t.nws p.nAway (t.ancAt b (t.level s)) s ∧ t.isSource s = true ∧ t.isTarget b = true ∧
        ¬ t.nws 1 b s ∧ ¬ Crit4 t p b s then 1 else 0 := by
  unfold list4Kernel
  by_cases h0 : t.level b = 0
  · have := hw.eq_zero_of_level hb h0
    simp [this, hw.level_root]
  have hb0 : b ≠ 0 := by rintro rfl; exact h0 hw.level_root
  rw [if_neg h0]
  by_cases h1 : p.nAway = 1
  · rw [if_pos h1]
    have hpar : t.parent b = t.ancAt b (t.level b - 1) := by
      have := ancAt_parent t (b := b) (l := t.level b - 1) (by omega)
      rw [show t.level b - 1 + 1 = t.level b by omega, ancAt_self] at this; exact this
    have hcl := count_list4Loop (s := s) hw hn hsl hb (Out.close s) rfl (t.level b - 1) (by omega)
    rw [← hpar] at hcl
    by_cases hc : s ∈ slnwsKernel t p (t.ancAt b (t.level s)) ∧ t.level s ≤ t.level b - 1
    · rw [hcl.1 hc, list4Body_count_close hn hb hs]
      obtain ⟨hc1, hc2⟩ := hc
      have hc1 := (mem_slnws_anc hw hn hb hs (by omega)).1 hc1
      congr 1
      rw [eq_iff_iff]
      constructor
      · rintro ⟨h2, h3, h4, h5⟩
        exact ⟨hb0, hc1.1, by omega, hc1.2.1, hc1.2.2, h2, h3, h4, h5⟩
      · rintro ⟨_, _, _, _, _, h2, h3, h4, h5⟩
        exact ⟨h2, h3, h4, h5⟩
    · rw [hcl.2 hc, if_neg]
      rintro ⟨_, h2, h3, h4, h5, h6, h7, h8, _⟩
      apply hc
      refine ⟨(mem_slnws_anc hw hn hb hs h3).2 ⟨h2, h4, h5⟩, ?_⟩
      by_contra hlt
      have hl : t.level s = t.level b := by omega
      rw [hl, ancAt_self, h1] at h5
      exact h8 h5
  · rw [if_neg h1]
    have hcl := count_list4Loop (s := s) hw hn hsl hb (Out.close s) rfl (t.level b) le_rfl
    rw [ancAt_self] at hcl
    by_cases hc : s ∈ slnwsKernel t p (t.ancAt b (t.level s)) ∧ t.level s ≤ t.level b
    · rw [hcl.1 hc, list4Body_count_close hn hb hs]
      obtain ⟨hc1, hc2⟩ := hc
      have hc1 := (mem_slnws_anc hw hn hb hs (by omega)).1 hc1
      congr 1
      rw [eq_iff_iff]
      constructor
      · rintro ⟨h2, h3, h4, h5⟩
        exact ⟨hb0, hc1.1, by omega, hc1.2.1, hc1.2.2, h2, h3, h4, h5⟩
      · rintro ⟨_, _, _, _, _, h2, h3, h4, h5⟩
        exact ⟨h2, h3, h4, h5⟩
    · rw [hcl.2 hc, if_neg]
      rintro ⟨_, h2, h3, h4, h5, h6, h7, h8⟩
      exact hc ⟨(mem_slnws_anc hw hn hb hs h3).2 ⟨h2, h4, h5⟩, h3⟩

/-- The list-4 test, once met by a target box, is met by its children. -/
def SepMono (t : BoxTree) (p : TravParams) : Prop :=
  p.targetsHaveExtent = true → ∀ a s, a < t.nboxes → s < t.nboxes → a ≠ 0 →
    p.tests.sepBigger t p.stickOut p.eps (t.parent a) (t.level (t.parent a)) s (t.level s) = true →
    p.tests.sepBigger t p.stickOut p.eps a (t.level a) s (t.level s) = true

/-- In exact arithmetic the list-4 criterion survives moving the target to a child. -/
theorem meetsSepBigger_of_parent (hw : t.WF) {so eps : ℚ} (hso : 0 ≤ so) (heps : eps ≤ 1 / 12)
    {a s : Nat} (ha : a < t.nboxes) (h0 : a ≠ 0)
    (h : t.meetsSepBigger (t.center (t.parent a)) (t.level (t.parent a)) (t.center s) (t.level s)
      so eps = true) :
    t.meetsSepBigger (t.center a) (t.level a) (t.center s) (t.level s) so eps = true := by
  unfold BoxTree.meetsSepBigger at *
  simp only [decide_eq_true_eq] at *
  have h1 := hw.linf_parent ha
  have h2 := linf_triangle t (t.center (t.parent a)) (t.center a) (t.center s)
  have h3 := hw.level_parent a ha h0
  have h4 := rad_succ t (t.level (t.parent a))
  rw [← h3] at h4
  have hr := hw.rad_pos (t.level a)
  have hrs := hw.rad_pos (t.level s)
  rw [h4] at h
  have h5 : t.rad (t.level a) ≤ 3 * (1 + so) * t.rad (t.level a) * (1 - 8 * eps) := by
    have : 1 ≤ 3 * (1 + so) * (1 - 8 * eps) := by nlinarith
    nlinarith
  nlinarith

/-- The list-4 criterion survives moving the target to a child. -/
theorem Crit4.of_parent (hw : t.WF) (hm : SepMono t p)
    {a s : Nat} (ha : a < t.nboxes) (hs : s < t.nboxes) (h : Crit4 t p (t.parent a) s) :
    Crit4 t p a s := by
  by_cases h0 : a = 0
  · subst h0; rwa [hw.parent_root] at h
  cases he : p.targetsHaveExtent with
  | false => exact Or.inl he
  | true =>
    rcases h with h | h
    · rw [he] at h; exact absurd h (by simp)
    · exact Or.inr (hm he a s ha hs h0 h)

theorem Far4.of_parent (hw : t.WF) (hm : SepMono t p)
    {a s : Nat} (ha : a < t.nboxes) (hs : s < t.nboxes) (h : Far4 t p (t.parent a) s) :
    Far4 t p a s :=
  ⟨fun hc => h.1 (hw.nws_parent_left le_rfl ha hc), h.2.of_parent hw hm ha hs⟩

end Boxtree
