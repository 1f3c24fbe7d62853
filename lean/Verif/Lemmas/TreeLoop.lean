import Verif.Lemmas.TreeSplit

/-! The invariant holds whenever the level loop ends. -/

namespace Boxtree.Build

open CountSort

section
variable {P : Params} {level : Nat} {s : State}

theorem pathOK_congr {par par' : Nat → Nat → Nat} {used : Nat → Nat} {p : Nat}
    (hp : ∀ l k, k < used (l + 1) → par' (l + 1) k = par (l + 1) k ∧ par (l + 1) k < used l) :
    ∀ l k, k < used l → (PathOK P par' p l k ↔ PathOK P par p l k) := by
  intro l
  induction l with
  | zero => intro k _; rfl
  | succ l ih =>
    intro k hk
    obtain ⟨h1, h2⟩ := hp l k hk
    unfold PathOK
    rw [h1, ih _ h2]

namespace Pre

theorem path_old (h : Pre P level s) {l k p : Nat} (hk : k < s.used l) :
    PathOK P (after P level s).parent p l k ↔ PathOK P s.parent p l k :=
  pathOK_congr (used := s.used)
    (fun l k hk => ⟨h.parent_old hk, (h.inv.parent_ok l k hk).1⟩) l k hk

theorem newBox_hasCh (h : Pre P level s) {l k m : Nat} :
    (after P level s).hasCh (l + 1) (newBase P level s l k + m) = false := by
  have hb := used_le_newBase (P := P) (level := level) (s := s) l k
  rw [hasCh_old (fun hc => by omega)]
  by_contra hne
  have := h.inv.hasCh_used _ _ (by simpa using hne)
  omega

theorem hasCh_iff (h : Pre P level s) (l k : Nat) : (after P level s).hasCh l k = true ↔
    s.hasCh l k = true ∨ (k < s.used l ∧ want P level s l k = true) := by
  rw [hasCh_eq]
  simp only [Bool.or_eq_true, Bool.and_eq_true, decide_eq_true_eq]
  constructor
  · rintro (h1 | ⟨⟨_, h1⟩, h2⟩)
    · exact Or.inl h1
    · exact Or.inr ⟨h1, h2⟩
  · rintro (h1 | ⟨h1, h2⟩)
    · exact Or.inl h1
    · exact Or.inr ⟨⟨h.inv.used_level h1, h1⟩, h2⟩

theorem flag_after (h : Pre P level s) {j : Nat} (hj : j < P.n) :
    (j = 0 ∨ (after P level s).flag j = true) ↔
      (after P level s).start ((after P level s).box j).1 ((after P level s).box j).2 = j := by
  obtain ⟨hb1, hb2, hb3⟩ := (h.part_after hj _ _).1
    (show (after P level s).box j
      = (((after P level s).box j).1, ((after P level s).box j).2) from rfl)
  constructor
  · rintro (h0 | h0)
    · omega
    · rw [h.flag_eq] at h0
      rcases h0 with h0 | ⟨l, k, m, h1, h2, h3, h4, h5⟩
      · have hs := (h.inv.flag_iff j hj).1 (Or.inr h0)
        obtain ⟨h1, h2, h3⟩ := h.inv.box_used hj
        generalize hbx : s.box j = bx at *
        obtain ⟨l, k⟩ := bx
        simp only at hs h1 h2 h3
        by_cases hW : want P level s l k = true
        · obtain ⟨i, hi, ht⟩ := h.target_surj hj
          have hbi : s.box i = (l, k) := by rw [← (h.target_box hi).2, ht, hbx]
          have hbj : (after P level s).box j = newBox P level (markSplit P level s) i := by
            rw [← ht, h.box_target hi]
          cases hm : mortonNr P s i with
          | none =>
            rw [h.newBox_none hbi h1 hW hm] at hbj
            rw [hbj]
            exact (h.start_old h1).trans hs
          | some m =>
            rw [h.newBox_some hbi h1 hW hm] at hbj
            have hmm : m < P.nch := h.mort _ _ _ hm
            rw [hbj] at hb2 hb3 ⊢
            simp only at hb2 hb3 ⊢
            rw [h.own_new h1 hW hmm] at hb3
            have hp : 0 < (s.bins l k).pcnt m := by omega
            rw [h.start_new h1 hW hmm hp] at hb2 ⊢
            have := (h.childStart_below m h1 hW).1
            omega
        · have := h.box_of_range (l := l) (k := k) hj (lt_of_lt_of_le h1 (h.used_le l))
            (by rw [h.start_old h1]; omega) (by rw [h.start_old h1, h.own_old h1 hW]; omega)
          rw [this]
          exact (h.start_old h1).trans hs
      · have hst := h.start_new h1 h2 h3 h4
        have := h.box_of_range (l := l + 1) (k := newBase P level s l k + m) hj
          (lt_of_lt_of_le (by omega) (h.newBase_le h1 h2))
          (by rw [hst]; omega) (by rw [hst, h.own_new h1 h2 h3]; omega)
        rw [this]
        exact hst.trans h5
  · intro hs
    generalize hbx : (after P level s).box j = bx at *
    obtain ⟨l, k⟩ := bx
    simp only at hs hb1 hb2 hb3
    by_cases hold : k < s.used l
    · rw [h.start_old hold] at hs
      have hbj : s.box j = (l, k) := by
        rw [h.inv.part j hj]
        refine ⟨hold, by omega, ?_⟩
        rw [h.start_old hold] at hb3
        by_cases hW : want P level s l k = true
        · rw [h.own_want hold hW] at hb3
          rw [h.own_leaf hold hW]
          have := below_le (boxKey P s l k) (s.count l k) 1
          omega
        · rw [h.own_old hold hW] at hb3
          exact hb3
      rcases (h.inv.flag_iff j hj).2 (by rw [hbj]; exact hs) with h0 | h0
      · exact Or.inl h0
      · exact Or.inr ((h.flag_eq j).2 (Or.inl h0))
    · right
      rw [h.flag_eq]
      right
      cases l with
      | zero => rw [used_zero] at hb1; rw [h.inv.used_zero] at hold; omega
      | succ l =>
        obtain ⟨k', m, h3, h4, h5, rfl⟩ := h.new_box (by omega) hb1
        rw [h.own_new h3 h4 h5] at hb3
        have hp : 0 < (s.bins l k').pcnt m := by omega
        rw [h.start_new h3 h4 h5 hp] at hs
        exact ⟨l, k', m, h3, h4, h5, hp, hs⟩

/-- One trip adds a level. -/
theorem after_inv (h : Pre P level s) : Inv P (level + 1) (after P level s) where
  ids_lt := by
    intro j hj
    obtain ⟨i, hi, rfl⟩ := h.target_surj hj
    rw [h.ids_target hi]; exact h.inv.ids_lt i hi
  ids_inj := by
    intro j hj j' hj' he
    obtain ⟨i, hi, rfl⟩ := h.target_surj hj
    obtain ⟨i', hi', rfl⟩ := h.target_surj hj'
    rw [h.ids_target hi, h.ids_target hi'] at he
    rw [h.inv.ids_inj i hi i' hi' he]
  used_zero := used_zero
  used_deep := by
    intro l hl
    change newUsed P level (markSplit P level s) l = 0
    unfold newUsed
    rw [if_neg (by omega), if_neg (by omega)]
  used_dvd := by
    intro l
    rw [h.used_succ]; exact h.newBase_dvd l _
  root_start := h.inv.root_start
  root_count := h.inv.root_count
  root_center := h.inv.root_center
  root_stored := h.inv.root_stored
  hasCh_used := by
    intro l k hc
    rw [h.hasCh_iff] at hc
    rcases hc with hc | ⟨hk, hW⟩
    · have := h.inv.hasCh_used l k hc
      exact ⟨lt_of_lt_of_le this.1 (h.used_le l), by omega⟩
    · exact ⟨lt_of_lt_of_le hk (h.used_le l), by have := h.inv.used_level hk; omega⟩
  unused_count := by
    intro l k hk
    rw [h.count_old (Or.inr hk)]
    exact h.inv.unused_count l k (le_trans (h.used_le l) hk)
  empty_bins := by
    intro l k hc
    change s.bins l k = _
    by_cases hk : k < s.used l
    · rw [h.count_old (Or.inl hk)] at hc
      exact h.inv.empty_bins l k hc
    · exact h.inv.empty_bins l k (h.inv.unused_count l k (by omega))
  children := by
    intro l k hc
    rw [h.hasCh_iff] at hc
    rcases hc with hc | ⟨hk, hW⟩
    · obtain ⟨h1, base, h2, h3, h4⟩ := h.inv.children l k hc
      have hk := (h.inv.hasCh_used l k hc).1
      refine ⟨?_, base, h2, le_trans h3 (h.used_le _), ?_⟩
      · rw [h.count_old (Or.inl hk)]; exact h1
      · intro m hm
        obtain ⟨a1, a2, a3, a4, a5, a6⟩ := h4 m hm
        have hu : base + m < s.used (l + 1) := by omega
        have hW : ¬ (k < s.used l ∧ want P level s l k = true) := by
          rintro ⟨_, hW⟩
          have := (h.want_leaf hk hW).2
          rw [hc] at this
          cases this
        refine ⟨?_, ?_, ?_, ?_, ?_, ?_⟩
        · rw [h.child_old (Or.inl hW)]; exact a1
        · rw [h.parent_old hu]; exact a2
        · rw [h.count_old (Or.inl hu)]; exact a3
        · intro hp
          rw [h.start_old hu]
          unfold childStart
          rw [h.start_old hk]
          exact a4 hp
        · intro a
          rw [h.center_old hu, a5 a]
          unfold childCenter
          rw [h.center_old hk]
        · intro a
          rw [h.stored_old hu, a6 a]
          unfold childStored
          rw [h.stored_old hk]
    · have hfull := h.full l k hk (h.want_leaf hk hW).2
      refine ⟨?_, newBase P level s l k, h.newBase_dvd l k, h.newBase_le hk hW, ?_⟩
      · rw [h.count_old (Or.inl hk)]; exact hfull.total h.mort
      · intro m hm
        refine ⟨h.child_want hk hW hm, h.parent_new hk hW hm, h.count_new hk hW hm, ?_, ?_, ?_⟩
        · intro hp
          rw [h.start_new hk hW hm hp]
          unfold childStart
          rw [h.start_old hk]
          rfl
        · intro a
          rw [h.center_new hk hW hm]
          unfold childCenter
          rw [h.center_old hk]
        · intro a
          rw [h.stored_new hk hW hm]
          unfold childStored
          rw [h.stored_old hk]
  child_some := by
    intro m l k hc
    rcases hc with hc | hc
    · have h1 : ¬ (k < s.used l ∧ want P level s l k = true) := by
        intro hw
        have := (h.hasCh_iff l k).2 (Or.inr hw)
        rw [hc] at this
        cases this
      rw [h.child_old (Or.inl h1)]
      exact h.inv.child_some m l k (Or.inl (by rw [← hasCh_old (P := P) (level := level) h1]; exact hc))
    · rw [h.child_old (Or.inr hc)]
      exact h.inv.child_some m l k (Or.inr hc)
  parent_ok := by
    intro l k hk
    by_cases hold : k < s.used (l + 1)
    · obtain ⟨h1, h2, h3⟩ := h.inv.parent_ok l k hold
      rw [h.parent_old hold]
      refine ⟨lt_of_lt_of_le h1 (h.used_le l), (h.hasCh_iff _ _).2 (Or.inl h2), ?_⟩
      rw [h.child_old (Or.inl ?_)]
      · exact h3
      · rintro ⟨_, hW⟩
        have := (h.want_leaf h1 hW).2
        rw [h2] at this
        cases this
    · obtain ⟨k', m, h3, h4, h5, rfl⟩ := h.new_box (by omega) hk
      rw [h.parent_new h3 h4 h5, h.newBase_mod h5]
      exact ⟨lt_of_lt_of_le h3 (h.used_le l), h.hasCh_want h3 h4, h.child_want h3 h4 h5⟩
  part := fun j hj l k => h.part_after hj l k
  flag_iff := fun j hj => h.flag_after hj
  path := by
    intro j hj
    obtain ⟨i, hi, rfl⟩ := h.target_surj hj
    rw [h.ids_target hi, h.box_target hi]
    have hu := (h.inv.box_used hi).1
    have hpath := h.inv.path i hi
    by_cases hW : want P level s (s.box i).1 (s.box i).2 = true
    · generalize hbx : s.box i = bx at *
      obtain ⟨l, k⟩ := bx
      simp only at hu hpath hW
      cases hm : mortonNr P s i with
      | none =>
        rw [h.newBox_none hbx hu hW hm]
        exact (h.path_old hu).2 hpath
      | some m =>
        rw [h.newBox_some hbx hu hW hm]
        have hmm : m < P.nch := h.mort _ _ _ hm
        have hmor : P.mort (s.ids i) l = some m := by
          unfold mortonNr at hm; rw [hbx] at hm; exact hm
        unfold PathOK
        rw [h.newBase_mod hmm, h.parent_new hu hW hmm]
        exact ⟨hmor, (h.path_old hu).2 hpath⟩
    · rw [h.newBox_stay hW]
      exact (h.path_old hu).2 hpath
  stay := by
    intro j hj hc
    obtain ⟨i, hi, rfl⟩ := h.target_surj hj
    unfold mortonNr
    rw [h.ids_target hi]
    rw [h.box_target hi] at hc ⊢
    have hu := (h.inv.box_used hi).1
    by_cases hW : want P level s (s.box i).1 (s.box i).2 = true
    · generalize hbx : s.box i = bx at *
      obtain ⟨l, k⟩ := bx
      simp only at hu hW
      cases hm : mortonNr P s i with
      | none =>
        rw [h.newBox_none hbx hu hW hm]
        unfold mortonNr at hm
        rw [hbx] at hm
        exact hm
      | some m =>
        rw [h.newBox_some hbx hu hW hm] at hc
        simp only at hc
        rw [h.newBox_hasCh] at hc
        cases hc
    · rw [h.newBox_stay hW] at hc ⊢
      rw [hasCh_old (fun hh => hW hh.2)] at hc
      exact h.inv.stay i hi hc

end Pre

theorem init_inv (P : Params) : Inv P 1 (init P) where
  ids_lt := fun i hi => hi
  ids_inj := fun i _ j _ h => h
  used_zero := rfl
  used_deep := by
    intro l hl
    change (if l = 0 then 1 else 0) = 0
    rw [if_neg (by omega)]
  used_dvd := by intro l; exact Nat.dvd_zero _
  root_start := rfl
  root_count := rfl
  root_center := fun _ => rfl
  root_stored := fun _ => rfl
  hasCh_used := by intro l k h; cases h
  unused_count := by
    intro l k hk
    change (if l = 0 ∧ k = 0 then P.n else 0) = 0
    rw [if_neg]
    rintro ⟨rfl, rfl⟩
    change 1 ≤ 0 at hk
    omega
  empty_bins := fun _ _ _ => rfl
  children := by intro l k h; cases h
  child_some := fun _ _ _ _ => rfl
  parent_ok := by
    intro l k hk
    exact absurd hk (Nat.not_lt_zero _)
  part := by
    intro i hi l k
    change (0, 0) = (l, k) ↔ k < (if l = 0 then 1 else 0) ∧ 0 ≤ i ∧
      i < 0 + (if l = 0 ∧ k = 0 then P.n else 0)
    constructor
    · intro h
      obtain ⟨rfl, rfl⟩ := Prod.mk.inj h
      simpa using hi
    · rintro ⟨h1, _, _⟩
      split at h1
      · rename_i hl
        rw [hl, show k = 0 from by omega]
      · omega
  flag_iff := by
    intro i _
    change (i = 0 ∨ false = true) ↔ 0 = i
    simp [eq_comm]
  path := fun _ _ => trivial
  stay := by intro i _ h; cases h

/-! ### The loop -/

theorem Inv.congr (h : Inv P level s) (f : Nat → Nat → Bool) (o : Bool) :
    Inv P level { s with force := f, oversize := o } := { h with }

theorem upward_sub {t : BoxTree} : ∀ (u : Nat) (f : Nat → Nat → Bool) (l k : Nat),
    upward P t s u f l k = true →
      f l k = true ∨ (1 ≤ l ∧ l ≤ u ∧ k < s.used l ∧ s.hasCh l k = false) := by
  have step : ∀ (u : Nat) (f : Nat → Nat → Bool) (l k : Nat),
      restrictLevel P t s f u l k = true →
        f l k = true ∨ (l = u ∧ k < s.used l ∧ s.hasCh l k = false) := by
    intro u f l k h
    unfold restrictLevel at h
    split at h
    · rename_i hl
      subst hl
      simp only [Bool.or_eq_true, Bool.and_eq_true, decide_eq_true_eq, Bool.not_eq_true'] at h
      rcases h with h | h
      · exact Or.inl h
      · exact Or.inr ⟨rfl, h.1.1, h.1.2⟩
    · exact Or.inl h
  intro u
  induction u with
  | zero => intro f l k h; exact Or.inl h
  | succ u ih =>
    intro f l k h
    unfold upward at h
    simp only at h
    split at h
    · rcases ih _ l k h with h | h
      · rcases step _ _ _ _ h with h | h
        · exact Or.inl h
        · exact Or.inr ⟨by omega, by omega, h.2⟩
      · exact Or.inr ⟨h.1, by omega, h.2.2⟩
    · rcases step _ _ _ _ h with h | h
      · exact Or.inl h
      · exact Or.inr ⟨by omega, by omega, h.2⟩

theorem restrict_force (level : Nat) (s : State) : ForceOK (level + 1) (restrict P level s) := by
  intro l k h
  rcases upward_sub _ _ l k h with h | h
  · cases h
  · exact ⟨h.2.2.1, by omega, h.2.2.2⟩

/-- Every box that is marked as having children has children. -/
def Linked (P : Params) (s : State) : Prop :=
  ∀ l k, s.hasCh l k = true → ∃ m < P.nch, s.child m l k ≠ none

theorem Inv.linked (h : Inv P level s) : Linked P s := by
  intro l k hc
  obtain ⟨_, base, _, _, h3⟩ := h.children l k hc
  exact ⟨0, nch_pos P, by rw [(h3 0 (nch_pos P)).1]; simp⟩

theorem Inv.mono (h : Inv P (level + 1) s) (h0 : s.used level = 0) : Inv P level s :=
  { h with
    used_deep := by
      intro l hl'
      rcases Nat.eq_or_lt_of_le hl' with rfl | hlt
      · exact h0
      · exact h.used_deep l hlt
    hasCh_used := by
      intro l k hc
      obtain ⟨h1, h2⟩ := h.hasCh_used l k hc
      refine ⟨h1, ?_⟩
      rcases Nat.lt_or_ge (l + 1) level with h3 | h3
      · exact h3
      · exfalso
        obtain ⟨_, base, _, h4, _⟩ := h.children l k hc
        rw [show l + 1 = level from by omega, h0] at h4
        have := nch_pos P
        omega }

/-- If nothing is split, nothing changes. -/
theorem Pre.mark_inv (h : Pre P level s) (hW : ∀ l k, k < s.used l → want P level s l k = false) :
    Inv P level (markSplit P level s) := by
  have hh : (fun l k => s.hasCh l k ||
      (decide (l < level) && decide (k < s.used l) && want P level s l k)) = s.hasCh := by
    funext l k
    by_cases hk : k < s.used l
    · simp [hW l k hk]
    · simp [hk]
  unfold markSplit
  rw [hh]
  exact h.inv.congr s.force _

theorem loop_inv (hM : P.MortOK) : ∀ (fuel level : Nat) (final : Bool) (s : State) (L : Nat)
    (r : State), 1 ≤ level → Inv P level s → ForceOK level s →
    (P.levelRestrict = false → ∀ l k, s.force l k = false) →
    loop P fuel level final s = .ok (L, r) → Inv P (L + 1) r ∨ (P.levelRestrict = true ∧
      P.haveExtent = true ∧ ¬ Linked P r ∧
      ∃ h o, Inv P (L + 1) { r with hasCh := h, oversize := o } ∧
        ∀ l k, h l k = true → r.hasCh l k = true) := by
  intro fuel
  induction fuel with
  | zero => intro level final s L r _ _ _ _ h; cases h
  | succ fuel ih =>
    intro level final s L r hlev hI hF hLR h
    have hpre : Pre P level (writeBins P s) :=
      ⟨(hI.writeBins hM).1, (hI.writeBins hM).2, hF, hM⟩
    have hafter := hpre.after_inv
    unfold loop at h
    split at h
    · cases h
    simp only at h
    split at h
    · rename_i hnew
      split at h
      · -- no new boxes
        rename_i hext
        have h' := Except.ok.inj h
        obtain ⟨rfl, rfl⟩ := Prod.mk.inj h'
        rw [show level - 1 + 1 = level from by omega]
        by_cases hlink : P.levelRestrict = true ∧ ¬ Linked P (markSplit P level (writeBins P s))
        · exact .inr ⟨hlink.1, hext, hlink.2, (writeBins P s).hasCh, (writeBins P s).oversize,
            hpre.inv, fun l k h => by
              show ((writeBins P s).hasCh l k || _) = true
              rw [h, Bool.true_or]⟩
        left
        apply hpre.mark_inv
        intro l k hk
        by_contra hW
        rw [Bool.not_eq_false] at hW
        obtain ⟨hl, hleaf⟩ := hpre.want_leaf hk hW
        cases hr : P.levelRestrict with
        | false =>
          have hf : (writeBins P s).force l k = false := hLR hr l k
          have hl1 : l + 1 = level := by
            by_contra hne
            unfold want at hW
            rw [hf] at hW
            simp [hne] at hW
          have h0 := hnew.1
          have e : newUsed P level (markSplit P level (writeBins P s)) level
              = newUsed P level (writeBins P s) level := rfl
          rw [e] at h0
          unfold newUsed at h0
          rw [if_neg (by omega), if_pos (le_refl _), ← hl1, Nat.add_sub_cancel] at h0
          have hcnt : Nat.count (fun k => want P (l + 1) (writeBins P s) l k = true)
              ((writeBins P s).used l) = 0 := by
            have := nch_pos P
            rcases Nat.eq_zero_or_pos (Nat.count (fun k => want P (l + 1) (writeBins P s) l k = true)
              ((writeBins P s).used l)) with hz | hz
            · exact hz
            · have := Nat.mul_pos (nch_pos P) hz
              omega
          have hmono := Nat.count_monotone (fun k => want P (l + 1) (writeBins P s) l k = true)
            (show k + 1 ≤ (writeBins P s).used l from hk)
          rw [Nat.count_succ, if_pos (by rw [hl1]; exact hW)] at hmono
          omega
        | true =>
        rw [not_and, not_not] at hlink
        obtain ⟨m, _, hm⟩ := hlink hr l k
          (show (markSplit P level (writeBins P s)).hasCh l k = true by
            unfold markSplit; simp [hk, hl, hW])
        exact hm (hpre.inv.child_some m l k (Or.inl hleaf))
      · cases h
    · rename_i hnew
      split at h
      · rename_i hfin
        split at h
        · cases h
        · rename_i hnot
          have h' := Except.ok.inj h
          obtain ⟨rfl, rfl⟩ := Prod.mk.inj h'
          rw [show level - 1 + 1 = level from by omega]
          rw [not_or, not_not] at hnot
          exact .inl (hafter.mono hnot.2)
      · rename_i hfin
        by_cases hr : P.levelRestrict = true
        · rw [if_pos hr] at h
          have hI2 : Inv P (level + 1) (restrict P level (after P level (writeBins P s))) :=
            hafter.congr _ _
          have hF2 : ForceOK (level + 1) (restrict P level (after P level (writeBins P s))) :=
            restrict_force level _
          split at h
          · split at h
            · exact ih _ _ _ _ _ (by omega) hI2 hF2 (by simp [hr]) h
            · have h' := Except.ok.inj h
              obtain ⟨rfl, rfl⟩ := Prod.mk.inj h'
              exact .inl hI2
          · exact ih _ _ _ _ _ (by omega) (hI2.congr _ false) hF2 (by simp [hr]) h
        · have hr' : P.levelRestrict = false := by simpa using hr
          have hf0 := hLR hr'
          have hF2 : ForceOK (level + 1) (after P level (writeBins P s)) := by
            intro l k hf
            have : s.force l k = true := hf
            rw [hf0] at this
            cases this
          rw [if_neg hr] at h
          split at h
          · split at h
            · rename_i hc; exact absurd hc.1 hr
            · have h' := Except.ok.inj h
              obtain ⟨rfl, rfl⟩ := Prod.mk.inj h'
              exact .inl hafter
          · exact ih _ _ _ _ _ (by omega) (hafter.congr _ false) hF2 (fun _ => hf0) h

/-- Whenever the level loop ends, the state is a tree; with level restriction and extents it is one
up to marks of boxes as having children. -/
theorem buildLevels_cases (hM : P.MortOK) {L : Nat} {r : State}
    (h : buildLevels P = .ok (L, r)) : Inv P (L + 1) r ∨ (P.levelRestrict = true ∧
      P.haveExtent = true ∧ ¬ Linked P r ∧
      ∃ h o, Inv P (L + 1) { r with hasCh := h, oversize := o } ∧
        ∀ l k, h l k = true → r.hasCh l k = true) := by
  unfold buildLevels at h
  split at h
  · exact loop_inv hM _ _ _ _ _ _ (le_refl 1) (init_inv P) (by intro l k h; cases h)
      (fun _ _ _ => rfl) h
  · have h' := Except.ok.inj h
    obtain ⟨rfl, rfl⟩ := Prod.mk.inj h'
    exact .inl (init_inv P)

theorem buildLevels_inv (hM : P.MortOK) {L : Nat} {r : State} (h : buildLevels P = .ok (L, r))
    (hlink : P.levelRestrict = true → P.haveExtent = true → Linked P r) : Inv P (L + 1) r := by
  rcases buildLevels_cases hM h with h | h
  · exact h
  · exact absurd (hlink h.1 h.2.1) h.2.2.1

end

end Boxtree.Build
