import Verif.Lemmas.Finish

/-! The tree that the tree builder returns is a well-formed tree. -/

namespace Boxtree.Build

theorem boxInfo_isTarget (both hasCh : Bool) (count sc tc sn tn : Nat) :
    hasFlag (boxInfo both hasCh count sc tc sn tn).1 flagIsTarget
      = decide (0 < (boxInfo both hasCh count sc tc sn tn).2.2) := by
  unfold boxInfo
  cases hasCh <;> cases both <;> simp only [Bool.false_eq_true, if_true, if_false]
  · generalize count - sc = q
    by_cases h1 : sc = 0 <;> by_cases h2 : q = 0 <;>
      simp only [h1, h2, Nat.pos_iff_ne_zero, hasFlag, flagIsSource, flagIsTarget, ne_eq,
        not_true_eq_false, not_false_eq_true, if_true, if_false] <;> rfl
  · by_cases h1 : count = 0 <;>
      simp [h1, Nat.pos_iff_ne_zero, hasFlag, flagIsSource, flagIsTarget]
  · cases differ sc sn <;> cases differ tc tn <;> by_cases h1 : sn = 0 <;> by_cases h2 : tn = 0 <;>
      simp [h1, h2, Nat.pos_iff_ne_zero, hasFlag, flagIsSource, flagIsTarget, flagHasSourceChild,
        flagHasTargetChild]
  · cases differ count (sn + tn) <;> by_cases h1 : sn = 0 <;> by_cases h2 : tn = 0 <;>
      simp [h1, h2, Nat.pos_iff_ne_zero, hasFlag, flagIsSource, flagIsTarget, flagHasSourceChild,
        flagHasTargetChild]

theorem boxInfo_sourceChild (both hasCh : Bool) (count sc tc sn tn : Nat) :
    hasFlag (boxInfo both hasCh count sc tc sn tn).1 flagHasSourceChild = hasCh := by
  unfold boxInfo
  cases hasCh <;> cases both <;> simp only [Bool.false_eq_true, if_true, if_false]
  · generalize count - sc = q
    by_cases h1 : sc = 0 <;> by_cases h2 : q = 0 <;>
      simp only [h1, h2, hasFlag, flagIsSource, flagIsTarget, flagHasSourceChild, ne_eq,
        not_true_eq_false, not_false_eq_true, if_true, if_false] <;> rfl
  · by_cases h1 : count = 0 <;>
      simp [h1, hasFlag, flagIsSource, flagIsTarget, flagHasSourceChild]
  · cases differ sc sn <;> cases differ tc tn <;> by_cases h1 : sn = 0 <;> by_cases h2 : tn = 0 <;>
      simp [h1, h2, hasFlag, flagIsSource, flagIsTarget, flagHasSourceChild, flagHasTargetChild]
  · cases differ count (sn + tn) <;> by_cases h1 : sn = 0 <;> by_cases h2 : tn = 0 <;>
      simp [h1, h2, hasFlag, flagIsSource, flagIsTarget, flagHasSourceChild, flagHasTargetChild]

theorem boxInfo_targetChild (both hasCh : Bool) (count sc tc sn tn : Nat) :
    hasFlag (boxInfo both hasCh count sc tc sn tn).1 flagHasTargetChild = hasCh := by
  unfold boxInfo
  cases hasCh <;> cases both <;> simp only [Bool.false_eq_true, if_true, if_false]
  · generalize count - sc = q
    by_cases h1 : sc = 0 <;> by_cases h2 : q = 0 <;>
      simp only [h1, h2, hasFlag, flagIsSource, flagIsTarget, flagHasTargetChild, ne_eq,
        not_true_eq_false, not_false_eq_true, if_true, if_false] <;> rfl
  · by_cases h1 : count = 0 <;>
      simp [h1, hasFlag, flagIsSource, flagIsTarget, flagHasTargetChild]
  · cases differ sc sn <;> cases differ tc tn <;> by_cases h1 : sn = 0 <;> by_cases h2 : tn = 0 <;>
      simp [h1, h2, hasFlag, flagIsSource, flagIsTarget, flagHasSourceChild, flagHasTargetChild]
  · cases differ count (sn + tn) <;> by_cases h1 : sn = 0 <;> by_cases h2 : tn = 0 <;>
      simp [h1, h2, hasFlag, flagIsSource, flagIsTarget, flagHasSourceChild, flagHasTargetChild]

/-! ### Levels -/

theorem count_eq_zero {p : Nat → Prop} [DecidablePred p] {n : Nat} (h : ∀ i < n, ¬ p i) :
    Nat.count p n = 0 := by
  rw [count_congr (q := fun _ => False) fun i hi => ⟨h i hi, False.elim⟩]
  induction n with
  | zero => rfl
  | succ n ih => rw [Nat.count_succ, ih fun i hi => h i (by omega)]; simp

theorem levelRun_eq {level : Nat → Nat} {n : Nat} (hm : ∀ b b', b' < n → b ≤ b' → level b ≤ level b') :
    ∀ b, b < n → levelRun level b = Nat.count (fun b' => level b' = level b) (b + 1) := by
  intro b
  induction b with
  | zero => intro _; simp [levelRun, Nat.count_succ]
  | succ b ih =>
    intro hb
    unfold levelRun
    rw [Nat.count_succ, if_pos rfl]
    by_cases h : level (b + 1) = level b
    · rw [if_neg (by simpa using h), ih (by omega), h]
    · rw [if_pos h, count_eq_zero]
      intro i hi hc
      have h1 := hm i b (by omega) (by omega)
      have h2 := hm b (b + 1) hb (by omega)
      omega

theorem levelCounts_eq {F : Flat} (hm : ∀ b b', b' < F.nboxes → b ≤ b' → F.level b ≤ F.level b')
    (used : Nat → Nat) {l b0 : Nat} (hb0 : b0 < F.nboxes) (hl : F.level b0 = l) :
    levelCounts used F l = Nat.count (fun b => F.level b = l) F.nboxes := by
  -- the last box of the level
  have hlast : ∃ b < F.nboxes, F.level b = l ∧ (b + 1 = F.nboxes ∨ F.level b ≠ F.level (b + 1)) := by
    by_contra hc
    push Not at hc
    have : ∀ d, b0 + d < F.nboxes → F.level (b0 + d) = l := by
      intro d
      induction d with
      | zero => intro _; exact hl
      | succ d ih =>
        intro hd
        have h1 := ih (by omega)
        have h2 := (hc (b0 + d) (by omega) h1).2
        show F.level (b0 + d + 1) = l
        rw [← h2, h1]
    have h1 := this (F.nboxes - 1 - b0) (by omega)
    rw [show b0 + (F.nboxes - 1 - b0) = F.nboxes - 1 by omega] at h1
    exact (hc (F.nboxes - 1) (by omega) h1).1 (by omega)
  obtain ⟨b, hb, hbl, hend⟩ := hlast
  have hgt : ∀ j, b < j → j < F.nboxes → l < F.level j := by
    intro j h1 h2
    have h3 := hm (b + 1) j h2 (by omega)
    have h4 := hm b (b + 1) (by omega) (by omega)
    rcases hend with h5 | h5 <;> omega
  unfold levelCounts
  rw [find?_range_unique hb (by simpa using ⟨hbl, hend⟩)]
  · simp only
    rw [levelRun_eq hm b hb, hbl]
    have : ∀ d, b + 1 + d ≤ F.nboxes → Nat.count (fun b' => F.level b' = l) (b + 1 + d)
        = Nat.count (fun b' => F.level b' = l) (b + 1) := by
      intro d
      induction d with
      | zero => intro _; rfl
      | succ d ih =>
        intro hd
        have h1 := hgt (b + 1 + d) (by omega) (by omega)
        rw [← Nat.add_assoc, Nat.count_succ, ih (by omega), if_neg (by omega)]
        omega
    rw [← this (F.nboxes - (b + 1)) (by omega),
      show b + 1 + (F.nboxes - (b + 1)) = F.nboxes by omega]
  · intro j hj hp
    simp only [decide_eq_true_eq] at hp
    have h1 := hgt j
    rcases Nat.lt_trichotomy j b with h2 | h2 | h2
    · have h3 := hm (j + 1) b hb (by omega)
      have h4 := hm j (j + 1) (by omega) (by omega)
      rcases hp.2 with h5 | h5 <;> omega
    · exact h2
    · have := h1 h2 hj; omega

theorem count_lt_succ (level : Nat → Nat) (n l : Nat) :
    Nat.count (fun b => level b < l + 1) n
      = Nat.count (fun b => level b < l) n + Nat.count (fun b => level b = l) n := by
  induction n with
  | zero => rfl
  | succ n ih =>
    rw [Nat.count_succ, Nat.count_succ, Nat.count_succ, ih]
    rcases Nat.lt_trichotomy (level n) l with h | h | h
    · rw [if_pos (by omega), if_pos h, if_neg (by omega)]; omega
    · rw [if_pos (by omega), if_neg (by omega), if_pos h]; omega
    · rw [if_neg (by omega), if_neg (by omega), if_neg (by omega)]; omega

section
variable {P : Params} {L : Nat} {F : Flat}

/-- Above a box there are boxes on every level. -/
theorem FlatOK.exists_level (h : FlatOK P L F) {b l : Nat} (hb : b < F.nboxes)
    (hl : l ≤ F.level b) : ∃ b' < F.nboxes, F.level b' = l :=
  ⟨F.parent^[F.level b - l] b, h.iterate_lt hb _, by
    rw [h.iterate_level hb _ (by omega)]; omega⟩

/-- The start of a level is the number of boxes above it. -/
theorem FlatOK.levelStart_eq (h : FlatOK P L F) (used : Nat → Nat) {l : Nat}
    (hall : ∀ l' < l, ∃ b < F.nboxes, F.level b = l') :
    levelStart (levelCounts used F) l = Nat.count (fun b => F.level b < l) F.nboxes := by
  induction l with
  | zero => rw [count_eq_zero (by intro i _; omega)]; rfl
  | succ l ih =>
    obtain ⟨b, hb, hbl⟩ := hall l (by omega)
    rw [levelStart_succ, ih fun l' hl' => hall l' (by omega), levelCounts_eq h.level_mono used hb hbl,
      count_lt_succ]

theorem count_all {p : Nat → Prop} [DecidablePred p] {n : Nat} (h : ∀ i < n, p i) :
    Nat.count p n = n := by
  rw [count_congr (q := fun _ => True) fun i hi => ⟨fun _ => trivial, fun _ => h i hi⟩, count_true]

theorem FlatOK.count_le (h : FlatOK P L F) {b l : Nat} (hb : b < F.nboxes) :
    Nat.count (fun b => F.level b < l) F.nboxes ≤ b ↔ l ≤ F.level b := by
  constructor
  · intro hc
    by_contra hlt
    have h1 : Nat.count (fun b => F.level b < l) (b + 1) = b + 1 :=
      count_all fun i hi => by have := h.level_mono i b hb (by omega); omega
    have h2 := count_mono (kind := fun b => F.level b < l) (show b + 1 ≤ F.nboxes by omega)
    omega
  · intro hc
    have h1 : ∀ d, b + d ≤ F.nboxes → Nat.count (fun b => F.level b < l) (b + d)
        = Nat.count (fun b => F.level b < l) b := by
      intro d
      induction d with
      | zero => intro _; rfl
      | succ d ih =>
        intro hd
        have := h.level_mono b (b + d) (by omega) (by omega)
        rw [← Nat.add_assoc, Nat.count_succ, ih (by omega), if_neg (by omega)]
        omega
    have h2 := h1 (F.nboxes - b) (by omega)
    rw [show b + (F.nboxes - b) = F.nboxes by omega] at h2
    have h3 := Nat.count_le (p := fun b => F.level b < l) (n := b)
    omega

/-- Boxes of a level are where the level starts say. -/
theorem FlatOK.mem_level (h : FlatOK P L F) (used : Nat → Nat) {b : Nat} (hb : b < F.nboxes)
    (l : Nat) :
    (levelStart (levelCounts used F) l ≤ b ∧ b < levelStart (levelCounts used F) (l + 1))
      ↔ F.level b = l := by
  have key : ∀ l ≤ F.level b + 1, levelStart (levelCounts used F) l
      = Nat.count (fun b => F.level b < l) F.nboxes := fun l hl =>
    h.levelStart_eq used fun l' hl' => h.exists_level hb (by omega)
  have hup : b < levelStart (levelCounts used F) (F.level b + 1) := by
    rw [key _ (le_refl _)]
    have := h.count_le (l := F.level b + 1) hb
    omega
  rcases Nat.lt_trichotomy l (F.level b) with h1 | h1 | h1
  · have h2 := key (l + 1) (by omega)
    have h3 := (h.count_le (l := l + 1) hb).2 (by omega)
    omega
  · subst h1
    have h3 := (h.count_le (l := F.level b) hb).2 (le_refl _)
    rw [← key _ (by omega)] at h3
    simp [h3, hup]
  · have h2 := levelStart_mono (levelCounts used F) (show F.level b + 1 ≤ l by omega)
    omega

end

section
variable {P : Params} {C : Cloud} {skip : Bool} {len : Nat → Nat} {L : Nat} {s : State}

theorem finish_wf (h : FinOK P skip len L s) (hpos : 0 < P.rootExtent) :
    (finish P C skip len L s).tree.WF := by
  have hF := h.flatOK
  exact
  { ext_pos := hpos
    nboxes_pos := hF.pos
    level_root := hF.level_root
    parent_root := hF.parent_root
    parent_lt := hF.parent_lt
    level_parent := hF.level_parent
    level_lt := hF.level_lt
    child_lt := fun m _ b hb => hF.child_lt m b hb
    child_parent := fun m _ b hb h0 => (hF.child_parent m b hb h0).1
    child_inj := fun m _ m' _ b hb h0 he => hF.child_inj m m' b hb h0 he
    parent_child := hF.parent_child
    center_child := by
      intro m _ b hb h0 i _
      have := hF.center_child m b hb h0 i
      unfold radius at this
      rw [Nat.add_comm 1] at this
      exact this }

theorem finish_levels (h : FinOK P skip len L s) : (finish P C skip len L s).tree.LevelsOK where
  start_le := fun _ hb => ((h.flatOK.mem_level s.used hb _).2 rfl).1
  lt_start := fun _ hb _ hl _ =>
    Nat.lt_of_lt_of_le ((h.flatOK.mem_level s.used hb _).2 rfl).2 (levelStart_mono _ hl)

theorem finish_isSource (b : Nat) : (finish P C skip len L s).tree.isSource b
    = decide (0 < (finish P C skip len L s).particles.srcCount b) := boxInfo_isSource _ _ _ _ _ _ _

theorem finish_isTarget (b : Nat) : (finish P C skip len L s).tree.isTarget b
    = decide (0 < (finish P C skip len L s).particles.tgtCount b) := boxInfo_isTarget _ _ _ _ _ _ _

theorem finish_sourceChild (b : Nat) : (finish P C skip len L s).tree.hasSourceChild b
    = (FinOK.fin P skip len L s).hasCh b := boxInfo_sourceChild _ _ _ _ _ _ _

theorem finish_targetChild (b : Nat) : (finish P C skip len L s).tree.hasTargetChild b
    = (FinOK.fin P skip len L s).hasCh b := boxInfo_targetChild _ _ _ _ _ _ _

theorem finish_flags (h : FinOK P skip len L s) : (finish P C skip len L s).tree.FlagsOK where
  src := fun b hb h0 _ => by rw [finish_sourceChild]; exact h.flatOK.hasCh_parent hb h0
  tgt := fun b hb h0 _ => by rw [finish_targetChild]; exact h.flatOK.hasCh_parent hb h0

theorem fin_count_pos (h : FinOK P false len L s) {b : Nat}
    (hb : b < (FinOK.fin P false len L s).nboxes) : 0 < (FinOK.fin P false len L s).count b := by
  obtain ⟨l, k, hk, rfl⟩ := h.exists_nid hb
  rw [h.fin_count hk]
  rcases hk.2 with h1 | h1
  · cases h1
  · omega

theorem ranges_of_kind {kind : Nat → Prop} [DecidablePred kind] {st non cu : Nat → Nat}
    (h : FinOK P false len L s) (hK : KindOK (FinOK.fin P false len L s) kind st non cu) :
    RangesOK (finish P C false len L s).tree (Nat.count kind P.n) st non cu where
  within := fun _ hb => hK.within h.flatOK hb (fin_count_pos h hb)
  count_le := fun _ hb => hK.non_le h.flatOK hb
  child := fun _ hb h0 => hK.range h.flatOK hb h0 (fin_count_pos h hb)
  exhaustive := fun _ hb _ h1 h2 => hK.exhaustive h.flatOK hb h1 h2
  disjoint := fun _ hb _ hb' _ h1 h2 => hK.disjoint h.flatOK hb hb' h1.1 h1.2 h2.1 h2.2

/-- User numbers of sources. -/
theorem userIds_eq {i : Nat} (hi : i < P.n) (hk : C.kind s.ids true i) :
    (finish P C skip len L s).particles.userSourceIds (Nat.count (C.kind s.ids true) i) = s.ids i := by
  show (if C.sourcesAreTargets then s.ids else userSourceIds P.n C.nsources s.ids) _ = _
  cases hb : C.sourcesAreTargets with
  | true => rw [C.kind_both hb]; rfl
  | false =>
    rw [C.kind_sep hb]
    exact userSourceIds_eq hi (isKind_true.1 (by
      rcases hk with h1 | h1
      · rw [hb] at h1; cases h1
      · exact h1))

theorem targetIds_eq {i : Nat} (hi : i < P.n)
    (hk : C.kind s.ids false i) :
    (if C.sourcesAreTargets then s.ids else srcntgtTargetIds P.n C.nsources s.ids)
      (Nat.count (C.kind s.ids false) i) = s.ids i := by
  cases hb : C.sourcesAreTargets with
  | true => rw [C.kind_both hb]; rfl
  | false =>
    rw [C.kind_sep hb]
    exact srcntgtTargetIds_eq hi (isKind_false.1 (by
      rcases hk with h1 | h1
      · rw [hb] at h1; cases h1
      · exact h1))

/-- Number of the first target in the list of all particles. -/
def Cloud.firstTarget (C : Cloud) : Nat := if C.sourcesAreTargets then 0 else C.nsources

theorem sortedIds_eq (h : FinOK P skip len L s) {i : Nat} (hi : i < P.n)
    (hk : C.kind s.ids false i) :
    C.firstTarget ≤ s.ids i ∧
    (finish P C skip len L s).particles.sortedTargetIds (s.ids i - C.firstTarget)
      = Nat.count (C.kind s.ids false) i := by
  unfold Cloud.firstTarget
  show _ ∧ (if C.sourcesAreTargets then reverseIds P.n s.ids
    else sortedTargetIds P.n C.nsources s.ids) _ = _
  cases hb : C.sourcesAreTargets with
  | true =>
    rw [C.kind_both hb]
    exact ⟨Nat.zero_le _, reverseIds_eq h.inv.ids_inj hi⟩
  | false =>
    rw [C.kind_sep hb]
    have h2 := isKind_false.1 (by
      rcases hk with h1 | h1
      · rw [hb] at h1; cases h1
      · exact h1)
    exact ⟨Nat.not_lt.1 h2, sortedTargetIds_eq h.inv.ids_inj hi h2⟩

/-- Every user target is a particle of the list. -/
theorem exists_target (h : FinOK P skip len L s)
    (hns : C.sourcesAreTargets = false → C.nsources ≤ P.n) {j : Nat}
    (hj : j < (finish P C skip len L s).particles.ntargets) :
    ∃ i < P.n, C.kind s.ids false i ∧ s.ids i = C.firstTarget + j := by
  have hj' : j < (if C.sourcesAreTargets then P.n else P.n - C.nsources) := hj
  unfold Cloud.firstTarget
  cases hb : C.sourcesAreTargets with
  | true =>
    rw [hb] at hj'
    obtain ⟨i, hi, he⟩ := perm_surj h.inv.ids_lt h.inv.ids_inj (x := j) hj'
    exact ⟨i, hi, .inl hb, by rw [he]; simp⟩
  | false =>
    rw [hb] at hj'
    have := hns hb
    obtain ⟨i, hi, he⟩ := perm_surj h.inv.ids_lt h.inv.ids_inj (x := C.nsources + j)
      (by simp at hj'; omega)
    exact ⟨i, hi, .inr (isKind_false.2 (by omega)), by rw [he]; simp⟩

theorem finish_particles (h : FinOK P skip len L s)
    (hns : C.sourcesAreTargets = false → C.nsources ≤ P.n) :
    (finish P C skip len L s).particles.toParticles.OK (finish P C skip len L s).tree := by
  have hS := srcKind (C := C) h
  have hT := tgtKind (C := C) h
  have hF := h.flatOK
  have es := nsources_eq (C := C) h hns
  have et := ntargets_eq (C := C) h hns
  exact
  { src_le := by
      intro b hb hi
      rw [finish_isSource, decide_eq_true_eq] at hi
      have h1 := hS.within hF hb (hS.non_pos_count hb hi)
      have h2 := hS.non_le hF hb
      rw [es]; omega
    src_cover := by
      intro j hj
      rw [es] at hj
      obtain ⟨b, hb, h1, h2⟩ := hS.cover hF hj
      exact ⟨b, hb, by rw [finish_isSource, decide_eq_true_eq]; omega, h1, h2⟩
    src_disjoint := fun b hb _ b' hb' _ j h1 h2 h3 h4 => hS.disjoint hF hb hb' h1 h2 h3 h4
    tgt_cover := by
      intro j hj
      rw [et] at hj
      obtain ⟨b, hb, h1, h2⟩ := hT.cover hF hj
      exact ⟨b, hb, by rw [finish_isTarget, decide_eq_true_eq]; omega, h1, h2⟩
    tgt_disjoint := fun b hb _ b' hb' _ j h1 h2 h3 h4 => hT.disjoint hF hb hb' h1 h2 h3 h4
    user_lt := by
      intro j hj
      rw [es] at hj
      obtain ⟨i, hi, hk, rfl⟩ := exists_of_lt_count hj
      rw [userIds_eq hi hk]
      rcases hk with h1 | h1
      · show s.ids i < if C.sourcesAreTargets then P.n else C.nsources
        rw [h1]; exact h.inv.ids_lt i hi
      · show s.ids i < if C.sourcesAreTargets then P.n else C.nsources
        split
        · exact h.inv.ids_lt i hi
        · exact isKind_true.1 h1
    user_inj := by
      intro a ha b hb he
      rw [es] at ha hb
      obtain ⟨i, hi, hk, rfl⟩ := exists_of_lt_count ha
      obtain ⟨j, hj, hk', rfl⟩ := exists_of_lt_count hb
      rw [userIds_eq hi hk, userIds_eq hj hk'] at he
      rw [h.inv.ids_inj i hi j hj he]
    sorted_lt := by
      intro j hj
      obtain ⟨i, hi, hk, he⟩ := exists_target h hns hj
      have h1 := (sortedIds_eq h hi hk).2
      rw [he, Nat.add_sub_cancel_left] at h1
      rw [h1, et, count_lt_iff hk]
      exact hi }

end
end Boxtree.Build
