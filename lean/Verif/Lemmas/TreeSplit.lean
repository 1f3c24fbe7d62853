import Verif.Lemmas.TreeBuild

/-! One trip through the level loop keeps the invariant. -/

namespace Boxtree.Build

open CountSort

theorem exists_count {p : Nat → Prop} [DecidablePred p] {q n : Nat} (h : q < Nat.count p n) :
    ∃ k < n, p k ∧ Nat.count p k = q := by
  induction n with
  | zero => simp at h
  | succ n ih =>
    by_cases hq : q < Nat.count p n
    · obtain ⟨k, h1, h2⟩ := ih hq
      exact ⟨k, by omega, h2⟩
    · rw [Nat.count_succ] at h
      split at h
      · exact ⟨n, by omega, by assumption, by omega⟩
      · omega

/-- What one trip starts from. -/
structure Pre (P : Params) (level : Nat) (s : State) : Prop where
  inv : Inv P level s
  full : Full P s
  force : ForceOK level s
  mort : P.MortOK

section
variable {P : Params} {level : Nat} {s : State}

/-- First of the children that a box gets. -/
def newBase (P : Params) (level : Nat) (s : State) (l k : Nat) : Nat :=
  s.used (l + 1) + P.nch * Nat.count (fun k' => want P level s l k' = true) k

/-- State after a trip. -/
abbrev after (P : Params) (level : Nat) (s : State) : State :=
  splitStep P level (markSplit P level s)

namespace Pre

theorem want_leaf (h : Pre P level s) {l k : Nat} (hk : k < s.used l)
    (hW : want P level s l k = true) : l < level ∧ s.hasCh l k = false := by
  refine ⟨h.inv.used_level hk, ?_⟩
  by_contra hc
  have h1 := h.inv.hasCh_used l k (by simpa using hc)
  unfold want at hW
  simp only [Bool.or_eq_true, Bool.and_eq_true, decide_eq_true_eq] at hW
  rcases hW with hW | hW
  · omega
  · exact hc (h.force l k hW.2).2.2

theorem doSplit_iff (h : Pre P level s) (l k : Nat) :
    doSplit P level (markSplit P level s) l k = true ↔ k < s.used l ∧ want P level s l k = true := by
  unfold doSplit markSplit
  simp only [Bool.or_eq_true, Bool.and_eq_true, decide_eq_true_eq]
  constructor
  · rintro (⟨h1 | h1, h2⟩ | ⟨h1, h2⟩)
    · have := h.inv.hasCh_used l k h1; omega
    · exact ⟨h1.1.2, h1.2⟩
    · refine ⟨(h.force l k h2).1, ?_⟩
      unfold want
      simp [h1, h2]
  · rintro ⟨h1, h2⟩
    have h3 := h2
    unfold want at h3
    simp only [Bool.or_eq_true, Bool.and_eq_true, decide_eq_true_eq] at h3
    rcases h3 with h3 | h3
    · exact Or.inl ⟨Or.inr ⟨⟨by omega, h1⟩, h2⟩, h3.1⟩
    · exact Or.inr h3

theorem doSplit_eq (h : Pre P level s) (l k : Nat) :
    doSplit P level (markSplit P level s) l k = decide (k < s.used l ∧ want P level s l k = true) := by
  rw [Bool.eq_iff_iff, h.doSplit_iff]; simp

theorem firstChild_eq {l k : Nat} (hW : want P level s l k = true) :
    firstChild P level (markSplit P level s) l k = newBase P level s l k := by
  change s.used (l + 1) + P.nch * Nat.count (fun k' => want P level s l k' = true) (k + 1) - P.nch
    = s.used (l + 1) + P.nch * Nat.count (fun k' => want P level s l k' = true) k
  rw [Nat.count_succ, if_pos hW, Nat.mul_add]
  omega

theorem newBase_lt {l k k' : Nat} (hW : want P level s l k = true) (hk : k < k') :
    newBase P level s l k + P.nch ≤ newBase P level s l k' := by
  unfold newBase
  have : Nat.count (fun k' => want P level s l k' = true) k + 1
      ≤ Nat.count (fun k' => want P level s l k' = true) k' :=
    Nat.count_strict_mono (p := fun k' => want P level s l k' = true) hW hk
  have := Nat.mul_le_mul_left P.nch this
  rw [Nat.mul_add] at this
  omega

theorem used_succ (h : Pre P level s) (l : Nat) :
    (after P level s).used (l + 1) = newBase P level s l (s.used l) := by
  change newUsed P level (markSplit P level s) (l + 1) = _
  unfold newUsed newBase
  simp only [Nat.add_sub_cancel]
  by_cases hl : l + 1 ≤ level
  · rw [if_neg (by omega), if_pos hl]; rfl
  · rw [if_neg (by omega), if_neg hl, h.inv.used_deep l (by omega),
      h.inv.used_deep (l + 1) (by omega)]
    simp

theorem newBase_le (h : Pre P level s) {l k : Nat} (hk : k < s.used l)
    (hW : want P level s l k = true) :
    newBase P level s l k + P.nch ≤ (after P level s).used (l + 1) := by
  rw [h.used_succ]; exact newBase_lt hW hk

theorem used_zero : (after P level s).used 0 = 1 := rfl

theorem used_le (h : Pre P level s) (l : Nat) : s.used l ≤ (after P level s).used l := by
  cases l with
  | zero => rw [used_zero, h.inv.used_zero]
  | succ l => rw [h.used_succ]; unfold newBase; omega

theorem used_le_newBase (l k : Nat) : s.used (l + 1) ≤ newBase P level s l k := by
  unfold newBase; omega

theorem newBase_dvd (h : Pre P level s) (l k : Nat) : P.nch ∣ newBase P level s l k :=
  Nat.dvd_add (h.inv.used_dvd l) (Nat.dvd_mul_right _ _)

theorem newBase_mod (h : Pre P level s) {l k m : Nat} (hm : m < P.nch) :
    (newBase P level s l k + m) % P.nch = m := by
  obtain ⟨q, hq⟩ := h.newBase_dvd l k
  rw [hq, Nat.mul_add_mod, Nat.mod_eq_of_lt hm]

theorem writer_iff (h : Pre P level s) (l k c : Nat) :
    (doSplit P level (markSplit P level s) l k &&
      decide (firstChild P level (markSplit P level s) l k ≤ c) &&
      decide (c < firstChild P level (markSplit P level s) l k + P.nch)) = true ↔
    k < s.used l ∧ want P level s l k = true ∧ newBase P level s l k ≤ c ∧
      c < newBase P level s l k + P.nch := by
  simp only [Bool.and_eq_true, decide_eq_true_eq, h.doSplit_iff]
  constructor
  · rintro ⟨⟨⟨h1, h2⟩, h3⟩, h4⟩
    rw [firstChild_eq h2] at h3 h4
    exact ⟨h1, h2, h3, h4⟩
  · rintro ⟨h1, h2, h3, h4⟩
    rw [firstChild_eq h2]
    exact ⟨⟨⟨h1, h2⟩, h3⟩, h4⟩

theorem writer_new (h : Pre P level s) {l k m : Nat} (hk : k < s.used l)
    (hW : want P level s l k = true) (hm : m < P.nch) :
    writer P level (markSplit P level s) l (newBase P level s l k + m) = some k := by
  apply find?_range_unique hk
  · rw [h.writer_iff]; exact ⟨hk, hW, by omega, by omega⟩
  · intro j _ hj
    rw [h.writer_iff] at hj
    rcases lt_trichotomy j k with hlt | heq | hgt
    · have := newBase_lt hj.2.1 hlt; omega
    · exact heq
    · have := newBase_lt hW hgt; omega

theorem writer_none (h : Pre P level s) {l c : Nat}
    (hc : c < s.used (l + 1) ∨ (after P level s).used (l + 1) ≤ c) :
    writer P level (markSplit P level s) l c = none := by
  apply find?_range_none
  intro j _
  by_contra hj
  rw [Bool.not_eq_false, h.writer_iff] at hj
  have h1 := h.newBase_le hj.1 hj.2.1
  have h2 := used_le_newBase (P := P) (level := level) (s := s) l j
  omega

theorem new_box (h : Pre P level s) {l c : Nat} (h1 : s.used (l + 1) ≤ c)
    (h2 : c < (after P level s).used (l + 1)) :
    ∃ k m, k < s.used l ∧ want P level s l k = true ∧ m < P.nch ∧
      c = newBase P level s l k + m := by
  rw [h.used_succ] at h2
  unfold newBase at h2
  have hp := nch_pos P
  have hq : (c - s.used (l + 1)) / P.nch
      < Nat.count (fun k' => want P level s l k' = true) (s.used l) := by
    rw [Nat.div_lt_iff_lt_mul hp, Nat.mul_comm]; omega
  obtain ⟨k, h3, h4, h5⟩ := exists_count hq
  refine ⟨k, (c - s.used (l + 1)) % P.nch, h3, h4, Nat.mod_lt _ hp, ?_⟩
  unfold newBase
  rw [h5]
  have := Nat.div_add_mod (c - s.used (l + 1)) P.nch
  omega

/-! The arrays after the trip. -/

theorem parent_new (h : Pre P level s) {l k m : Nat} (hk : k < s.used l)
    (hW : want P level s l k = true) (hm : m < P.nch) :
    (after P level s).parent (l + 1) (newBase P level s l k + m) = k := by
  change (if l + 1 = 0 then s.parent (l + 1) (newBase P level s l k + m) else
    match writer P level (markSplit P level s) (l + 1 - 1) (newBase P level s l k + m) with
      | some k => k
      | none => s.parent (l + 1) (newBase P level s l k + m)) = _
  rw [Nat.add_sub_cancel, h.writer_new hk hW hm]
  simp

theorem parent_old (h : Pre P level s) {l c : Nat} (hc : c < s.used l) :
    (after P level s).parent l c = s.parent l c := by
  cases l with
  | zero => rfl
  | succ l =>
    change (if l + 1 = 0 then s.parent (l + 1) c else
      match writer P level (markSplit P level s) (l + 1 - 1) c with
        | some k => k
        | none => s.parent (l + 1) c) = _
    rw [Nat.add_sub_cancel, h.writer_none (Or.inl hc)]
    simp

theorem count_new (h : Pre P level s) {l k m : Nat} (hk : k < s.used l)
    (hW : want P level s l k = true) (hm : m < P.nch) :
    (after P level s).count (l + 1) (newBase P level s l k + m) = (s.bins l k).pcnt m := by
  change (if l + 1 = 0 then s.count (l + 1) (newBase P level s l k + m) else
    match writer P level (markSplit P level s) (l + 1 - 1) (newBase P level s l k + m) with
      | some k' => (s.bins (l + 1 - 1) k').pcnt
          (newBase P level s l k + m - firstChild P level (markSplit P level s) (l + 1 - 1) k')
      | none => s.count (l + 1) (newBase P level s l k + m)) = _
  rw [Nat.add_sub_cancel, h.writer_new hk hW hm]
  simp only [if_neg (Nat.succ_ne_zero l)]
  rw [firstChild_eq hW, Nat.add_sub_cancel_left]

theorem count_old (h : Pre P level s) {l c : Nat}
    (hc : c < s.used l ∨ (after P level s).used l ≤ c) :
    (after P level s).count l c = s.count l c := by
  cases l with
  | zero => rfl
  | succ l =>
    change (if l + 1 = 0 then s.count (l + 1) c else
      match writer P level (markSplit P level s) (l + 1 - 1) c with
        | some k' => (s.bins (l + 1 - 1) k').pcnt
            (c - firstChild P level (markSplit P level s) (l + 1 - 1) k')
        | none => s.count (l + 1) c) = _
    rw [Nat.add_sub_cancel, h.writer_none hc]
    simp

theorem start_new (h : Pre P level s) {l k m : Nat} (hk : k < s.used l)
    (hW : want P level s l k = true) (hm : m < P.nch) (hp : 0 < (s.bins l k).pcnt m) :
    (after P level s).start (l + 1) (newBase P level s l k + m) = childStart s l k m := by
  change (if l + 1 = 0 then s.start (l + 1) (newBase P level s l k + m) else
    match writer P level (markSplit P level s) (l + 1 - 1) (newBase P level s l k + m) with
      | some k' => if 0 < (s.bins (l + 1 - 1) k').pcnt
          (newBase P level s l k + m - firstChild P level (markSplit P level s) (l + 1 - 1) k') then
          childStart s (l + 1 - 1) k'
          (newBase P level s l k + m - firstChild P level (markSplit P level s) (l + 1 - 1) k')
          else s.start (l + 1) (newBase P level s l k + m)
      | none => s.start (l + 1) (newBase P level s l k + m)) = _
  rw [Nat.add_sub_cancel, h.writer_new hk hW hm]
  simp only [if_neg (Nat.succ_ne_zero l)]
  rw [firstChild_eq hW, Nat.add_sub_cancel_left, if_pos hp]

theorem start_old (h : Pre P level s) {l c : Nat} (hc : c < s.used l) :
    (after P level s).start l c = s.start l c := by
  cases l with
  | zero => rfl
  | succ l =>
    change (if l + 1 = 0 then s.start (l + 1) c else
      match writer P level (markSplit P level s) (l + 1 - 1) c with
      | some k' => if 0 < (s.bins (l + 1 - 1) k').pcnt
          (c - firstChild P level (markSplit P level s) (l + 1 - 1) k') then
          childStart s (l + 1 - 1) k'
          (c - firstChild P level (markSplit P level s) (l + 1 - 1) k')
          else s.start (l + 1) c
      | none => s.start (l + 1) c) = _
    rw [Nat.add_sub_cancel, h.writer_none (Or.inl hc)]
    simp

theorem center_new (h : Pre P level s) {l k m : Nat} (hk : k < s.used l)
    (hW : want P level s l k = true) (hm : m < P.nch) (a : Nat) :
    (after P level s).center (l + 1) (newBase P level s l k + m) a
      = childCenter P l (s.center l k) m a := by
  change (if l + 1 = 0 then s.center (l + 1) (newBase P level s l k + m) a else
    match writer P level (markSplit P level s) (l + 1 - 1) (newBase P level s l k + m) with
      | some k' =>
        if (newBase P level s l k + m - firstChild P level (markSplit P level s) (l + 1 - 1) k')
          / 2 ^ (P.dims - 1 - a) % 2 = 1 then
          s.center (l + 1 - 1) k' a + P.rootExtent / 2 ^ (1 + (l + 1))
        else s.center (l + 1 - 1) k' a - P.rootExtent / 2 ^ (1 + (l + 1))
      | none => s.center (l + 1) (newBase P level s l k + m) a) = _
  rw [Nat.add_sub_cancel, h.writer_new hk hW hm]
  simp only [if_neg (Nat.succ_ne_zero l)]
  rw [firstChild_eq hW, Nat.add_sub_cancel_left]
  rfl

theorem center_old (h : Pre P level s) {l c : Nat} (hc : c < s.used l) (a : Nat) :
    (after P level s).center l c a = s.center l c a := by
  cases l with
  | zero => rfl
  | succ l =>
    change (if l + 1 = 0 then s.center (l + 1) c a else
      match writer P level (markSplit P level s) (l + 1 - 1) c with
      | some k' =>
        if (c - firstChild P level (markSplit P level s) (l + 1 - 1) k')
          / 2 ^ (P.dims - 1 - a) % 2 = 1 then
          s.center (l + 1 - 1) k' a + P.rootExtent / 2 ^ (1 + (l + 1))
        else s.center (l + 1 - 1) k' a - P.rootExtent / 2 ^ (1 + (l + 1))
      | none => s.center (l + 1) c a) = _
    rw [Nat.add_sub_cancel, h.writer_none (Or.inl hc)]
    simp

theorem stored_new (h : Pre P level s) {l k m : Nat} (hk : k < s.used l)
    (hW : want P level s l k = true) (hm : m < P.nch) (a : Nat) :
    (after P level s).stored (l + 1) (newBase P level s l k + m) a
      = childStored P l (s.stored l k) m a := by
  change (if l + 1 = 0 then s.stored (l + 1) (newBase P level s l k + m) a else
    match writer P level (markSplit P level s) (l + 1 - 1) (newBase P level s l k + m) with
      | some k' =>
        if (newBase P level s l k + m - firstChild P level (markSplit P level s) (l + 1 - 1) k')
          / 2 ^ (P.dims - 1 - a) % 2 = 1 then
          P.fl (s.stored (l + 1 - 1) k' a + P.fl (P.rootExtent / 2 ^ (1 + (l + 1))))
        else P.fl (s.stored (l + 1 - 1) k' a - P.fl (P.rootExtent / 2 ^ (1 + (l + 1))))
      | none => s.stored (l + 1) (newBase P level s l k + m) a) = _
  rw [Nat.add_sub_cancel, h.writer_new hk hW hm]
  simp only [if_neg (Nat.succ_ne_zero l)]
  rw [firstChild_eq hW, Nat.add_sub_cancel_left]
  rfl

theorem stored_old (h : Pre P level s) {l c : Nat} (hc : c < s.used l) (a : Nat) :
    (after P level s).stored l c a = s.stored l c a := by
  cases l with
  | zero => rfl
  | succ l =>
    change (if l + 1 = 0 then s.stored (l + 1) c a else
      match writer P level (markSplit P level s) (l + 1 - 1) c with
      | some k' =>
        if (c - firstChild P level (markSplit P level s) (l + 1 - 1) k')
          / 2 ^ (P.dims - 1 - a) % 2 = 1 then
          P.fl (s.stored (l + 1 - 1) k' a + P.fl (P.rootExtent / 2 ^ (1 + (l + 1))))
        else P.fl (s.stored (l + 1 - 1) k' a - P.fl (P.rootExtent / 2 ^ (1 + (l + 1))))
      | none => s.stored (l + 1) c a) = _
    rw [Nat.add_sub_cancel, h.writer_none (Or.inl hc)]
    simp

theorem hasCh_eq (l k : Nat) : (after P level s).hasCh l k
    = (s.hasCh l k || (decide (l < level) && decide (k < s.used l) && want P level s l k)) := rfl

theorem hasCh_want (h : Pre P level s) {l k : Nat} (hk : k < s.used l)
    (hW : want P level s l k = true) : (after P level s).hasCh l k = true := by
  rw [hasCh_eq]; simp [hk, hW, h.inv.used_level hk]

theorem hasCh_old {l k : Nat} (hW : ¬ (k < s.used l ∧ want P level s l k = true)) :
    (after P level s).hasCh l k = s.hasCh l k := by
  rw [hasCh_eq]
  rw [not_and] at hW
  by_cases hk : k < s.used l
  · simp [hW hk]
  · simp [hk]

theorem child_want (h : Pre P level s) {l k m : Nat} (hk : k < s.used l)
    (hW : want P level s l k = true) (hm : m < P.nch) :
    (after P level s).child m l k = some (newBase P level s l k + m) := by
  change (if l < level ∧ k < s.used l ∧ m < P.nch ∧
      doSplit P level (markSplit P level s) l k = true then
    some (firstChild P level (markSplit P level s) l k + m) else _) = _
  rw [if_pos ⟨h.inv.used_level hk, hk, hm, (h.doSplit_iff l k).2 ⟨hk, hW⟩⟩, firstChild_eq hW]

theorem child_old (h : Pre P level s) {l k m : Nat}
    (hW : ¬ (k < s.used l ∧ want P level s l k = true) ∨ P.nch ≤ m) :
    (after P level s).child m l k = s.child m l k := by
  change (if l < level ∧ k < s.used l ∧ m < P.nch ∧
      doSplit P level (markSplit P level s) l k = true then
    some (firstChild P level (markSplit P level s) l k + m) else s.child m l k) = _
  rw [if_neg]
  rw [h.doSplit_iff]
  rintro ⟨_, _, h1, h2⟩
  rcases hW with hW | hW
  · exact hW h2
  · omega

theorem flag_eq (h : Pre P level s) (i : Nat) : (after P level s).flag i = true ↔
    s.flag i = true ∨ ∃ l k m, k < s.used l ∧ want P level s l k = true ∧ m < P.nch ∧
      0 < (s.bins l k).pcnt m ∧ childStart s l k m = i := by
  change (s.flag i || (List.range level).any fun l => (List.range (s.used l)).any fun k =>
      doSplit P level (markSplit P level s) l k && (List.range P.nch).any fun m =>
        decide (0 < (s.bins l k).pcnt m) && decide (childStart s l k m = i)) = true ↔ _
  simp only [Bool.or_eq_true, List.any_eq_true, List.mem_range, Bool.and_eq_true,
    decide_eq_true_eq, h.doSplit_iff]
  constructor
  · rintro (h1 | ⟨l, _, k, _, ⟨h3, h4⟩, m, h5, h6, h7⟩)
    · exact Or.inl h1
    · exact Or.inr ⟨l, k, m, h3, h4, h5, h6, h7⟩
  · rintro (h1 | ⟨l, k, m, h3, h4, h5, h6, h7⟩)
    · exact Or.inl h1
    · exact Or.inr ⟨l, h.inv.used_level h3, k, h3, ⟨h3, h4⟩, m, h5, h6, h7⟩

/-! Where the particles go. -/

theorem scanItem_mark (i : Nat) : scanItem P (markSplit P level s) i = scanItem P s i := by
  induction i with
  | zero => rfl
  | succ i ih => unfold scanItem; rw [ih]; rfl

theorem own_leaf (h : Pre P level s) {l k : Nat} (hk : k < s.used l)
    (hW : want P level s l k = true) : own s l k = s.count l k := by
  unfold own; simp [(h.want_leaf hk hW).2]

/-- The particles of a split box are sorted. -/
theorem target_want (h : Pre P level s) {l k a : Nat} (hk : k < s.used l)
    (hW : want P level s l k = true) (ha : a < s.count l k) :
    target P level (markSplit P level s) (s.start l k + a)
      = s.start l k + pos (boxKey P s l k) (s.count l k) a := by
  have hown := h.own_leaf hk hW
  obtain ⟨h1, h2⟩ := h.inv.own_mem (i := a) hk (by omega)
  have hsc := h.inv.scan hk a (by omega)
  have hfull := h.full l k hk (h.want_leaf hk hW).2
  unfold target
  have hb : (markSplit P level s).box (s.start l k + a) = (l, k) := h2
  simp only [hb, (h.doSplit_iff l k).2 ⟨hk, hW⟩, if_true]
  have hm : mortonNr P (markSplit P level s) (s.start l k + a)
      = P.mort (s.ids (s.start l k + a)) l := by
    unfold mortonNr; rw [hb]; rfl
  rw [hm, scanItem_mark]
  change s.start l k + _ - 1 + _ + _ = _
  cases hc : P.mort (s.ids (s.start l k + a)) l with
  | none =>
    have hkey : boxKey P s l k a = 0 := keyOf_zero.2 hc
    simp only [getCount, pos, hkey, below_zero, hsc.nonchild, Nat.count_succ]
    simp
  | some m =>
    have hkey : boxKey P s l k a = m + 1 := keyOf_succ.2 hc
    simp only [getCount, pos, hkey, hsc.pcnt, Nat.count_succ]
    simp only [if_true]
    have := hfull.below (m := m)
    change _ + (s.bins l k).nonchild + ((List.range m).map (s.bins l k).pcnt).sum = _
    omega

theorem target_other (h : Pre P level s) {i : Nat} (_hi : i < P.n)
    (hW : ¬ want P level s (s.box i).1 (s.box i).2 = true) :
    target P level (markSplit P level s) i = i := by
  unfold target
  have : doSplit P level (markSplit P level s) (s.box i).1 (s.box i).2 = false := by
    rw [h.doSplit_eq]; simp [hW]
  change (if doSplit P level (markSplit P level s) (s.box i).1 (s.box i).2 = true then _ else i) = _
  rw [this]; simp

/-- A particle moves within its box. -/
theorem target_box (h : Pre P level s) {i : Nat} (hi : i < P.n) :
    target P level (markSplit P level s) i < P.n ∧
    s.box (target P level (markSplit P level s) i) = s.box i := by
  by_cases hW : want P level s (s.box i).1 (s.box i).2 = true
  · obtain ⟨h1, h2, h3⟩ := h.inv.box_used hi
    have hown := h.own_leaf h1 hW
    have ht := h.target_want (a := i - s.start (s.box i).1 (s.box i).2) h1 hW (by omega)
    rw [show s.start (s.box i).1 (s.box i).2 + (i - s.start (s.box i).1 (s.box i).2) = i from by
      omega] at ht
    have hp := pos_lt_C (key := boxKey P s (s.box i).1 (s.box i).2)
      (C := s.count (s.box i).1 (s.box i).2) (i := i - s.start (s.box i).1 (s.box i).2) (by omega)
    rw [ht]
    exact h.inv.own_mem h1 (by omega)
  · rw [h.target_other hi hW]; exact ⟨hi, rfl⟩

theorem target_inj (h : Pre P level s) {i j : Nat} (hi : i < P.n) (hj : j < P.n)
    (he : target P level (markSplit P level s) i = target P level (markSplit P level s) j) :
    i = j := by
  have hb : s.box i = s.box j := by rw [← (h.target_box hi).2, he, (h.target_box hj).2]
  by_cases hW : want P level s (s.box i).1 (s.box i).2 = true
  · obtain ⟨h1, h2, h3⟩ := h.inv.box_used hi
    obtain ⟨_, h5, h6⟩ := h.inv.box_used hj
    rw [← hb] at h5 h6
    have hown := h.own_leaf h1 hW
    have ht := h.target_want (a := i - s.start (s.box i).1 (s.box i).2) h1 hW (by omega)
    have ht' := h.target_want (a := j - s.start (s.box i).1 (s.box i).2) h1 hW (by omega)
    rw [show s.start (s.box i).1 (s.box i).2 + (i - s.start (s.box i).1 (s.box i).2) = i from by
      omega] at ht
    rw [show s.start (s.box i).1 (s.box i).2 + (j - s.start (s.box i).1 (s.box i).2) = j from by
      omega] at ht'
    rw [ht, ht'] at he
    have := pos_inj (key := boxKey P s (s.box i).1 (s.box i).2)
      (C := s.count (s.box i).1 (s.box i).2) (i := i - s.start (s.box i).1 (s.box i).2)
      (j := j - s.start (s.box i).1 (s.box i).2) (by omega) (by omega) (by omega)
    omega
  · rw [h.target_other hi hW, h.target_other hj (hb ▸ hW)] at he
    exact he

theorem mover_target (h : Pre P level s) {i : Nat} (hi : i < P.n) :
    mover P level (markSplit P level s) (target P level (markSplit P level s) i) = some i := by
  apply find?_range_unique hi (by simp)
  intro j hj hp
  exact h.target_inj hj hi (by simpa using hp)

theorem ids_target (h : Pre P level s) {i : Nat} (hi : i < P.n) :
    (after P level s).ids (target P level (markSplit P level s) i) = s.ids i := by
  change (match mover P level (markSplit P level s) (target P level (markSplit P level s) i) with
    | some i => s.ids i
    | none => 0) = _
  rw [h.mover_target hi]

theorem box_target (h : Pre P level s) {i : Nat} (hi : i < P.n) :
    (after P level s).box (target P level (markSplit P level s) i)
      = newBox P level (markSplit P level s) i := by
  change (match mover P level (markSplit P level s) (target P level (markSplit P level s) i) with
    | some i => newBox P level (markSplit P level s) i
    | none => (0, 0)) = _
  rw [h.mover_target hi]

/-- Particles of a split box: the particle that lands `j` places after the start. -/
theorem want_pos (h : Pre P level s) {l k j c : Nat} (hk : k < s.used l)
    (hW : want P level s l k = true)
    (h1 : below (boxKey P s l k) (s.count l k) c ≤ j)
    (h2 : j < below (boxKey P s l k) (s.count l k) (c + 1)) :
    ∃ i, i < P.n ∧ s.box i = (l, k) ∧ keyOf (mortonNr P s i) = c ∧
      target P level (markSplit P level s) i = s.start l k + j := by
  have h3 := below_le (boxKey P s l k) (s.count l k) (c + 1)
  obtain ⟨a, ha, hpos⟩ := pos_surj (key := boxKey P s l k) (C := s.count l k) (j := j) (by omega)
  have hkey := key_of_pos (key := boxKey P s l k) (c := c) ha (by omega) (by omega)
  have hown := h.own_leaf hk hW
  obtain ⟨h4, h5⟩ := h.inv.own_mem (i := a) hk (by omega)
  refine ⟨s.start l k + a, h4, h5, ?_, ?_⟩
  · unfold mortonNr; rw [h5]; exact hkey
  · rw [h.target_want hk hW ha, hpos]

theorem target_surj (h : Pre P level s) {j : Nat} (hj : j < P.n) :
    ∃ i, i < P.n ∧ target P level (markSplit P level s) i = j := by
  by_cases hW : want P level s (s.box j).1 (s.box j).2 = true
  · obtain ⟨h1, h2, h3⟩ := h.inv.box_used hj
    have hown := h.own_leaf h1 hW
    obtain ⟨a, ha, hpos⟩ := pos_surj (key := boxKey P s (s.box j).1 (s.box j).2)
      (C := s.count (s.box j).1 (s.box j).2) (j := j - s.start (s.box j).1 (s.box j).2) (by omega)
    refine ⟨s.start (s.box j).1 (s.box j).2 + a, (h.inv.own_mem h1 (by omega)).1, ?_⟩
    rw [h.target_want h1 hW ha, hpos]
    omega
  · exact ⟨j, hj, h.target_other hj hW⟩

theorem newBox_stay (h : Pre P level s) {i : Nat}
    (hW : ¬ want P level s (s.box i).1 (s.box i).2 = true) :
    newBox P level (markSplit P level s) i = s.box i := by
  have : doSplit P level (markSplit P level s) (s.box i).1 (s.box i).2 = false := by
    rw [h.doSplit_eq]; simp [hW]
  change (if doSplit P level (markSplit P level s) (s.box i).1 (s.box i).2 = true then _
    else ((s.box i).1, (s.box i).2)) = _
  rw [this]; simp

theorem newBox_none (h : Pre P level s) {i l k : Nat} (hb : s.box i = (l, k)) (hk : k < s.used l)
    (hW : want P level s l k = true) (hm : mortonNr P s i = none) :
    newBox P level (markSplit P level s) i = (l, k) := by
  have hb' : (markSplit P level s).box i = (l, k) := hb
  have hm' : mortonNr P (markSplit P level s) i = none := hm
  unfold newBox
  simp only [hb', (h.doSplit_iff l k).2 ⟨hk, hW⟩, if_true, hm']

theorem newBox_some (h : Pre P level s) {i l k m : Nat} (hb : s.box i = (l, k)) (hk : k < s.used l)
    (hW : want P level s l k = true) (hm : mortonNr P s i = some m) :
    newBox P level (markSplit P level s) i = (l + 1, newBase P level s l k + m) := by
  have hb' : (markSplit P level s).box i = (l, k) := hb
  have hm' : mortonNr P (markSplit P level s) i = some m := hm
  unfold newBox
  simp only [hb', (h.doSplit_iff l k).2 ⟨hk, hW⟩, if_true, hm', firstChild_eq hW]

/-! Ranges of the boxes after the trip. -/

theorem own_want (h : Pre P level s) {l k : Nat} (hk : k < s.used l)
    (hW : want P level s l k = true) :
    own (after P level s) l k = below (boxKey P s l k) (s.count l k) 1 := by
  unfold own
  rw [h.hasCh_want hk hW]
  change (s.bins l k).nonchild = _
  rw [(h.full l k hk (h.want_leaf hk hW).2).nonchild, show (1 : Nat) = 0 + 1 from rfl, below_succ,
    below_zero]
  simp

theorem own_old (h : Pre P level s) {l k : Nat} (hk : k < s.used l)
    (hW : ¬ want P level s l k = true) :
    own (after P level s) l k = own s l k := by
  unfold own
  rw [hasCh_old (fun hc => hW hc.2), h.count_old (Or.inl hk)]
  rfl

theorem own_new (h : Pre P level s) {l k m : Nat} (hk : k < s.used l)
    (hW : want P level s l k = true) (hm : m < P.nch) :
    own (after P level s) (l + 1) (newBase P level s l k + m) = (s.bins l k).pcnt m := by
  have hb := used_le_newBase (P := P) (level := level) (s := s) l k
  have hc : (after P level s).hasCh (l + 1) (newBase P level s l k + m) = false := by
    rw [hasCh_old (fun hc => by omega)]
    by_contra hne
    have := h.inv.hasCh_used _ _ (by simpa using hne)
    omega
  unfold own
  rw [hc]
  simp [h.count_new hk hW hm]

theorem childStart_below (h : Pre P level s) {l k : Nat} (m : Nat) (hk : k < s.used l)
    (hW : want P level s l k = true) :
    childStart s l k m = s.start l k + below (boxKey P s l k) (s.count l k) (m + 1) ∧
    (s.bins l k).pcnt m + below (boxKey P s l k) (s.count l k) (m + 1)
      = below (boxKey P s l k) (s.count l k) (m + 1 + 1) := by
  have hfull := h.full l k hk (h.want_leaf hk hW).2
  constructor
  · unfold childStart; rw [Nat.add_assoc, hfull.below]
  · rw [below_succ _ _ (m + 1), hfull.pcnt]; omega

theorem box_of_range (h : Pre P level s) {j l k : Nat} (hj : j < P.n)
    (hk : k < (after P level s).used l) (h1 : (after P level s).start l k ≤ j)
    (h2 : j < (after P level s).start l k + own (after P level s) l k) :
    (after P level s).box j = (l, k) := by
  by_cases hold : k < s.used l
  · rw [h.start_old hold] at h1 h2
    by_cases hW : want P level s l k = true
    · rw [h.own_want hold hW] at h2
      obtain ⟨i, hi, hb, hkey, ht⟩ := h.want_pos (c := 0) (j := j - s.start l k) hold hW
        (by rw [below_zero]; omega) (by simpa using by omega)
      rw [show s.start l k + (j - s.start l k) = j from by omega] at ht
      rw [← ht, h.box_target hi, h.newBox_none hb hold hW (keyOf_zero.1 hkey)]
    · rw [h.own_old hold hW] at h2
      have hb := (h.inv.part j hj l k).2 ⟨hold, h1, h2⟩
      have hW' : ¬ want P level s (s.box j).1 (s.box j).2 = true := by rw [hb]; exact hW
      have ht := h.box_target hj
      rw [h.target_other hj hW', h.newBox_stay hW'] at ht
      rw [ht, hb]
  · cases l with
    | zero => rw [used_zero] at hk; rw [h.inv.used_zero] at hold; omega
    | succ l =>
      obtain ⟨k', m, h3, h4, h5, rfl⟩ := h.new_box (by omega) hk
      rw [h.own_new h3 h4 h5] at h2
      have hp : 0 < (s.bins l k').pcnt m := by omega
      rw [h.start_new h3 h4 h5 hp] at h1 h2
      obtain ⟨h6, h7⟩ := h.childStart_below m h3 h4
      obtain ⟨i, hi, hb, hkey, ht⟩ := h.want_pos (c := m + 1) (j := j - s.start l k') h3 h4
        (by omega) (by omega)
      rw [show s.start l k' + (j - s.start l k') = j from by omega] at ht
      rw [← ht, h.box_target hi, h.newBox_some hb h3 h4 (keyOf_succ.1 hkey)]

theorem range_of_target (h : Pre P level s) {i l k : Nat} (hi : i < P.n)
    (hb : newBox P level (markSplit P level s) i = (l, k)) :
    k < (after P level s).used l ∧
    (after P level s).start l k ≤ target P level (markSplit P level s) i ∧
    target P level (markSplit P level s) i
      < (after P level s).start l k + own (after P level s) l k := by
  obtain ⟨h1, h2, h3⟩ := h.inv.box_used hi
  by_cases hW : want P level s (s.box i).1 (s.box i).2 = true
  · have hown := h.own_leaf h1 hW
    generalize hbx : s.box i = bx at *
    obtain ⟨l0, k0⟩ := bx
    simp only at h1 h2 h3 hW hown
    obtain ⟨a, rfl⟩ : ∃ a, i = s.start l0 k0 + a := ⟨i - s.start l0 k0, by omega⟩
    have ha : a < s.count l0 k0 := by omega
    rw [h.target_want h1 hW ha]
    have hmor : mortonNr P s (s.start l0 k0 + a) = P.mort (s.ids (s.start l0 k0 + a)) l0 := by
      unfold mortonNr; rw [hbx]
    have hp1 := pos_ge (key := boxKey P s l0 k0) (C := s.count l0 k0) a
    have hp2 := pos_lt (key := boxKey P s l0 k0) (C := s.count l0 k0) ha
    cases hm : mortonNr P s (s.start l0 k0 + a) with
    | none =>
      rw [h.newBox_none hbx h1 hW hm] at hb
      obtain ⟨rfl, rfl⟩ := Prod.mk.inj hb
      have hkey : boxKey P s l0 k0 a = 0 := keyOf_zero.2 (hmor ▸ hm)
      rw [hkey] at hp2
      rw [h.start_old h1, h.own_want h1 hW]
      exact ⟨lt_of_lt_of_le h1 (h.used_le l0), by omega, by simpa using hp2⟩
    | some m =>
      have hmm : m < P.nch := h.mort _ _ _ (hmor ▸ hm)
      rw [h.newBox_some hbx h1 hW hm] at hb
      obtain ⟨rfl, rfl⟩ := Prod.mk.inj hb
      have hkey : boxKey P s l0 k0 a = m + 1 := keyOf_succ.2 (hmor ▸ hm)
      rw [hkey] at hp1 hp2
      obtain ⟨h6, h7⟩ := h.childStart_below m h1 hW
      have h8 := h.newBase_le h1 hW
      rw [h.own_new h1 hW hmm, h.start_new h1 hW hmm (by omega)]
      omega
  · rw [h.newBox_stay hW] at hb
    rw [h.target_other hi hW]
    rw [hb] at h1 h2 h3 hW
    simp only at h1 h2 h3 hW
    rw [h.start_old h1, h.own_old h1 hW]
    exact ⟨lt_of_lt_of_le h1 (h.used_le l), h2, h3⟩

theorem part_after (h : Pre P level s) {j : Nat} (hj : j < P.n) (l k : Nat) :
    (after P level s).box j = (l, k) ↔ k < (after P level s).used l ∧
      (after P level s).start l k ≤ j ∧
      j < (after P level s).start l k + own (after P level s) l k := by
  constructor
  · intro hb
    obtain ⟨i, hi, rfl⟩ := h.target_surj hj
    rw [h.box_target hi] at hb
    exact h.range_of_target hi hb
  · rintro ⟨h1, h2, h3⟩
    exact h.box_of_range hj h1 h2 h3

end Pre
end
end Boxtree.Build
