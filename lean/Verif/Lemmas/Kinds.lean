import Verif.Lemmas.FlatOK

/-! Sources and targets of boxes. -/

namespace Boxtree.Build

/-! ### Counting -/

section count
variable {kind : Nat → Prop} [DecidablePred kind]

theorem count_mono {a b : Nat} (h : a ≤ b) : Nat.count kind a ≤ Nat.count kind b :=
  Nat.count_monotone kind h

theorem count_le_iff {i a : Nat} (hk : kind i) : Nat.count kind a ≤ Nat.count kind i ↔ a ≤ i := by
  constructor
  · intro h
    by_contra hc
    have := count_mono (kind := kind) (show i + 1 ≤ a by omega)
    rw [Nat.count_succ, if_pos hk] at this
    omega
  · exact count_mono

theorem count_lt_iff {i a : Nat} (hk : kind i) : Nat.count kind i < Nat.count kind a ↔ i < a := by
  have := count_le_iff (a := a) hk
  omega

theorem count_inj {i j : Nat} (hi : kind i) (hj : kind j)
    (h : Nat.count kind i = Nat.count kind j) : i = j := by
  have h1 := (count_le_iff (a := j) hi).1 (by omega)
  have h2 := (count_le_iff (a := i) hj).1 (by omega)
  omega

theorem exists_of_lt_count {n j : Nat} (h : j < Nat.count kind n) :
    ∃ i < n, kind i ∧ Nat.count kind i = j := by
  induction n with
  | zero => simp at h
  | succ n ih =>
    rcases Nat.lt_or_ge j (Nat.count kind n) with h1 | h1
    · obtain ⟨i, h2, h3⟩ := ih h1
      exact ⟨i, by omega, h3⟩
    · rw [Nat.count_succ] at h
      by_cases hk : kind n
      · rw [if_pos hk] at h
        exact ⟨n, by omega, hk, by omega⟩
      · rw [if_neg hk] at h
        omega

theorem count_true (n : Nat) : Nat.count (fun _ => True) n = n := by
  induction n with
  | zero => rfl
  | succ n ih => rw [Nat.count_succ, ih, if_pos trivial]

end count

/-- Whether the particle at position `j` is a source (`src = true`) or a target. -/
def IsKind (ns : Nat) (ids : Nat → Nat) (src : Bool) (j : Nat) : Prop := decide (ids j < ns) = src

instance (ns : Nat) (ids : Nat → Nat) (src : Bool) : DecidablePred (IsKind ns ids src) :=
  fun j => inferInstanceAs (Decidable (decide (ids j < ns) = src))

theorem isKind_true {ns : Nat} {ids : Nat → Nat} {j : Nat} : IsKind ns ids true j ↔ ids j < ns := by
  simp [IsKind]

theorem isKind_false {ns : Nat} {ids : Nat → Nat} {j : Nat} :
    IsKind ns ids false j ↔ ¬ ids j < ns := by
  simp [IsKind]

theorem sourceNumber_eq (ns : Nat) (ids : Nat → Nat) (i : Nat) :
    sourceNumber ns ids i = Nat.count (IsKind ns ids true) i :=
  count_congr fun _ _ => isKind_true.symm

theorem source_add_target (ns : Nat) (ids : Nat → Nat) (i : Nat) :
    Nat.count (IsKind ns ids true) i + Nat.count (IsKind ns ids false) i = i := by
  induction i with
  | zero => rfl
  | succ i ih =>
    rw [Nat.count_succ, Nat.count_succ]
    by_cases h : ids i < ns
    · rw [if_pos (isKind_true.2 h), if_neg (fun hc => isKind_false.1 hc h)]; omega
    · rw [if_neg (fun hc => h (isKind_true.1 hc)), if_pos (isKind_false.2 h)]; omega

theorem kindNumber_eq (ns : Nat) (ids : Nat → Nat) (src : Bool) (i : Nat) :
    kindNumber ns ids src i = Nat.count (IsKind ns ids src) i := by
  unfold kindNumber
  cases src with
  | true => rw [if_pos rfl, sourceNumber_eq]
  | false =>
    rw [if_neg (by simp), sourceNumber_eq]
    have := source_add_target ns ids i
    omega

theorem kindCount_eq (F : Flat) (ns : Nat) (ids : Nat → Nat) (src : Bool) (i b : Nat) :
    kindCount F ns ids src i b = Nat.count (IsKind ns ids src) (i + 1)
      - Nat.count (IsKind ns ids src) (F.start b) := by
  unfold kindCount
  cases src with
  | true =>
    rw [if_pos rfl, sourceNumber_eq, sourceNumber_eq, Nat.count_succ]
    simp only [isKind_true]
  | false =>
    rw [if_neg (by simp), kindNumber_eq, kindNumber_eq, Nat.count_succ]
    simp only [isKind_false]
    by_cases h : ids i < ns <;> simp [h]

/-! ### Scattering -/

theorem scatter_unique {n i b : Nat} {cells : Nat → List Nat} {value : Nat → Nat → Nat} (hi : i < n)
    (hb : b ∈ cells i) (hu : ∀ j < n, b ∈ cells j → j = i) : scatter n cells value b = value i b := by
  unfold scatter
  rw [find?_range_unique hi (by simpa using hb) (by intro j hj h; exact hu j hj (by simpa using h))]

theorem scatter_none {n b : Nat} {cells : Nat → List Nat} {value : Nat → Nat → Nat}
    (hu : ∀ j < n, b ∉ cells j) : scatter n cells value b = 0 := by
  unfold scatter
  rw [find?_range_none (by intro j hj; simpa using hu j hj)]

/-! ### Climbing -/

namespace FlatOK
variable {P : Params} {L : Nat} {F : Flat}

theorem mem_climb (h : FlatOK P L F) (cond : Nat → Bool) (x : Nat) : ∀ (fuel b : Nat),
    b < F.nboxes → F.level b < fuel → (x ∈ climb F cond fuel b ↔
      ∃ j ≤ F.level b, x = F.parent^[j] b ∧ ∀ i ≤ j, cond (F.parent^[i] b) = true) := by
  intro fuel
  induction fuel with
  | zero => intro b _ hf; omega
  | succ fuel ih =>
    intro b hb hf
    unfold climb
    by_cases hc : cond b = true
    · rw [if_pos hc, List.mem_cons]
      by_cases hr : F.parent b = b
      · have h0 : b = 0 := by
          by_contra h0
          have := h.level_parent b hb h0
          rw [hr] at this
          omega
        rw [if_pos hr]
        simp only [List.not_mem_nil, or_false]
        constructor
        · rintro rfl
          exact ⟨0, by omega, rfl, fun i hi => by rw [Nat.le_zero.1 hi]; exact hc⟩
        · rintro ⟨j, hj, rfl, _⟩
          have : j = 0 := by rw [h0, h.level_root] at hj; omega
          rw [this]; rfl
      · have h0 : b ≠ 0 := by
          rintro rfl
          exact hr h.parent_root
        have hl := h.level_parent b hb h0
        rw [if_neg hr, ih (F.parent b) (h.parent_lt b hb) (by omega)]
        constructor
        · rintro (rfl | ⟨j, hj, rfl, hall⟩)
          · exact ⟨0, by omega, rfl, fun i hi => by rw [Nat.le_zero.1 hi]; exact hc⟩
          · refine ⟨j + 1, by omega, rfl, fun i hi => ?_⟩
            cases i with
            | zero => exact hc
            | succ i => exact hall i (by omega)
        · rintro ⟨j, hj, rfl, hall⟩
          cases j with
          | zero => exact .inl rfl
          | succ j => exact .inr ⟨j, by omega, rfl, fun i hi => hall (i + 1) (by omega)⟩
    · rw [if_neg hc]
      simp only [List.not_mem_nil, false_iff]
      rintro ⟨j, _, _, hall⟩
      exact hc (hall 0 (by omega))

/-- Ranges grow on the way up. -/
theorem range_iterate (h : FlatOK P L F) {p : Nat} (hp : p < P.n) {i : Nat} : ∀ j, i ≤ j →
    j ≤ F.level (F.pbox p) →
    F.start (F.parent^[j] (F.pbox p)) ≤ F.start (F.parent^[i] (F.pbox p)) ∧
    F.start (F.parent^[i] (F.pbox p)) + F.count (F.parent^[i] (F.pbox p))
      ≤ F.start (F.parent^[j] (F.pbox p)) + F.count (F.parent^[j] (F.pbox p)) := by
  intro j hij
  have hb := h.pbox_lt p hp
  induction j, hij using Nat.le_induction with
  | base => intro _; exact ⟨le_refl _, le_refl _⟩
  | succ j hij ih =>
    intro hj
    have h1 := ih (by omega)
    have h2 := h.mem_ancestor hp j (by omega)
    have hl := h.iterate_level hb j (by omega)
    have h0 : F.parent^[j] (F.pbox p) ≠ 0 := by
      intro h0
      rw [h0, h.level_root] at hl
      omega
    have := h.range (h.iterate_lt hb j) h0 (by omega)
    rw [Function.iterate_succ_apply']
    omega

theorem mem_startBoxes (h : FlatOK P L F) {i b : Nat} (hi : i < P.n) : b ∈ startBoxes F i ↔
    b < F.nboxes ∧ 0 < F.count b ∧ i = F.start b := by
  have hb := h.pbox_lt i hi
  unfold startBoxes
  rw [h.mem_climb _ _ _ _ hb (by omega)]
  constructor
  · rintro ⟨j, hj, rfl, hall⟩
    have h1 := h.mem_ancestor hi j hj
    have h2 := hall j (le_refl _)
    rw [decide_eq_true_eq] at h2
    exact ⟨h.iterate_lt hb j, by omega, h2⟩
  · rintro ⟨hbn, hc, rfl⟩
    obtain ⟨h1, h2⟩ := h.owner_below (L + 1) b (F.start b) (by omega) hbn (le_refl _) (by omega)
    refine ⟨F.level (F.pbox (F.start b)) - F.level b, by omega, h2.symm, fun i' hi' => ?_⟩
    have h3 := h.range_iterate hi (i := i') _ hi' (by omega)
    have h4 := h.mem_ancestor hi i' (by omega)
    rw [h2] at h3
    rw [decide_eq_true_eq]
    omega

theorem mem_endBoxes (h : FlatOK P L F) {i b : Nat} (hi : i < P.n) : b ∈ endBoxes F i ↔
    b < F.nboxes ∧ 0 < F.count b ∧ i + 1 = F.start b + F.count b := by
  have hb := h.pbox_lt i hi
  unfold endBoxes
  rw [h.mem_climb _ _ _ _ hb (by omega)]
  constructor
  · rintro ⟨j, hj, rfl, hall⟩
    have h1 := h.mem_ancestor hi j hj
    have h2 := hall j (le_refl _)
    rw [decide_eq_true_eq] at h2
    exact ⟨h.iterate_lt hb j, by omega, h2⟩
  · rintro ⟨hbn, hc, he⟩
    obtain ⟨h1, h2⟩ := h.owner_below (L + 1) b i (by omega) hbn (by omega) (by omega)
    refine ⟨F.level (F.pbox i) - F.level b, by omega, h2.symm, fun i' hi' => ?_⟩
    have h3 := h.range_iterate hi (i := i') _ hi' (by omega)
    have h4 := h.mem_ancestor hi i' (by omega)
    rw [h2] at h3
    rw [decide_eq_true_eq]
    omega

/-! ### The arrays of the source and target index finder -/

section
variable {ns : Nat} {ids : Nat → Nat} {src : Bool}

theorem boxStarts_eq (h : FlatOK P L F) {b : Nat} (hb : b < F.nboxes) (hc : 0 < F.count b) :
    boxStarts F P.n ns ids src b = Nat.count (IsKind ns ids src) (F.start b) := by
  have hw := h.within _ b rfl hb hc
  unfold boxStarts
  rw [scatter_unique (i := F.start b) (by omega)
    ((h.mem_startBoxes (by omega)).2 ⟨hb, hc, rfl⟩)
    (fun j hj hm => ((h.mem_startBoxes hj).1 hm).2.2), kindNumber_eq]

theorem boxCounts_eq (h : FlatOK P L F) {b : Nat} (hb : b < F.nboxes) (hc : 0 < F.count b) :
    boxCounts F P.n ns ids src b = Nat.count (IsKind ns ids src) (F.start b + F.count b)
      - Nat.count (IsKind ns ids src) (F.start b) := by
  have hw := h.within _ b rfl hb hc
  have he : F.start b + F.count b - 1 + 1 = F.start b + F.count b := by omega
  unfold boxCounts
  rw [scatter_unique (i := F.start b + F.count b - 1) (by omega)
    ((h.mem_endBoxes (by omega)).2 ⟨hb, hc, he⟩)
    (fun j hj hm => by have := ((h.mem_endBoxes hj).1 hm).2.2; omega), kindCount_eq, he]

theorem boxCounts_empty (h : FlatOK P L F) {b : Nat} (hc : F.count b = 0) :
    boxCounts F P.n ns ids src b = 0 :=
  scatter_none fun j hj hm => by have := ((h.mem_endBoxes hj).1 hm).2.1; omega

theorem boxNonchild_eq (h : FlatOK P L F) {b : Nat} (hb : b < F.nboxes) (hc : F.hasCh b = true) :
    boxNonchild F P.n ns ids src b = Nat.count (IsKind ns ids src) (F.start b + fown F b)
      - Nat.count (IsKind ns ids src) (F.start b) := by
  have hown : fown F b = F.nonchild b := by unfold fown; rw [if_pos hc]
  have hmem : ∀ j < P.n, b ∈ (if j + 1 = F.start (F.pbox j) + F.nonchild (F.pbox j)
      then [F.pbox j] else []) → F.pbox j = b ∧ j + 1 = F.start b + F.nonchild b := by
    intro j _ hm
    split at hm
    · rename_i he
      rw [List.mem_singleton] at hm
      rw [← hm] at he
      exact ⟨hm.symm, he⟩
    · simp at hm
  unfold boxNonchild
  rcases Nat.eq_zero_or_pos (fown F b) with h0 | h0
  · rw [scatter_none, h0, Nat.add_zero, Nat.sub_self]
    intro j hj hm
    obtain ⟨h1, h2⟩ := hmem j hj hm
    have := (h.part j hj b hb).1 h1
    omega
  · have hle := h.own_le hb
    have hw := h.within _ b rfl hb (by omega)
    have hj : F.start b + fown F b - 1 < P.n := by omega
    have hp := (h.part _ hj b hb).2 ⟨by omega, by omega⟩
    have he : F.start b + fown F b - 1 + 1 = F.start b + fown F b := by omega
    rw [scatter_unique (i := F.start b + fown F b - 1) hj
      (by rw [hp, if_pos (by omega)]; simp)
      (fun j hj hm => by have := (hmem j hj hm).2; omega), kindCount_eq, he]

end
end FlatOK

/-! ### Particle numbers -/

section
variable {n ns : Nat} {ids : Nat → Nat}

theorem userSourceIds_eq {i : Nat} (hi : i < n) (hs : ids i < ns) :
    userSourceIds n ns ids (Nat.count (IsKind ns ids true) i) = ids i := by
  unfold userSourceIds
  rw [scatter_unique (i := i) hi (by rw [if_pos hs, sourceNumber_eq]; simp)]
  intro j _ hm
  split at hm
  · rename_i hj
    rw [List.mem_singleton, sourceNumber_eq] at hm
    exact (count_inj (isKind_true.2 hs) (isKind_true.2 hj) hm).symm
  · simp at hm

theorem srcntgtTargetIds_eq {i : Nat} (hi : i < n) (hs : ¬ ids i < ns) :
    srcntgtTargetIds n ns ids (Nat.count (IsKind ns ids false) i) = ids i := by
  unfold srcntgtTargetIds
  rw [scatter_unique (i := i) hi (by rw [if_neg hs, kindNumber_eq]; simp)]
  intro j _ hm
  split at hm
  · simp at hm
  · rename_i hj
    rw [List.mem_singleton, kindNumber_eq] at hm
    exact (count_inj (isKind_false.2 hs) (isKind_false.2 hj) hm).symm

theorem sortedTargetIds_eq (hinj : ∀ i < n, ∀ j < n, ids i = ids j → i = j) {i : Nat} (hi : i < n)
    (hs : ¬ ids i < ns) :
    sortedTargetIds n ns ids (ids i - ns) = Nat.count (IsKind ns ids false) i := by
  unfold sortedTargetIds
  rw [scatter_unique (i := i) hi (by rw [if_neg hs]; simp), kindNumber_eq]
  intro j hj hm
  split at hm
  · simp at hm
  · rename_i hj'
    rw [List.mem_singleton] at hm
    exact (hinj i hi j hj (by omega)).symm

theorem reverseIds_eq (hinj : ∀ i < n, ∀ j < n, ids i = ids j → i = j) {i : Nat} (hi : i < n) :
    reverseIds n ids (ids i) = i := by
  unfold reverseIds
  rw [scatter_unique (i := i) hi (by simp)]
  intro j hj hm
  rw [List.mem_singleton] at hm
  exact (hinj i hi j hj hm).symm

end

/-! ### Ranges of sources or targets -/

/-- Start, own count and cumulative count of particles of the given kind in each box. -/
structure KindOK (F : Flat) (kind : Nat → Prop) [DecidablePred kind] (st non cu : Nat → Nat) :
    Prop where
  st_eq : ∀ b, b < F.nboxes → 0 < F.count b → st b = Nat.count kind (F.start b)
  non_eq : ∀ b, b < F.nboxes → 0 < F.count b →
    non b = Nat.count kind (F.start b + fown F b) - Nat.count kind (F.start b)
  cu_eq : ∀ b, b < F.nboxes → 0 < F.count b →
    cu b = Nat.count kind (F.start b + F.count b) - Nat.count kind (F.start b)
  zero : ∀ b, b < F.nboxes → F.count b = 0 → non b = 0 ∧ cu b = 0

namespace KindOK
variable {P : Params} {L : Nat} {F : Flat} {kind : Nat → Prop} [DecidablePred kind]
  {st non cu : Nat → Nat}

theorem st_non (h : KindOK F kind st non cu) {b : Nat} (hb : b < F.nboxes) (hc : 0 < F.count b) :
    st b + non b = Nat.count kind (F.start b + fown F b) := by
  rw [h.st_eq b hb hc, h.non_eq b hb hc]
  have := count_mono (kind := kind) (show F.start b ≤ F.start b + fown F b by omega)
  omega

theorem st_cu (h : KindOK F kind st non cu) {b : Nat} (hb : b < F.nboxes) (hc : 0 < F.count b) :
    st b + cu b = Nat.count kind (F.start b + F.count b) := by
  rw [h.st_eq b hb hc, h.cu_eq b hb hc]
  have := count_mono (kind := kind) (show F.start b ≤ F.start b + F.count b by omega)
  omega

theorem cu_pos_count (h : KindOK F kind st non cu) {b : Nat} (hb : b < F.nboxes) (hc : 0 < cu b) :
    0 < F.count b := by
  by_contra h0
  have := (h.zero b hb (by omega)).2
  omega

theorem non_pos_count (h : KindOK F kind st non cu) {b : Nat} (hb : b < F.nboxes)
    (hc : 0 < non b) : 0 < F.count b := by
  by_contra h0
  have := (h.zero b hb (by omega)).1
  omega

theorem non_le (h : KindOK F kind st non cu) (hF : FlatOK P L F) {b : Nat} (hb : b < F.nboxes) :
    non b ≤ cu b := by
  rcases Nat.eq_zero_or_pos (F.count b) with h0 | h0
  · have := h.zero b hb h0; omega
  · have h1 := h.st_non hb h0
    have h2 := h.st_cu hb h0
    have h3 := count_mono (kind := kind)
      (show F.start b + fown F b ≤ F.start b + F.count b by have := hF.own_le hb; omega)
    omega

theorem within (h : KindOK F kind st non cu) (hF : FlatOK P L F) {b : Nat} (hb : b < F.nboxes)
    (hc : 0 < F.count b) : st b + cu b ≤ Nat.count kind P.n := by
  rw [h.st_cu hb hc]
  exact count_mono (hF.within _ b rfl hb hc)

/-- A particle of the kind is in the own range of a box exactly if the box owns it. -/
theorem mem_non (h : KindOK F kind st non cu) (hF : FlatOK P L F) {b i : Nat} (hb : b < F.nboxes)
    (hi : i < P.n) (hk : kind i) :
    (st b ≤ Nat.count kind i ∧ Nat.count kind i < st b + non b) ↔ F.pbox i = b := by
  rcases Nat.eq_zero_or_pos (F.count b) with h0 | h0
  · have h1 := h.zero b hb h0
    have h2 := hF.own_le hb
    rw [hF.part i hi b hb]
    omega
  · rw [h.st_non hb h0, h.st_eq b hb h0, count_le_iff hk, count_lt_iff hk, hF.part i hi b hb]

/-- The range of a box consists of the particles of the kind in the range of the box. -/
theorem mem_cu (h : KindOK F kind st non cu) {b i : Nat} (hb : b < F.nboxes)
    (hk : kind i) :
    (st b ≤ Nat.count kind i ∧ Nat.count kind i < st b + cu b) ↔
      F.start b ≤ i ∧ i < F.start b + F.count b := by
  rcases Nat.eq_zero_or_pos (F.count b) with h0 | h0
  · have h1 := h.zero b hb h0
    omega
  · rw [h.st_cu hb h0, h.st_eq b hb h0, count_le_iff hk, count_lt_iff hk]

theorem range (h : KindOK F kind st non cu) (hF : FlatOK P L F) {b : Nat} (hb : b < F.nboxes)
    (h0 : b ≠ 0) (hc : 0 < F.count b) :
    st (F.parent b) + non (F.parent b) ≤ st b ∧
      st b + cu b ≤ st (F.parent b) + cu (F.parent b) := by
  have h1 := hF.range hb h0 hc
  have hp := hF.parent_lt b hb
  rw [h.st_non hp h1.2.2, h.st_cu hp h1.2.2, h.st_cu hb hc, h.st_eq b hb hc]
  exact ⟨count_mono h1.1, count_mono h1.2.1⟩

theorem exhaustive (h : KindOK F kind st non cu) (hF : FlatOK P L F) {b p : Nat}
    (hb : b < F.nboxes) (h1 : st b + non b ≤ p) (h2 : p < st b + cu b) :
    ∃ c, c < F.nboxes ∧ c ≠ 0 ∧ F.parent c = b ∧ st c ≤ p ∧ p < st c + cu c := by
  have hc : 0 < F.count b := h.cu_pos_count hb (by omega)
  have hw := h.within hF hb hc
  obtain ⟨i, hi, hk, rfl⟩ := exists_of_lt_count (show p < Nat.count kind P.n by omega)
  rw [h.st_non hb hc, ← Nat.not_lt, count_lt_iff hk, Nat.not_lt] at h1
  rw [h.st_cu hb hc, count_lt_iff hk] at h2
  obtain ⟨c, h3, h4, h5, h6⟩ := hF.exhaustive hb h1 h2
  exact ⟨c, h3, h4, h5, (h.mem_cu h3 hk).2 h6⟩

theorem disjoint (h : KindOK F kind st non cu) (hF : FlatOK P L F) {b b' p : Nat}
    (hb : b < F.nboxes) (hb' : b' < F.nboxes) (h1 : st b ≤ p) (h2 : p < st b + non b)
    (h3 : st b' ≤ p) (h4 : p < st b' + non b') : b = b' := by
  have hw := h.within hF hb (h.non_pos_count hb (by omega))
  have hle := h.non_le hF hb
  obtain ⟨i, hi, hk, rfl⟩ := exists_of_lt_count (show p < Nat.count kind P.n by omega)
  rw [← (h.mem_non hF hb hi hk).1 ⟨h1, h2⟩, (h.mem_non hF hb' hi hk).1 ⟨h3, h4⟩]

theorem cover (h : KindOK F kind st non cu) (hF : FlatOK P L F) {p : Nat}
    (hp : p < Nat.count kind P.n) : ∃ b, b < F.nboxes ∧ st b ≤ p ∧ p < st b + non b := by
  obtain ⟨i, hi, hk, rfl⟩ := exists_of_lt_count hp
  exact ⟨F.pbox i, hF.pbox_lt i hi, (h.mem_non hF (hF.pbox_lt i hi) hi hk).2 rfl⟩

end KindOK
end Boxtree.Build
