import Verif.Lemmas.AllocRel

/-! Splitting the boxes in the flat arrays. -/

namespace Boxtree.Build

/-- What the splitter finds: enough room on every level. -/
structure Room (P : Params) (level nnew : Nat) (B : Buf) (s : State) : Prop where
  rel : Rel P level B (markSplit P level s)
  pre : Pre P level s
  refine_ : P.levelRestrict = true → P.adaptive = true
  pos : ∀ l < level, 0 < s.used l
  room : ∀ l < level, B.lstart l + (after P level s).used l ≤ B.lstart (l + 1)
  top : B.lstart level + (after P level s).used level ≤ nnew
  tight : P.levelRestrict = false → nnew = B.lstart level + (after P level s).used level
  cap : nnew ≤ B.cap
  start0 : ∀ l k, s.used l ≤ k → s.start l k = 0

namespace Room
variable {P : Params} {level nnew : Nat} {B : Buf} {s : State}

theorem inBoxes (h : Pre P level s) : InBoxes P level (markSplit P level s) := by
  intro i hi
  have := (h.inv.box_used hi).1
  exact ⟨h.inv.used_level this, this⟩

/-- `level_start_box_nrs` after the trip. -/
def ls (B : Buf) (level nnew l : Nat) : Nat := if l = level + 1 then nnew else B.lstart l

theorem ls_le {l : Nat} (hl : l ≤ level) : ls B level nnew l = B.lstart l := by
  unfold ls; rw [if_neg (by omega)]

theorem ls_top : ls B level nnew (level + 1) = nnew := by unfold ls; rw [if_pos rfl]

theorem newLay (h : Room P level nnew B s) :
    Lay (ls B level nnew) (after P level s).used (level + 1) where
  start0 := by rw [ls_le (by omega)]; exact h.rel.lay.start0
  len := by
    intro l hl
    by_cases he : l = level
    · subst he
      rw [ls_top, ls_le (le_refl _)]; exact h.top
    · rw [ls_le (by omega), ls_le (by omega)]; exact h.room l (by omega)

theorem pos' (h : Room P level nnew B s) : 1 ≤ level := by
  by_contra hc
  have := h.pre.inv.used_deep 0 (by omega)
  rw [h.pre.inv.used_zero] at this
  omega

theorem le_nnew (h : Room P level nnew B s) : B.lstart level ≤ nnew := by have := h.top; omega

theorem want_eq (h : Room P level nnew B s) {l k : Nat} (hl : l < level) (hk : k < s.used l) :
    B.want P level (B.lstart l + k) = want P level s l k := h.rel.want hl hk

theorem doSplit_eq (h : Room P level nnew B s) {l k : Nat} (hl : l < level) (hk : k < s.used l) :
    B.doSplit P level (B.lstart l + k) = want P level s l k := by
  have e : B.doSplit P level (B.lstart l + k) = doSplit P level (markSplit P level s) l k := by
    unfold Buf.doSplit doSplit
    rw [h.rel.lev_at hl hk, (h.rel.same l hl k hk).hasCh, (h.rel.same l hl k hk).force]
  rw [e, h.pre.doSplit_eq, Bool.eq_iff_iff]
  simp [hk]

theorem doSplit_unused (h : Room P level nnew B s) {b : Nat}
    (hb : Unused B.lstart s.used level b) : B.doSplit P level b = false := by
  unfold Buf.doSplit
  rw [(h.rel.blank b hb).hasCh, (h.rel.blank b hb).force]
  simp

/-- The boxes that are split. -/
theorem doSplit_cases (h : Room P level nnew B s) {b : Nat} (hb : B.doSplit P level b = true) :
    ∃ l k, l < level ∧ k < s.used l ∧ b = B.lstart l + k ∧ want P level s l k = true := by
  rcases h.rel.lay.cases b with hu | ⟨l, k, hl, hk, rfl⟩
  · rw [h.doSplit_unused hu] at hb; cases hb
  · exact ⟨l, k, hl, hk, rfl, by rw [← h.doSplit_eq hl hk]; exact hb⟩

theorem splitId_eq (h : Room P level nnew B s) {l k : Nat} (hl : l < level) (hk : k < s.used l)
    (hW : want P level s l k = true) :
    B.splitId P level (B.lstart l + k) = B.lstart (l + 1) + (newBase P level s l k + P.nch) := by
  rw [h.rel.splitId h.refine_ hl hk]
  congr 1
  change s.used (l + 1) + P.nch * Nat.count (fun k' => want P level s l k' = true) (k + 1) = _
  unfold newBase
  rw [Nat.count_succ, if_pos hW, Nat.mul_add]
  omega

theorem firstChild_eq (h : Room P level nnew B s) {l k : Nat} (hl : l < level) (hk : k < s.used l)
    (hW : want P level s l k = true) :
    B.firstChild P level (B.lstart l + k) = B.lstart (l + 1) + newBase P level s l k := by
  unfold Buf.firstChild
  rw [h.splitId_eq hl hk hW]
  omega

theorem child_lt (h : Room P level nnew B s) {l k m : Nat} (hk : k < s.used l)
    (hW : want P level s l k = true) (hm : m < P.nch) :
    newBase P level s l k + m < (after P level s).used (l + 1) := by
  have := h.pre.newBase_le hk hW; omega

theorem writer_iff (h : Room P level nnew B s) {l k : Nat} (hl : l < level) (hk : k < s.used l)
    (c : Nat) : (B.doSplit P level (B.lstart l + k) &&
      decide (B.firstChild P level (B.lstart l + k) ≤ c) &&
      decide (c < B.firstChild P level (B.lstart l + k) + P.nch)) = true ↔
    want P level s l k = true ∧ ∃ m < P.nch, c = B.lstart (l + 1) + (newBase P level s l k + m) := by
  rw [h.doSplit_eq hl hk]
  simp only [Bool.and_eq_true, decide_eq_true_eq]
  constructor
  · rintro ⟨⟨h1, h2⟩, h3⟩
    rw [h.firstChild_eq hl hk h1] at h2 h3
    exact ⟨h1, c - (B.lstart (l + 1) + newBase P level s l k), by omega, by omega⟩
  · rintro ⟨h1, m, h2, rfl⟩
    rw [h.firstChild_eq hl hk h1]
    exact ⟨⟨h1, by omega⟩, by omega⟩

theorem writer_new (h : Room P level nnew B s) {l k m : Nat} (hl : l < level) (hk : k < s.used l)
    (hW : want P level s l k = true) (hm : m < P.nch) :
    B.writer P level nnew (B.lstart (l + 1) + (newBase P level s l k + m))
      = some (B.lstart l + k) := by
  have hlt := h.rel.lay.lt_level hl hk
  have hn := h.le_nnew
  unfold Buf.writer
  apply find?_range_unique (by omega) ((h.writer_iff hl hk _).2 ⟨hW, m, hm, rfl⟩)
  intro b _ hb
  have hd : B.doSplit P level b = true := by
    simp only [Bool.and_eq_true] at hb
    exact hb.1.1
  obtain ⟨l', k', hl', hk', rfl, hW'⟩ := h.doSplit_cases hd
  obtain ⟨_, m', hm', he⟩ := (h.writer_iff hl' hk' _).1 hb
  rw [← ls_le (B := B) (nnew := nnew) (show l + 1 ≤ level by omega),
    ← ls_le (B := B) (nnew := nnew) (show l' + 1 ≤ level by omega)] at he
  obtain ⟨h1, h2⟩ := h.newLay.emb_inj (by omega) (h.child_lt hk hW hm) (by omega)
    (h.child_lt hk' hW' hm') he
  obtain rfl : l = l' := by omega
  rcases lt_trichotomy k k' with hlt | rfl | hgt
  · have := Pre.newBase_lt hW hlt; omega
  · rfl
  · have := Pre.newBase_lt hW' hgt; omega

theorem writer_none (h : Room P level nnew B s) {c : Nat}
    (hc : ∀ l k m, l < level → k < s.used l → want P level s l k = true → m < P.nch →
      c ≠ B.lstart (l + 1) + (newBase P level s l k + m)) :
    B.writer P level nnew c = none := by
  unfold Buf.writer
  apply find?_range_none
  intro b _
  by_contra hb
  rw [Bool.not_eq_false] at hb
  have hd : B.doSplit P level b = true := by
    simp only [Bool.and_eq_true] at hb
    exact hb.1.1
  obtain ⟨l', k', hl', hk', rfl, hW'⟩ := h.doSplit_cases hd
  obtain ⟨_, m', hm', he⟩ := (h.writer_iff hl' hk' _).1 hb
  exact hc l' k' m' hl' hk' hW' hm' he

theorem writer_old (h : Room P level nnew B s) {l c : Nat} (hl : l < level) (hc : c < s.used l) :
    B.writer P level nnew (B.lstart l + c) = none := by
  apply h.writer_none
  intro l' k' m hl' hk' hW hm he
  have hu := h.pre.used_le l
  rw [← ls_le (B := B) (nnew := nnew) (show l ≤ level by omega),
    ← ls_le (B := B) (nnew := nnew) (show l' + 1 ≤ level by omega)] at he
  obtain ⟨h1, h2⟩ := h.newLay.emb_inj (by omega) (by omega) (by omega) (h.child_lt hk' hW hm) he
  have := Pre.used_le_newBase (P := P) (level := level) (s := s) l' k'
  subst h1
  omega

theorem writer_unused (h : Room P level nnew B s) {b : Nat}
    (hb : Unused (ls B level nnew) (after P level s).used (level + 1) b) :
    B.writer P level nnew b = none := by
  apply h.writer_none
  intro l' k' m hl' hk' hW hm he
  apply h.newLay.not_unused (show l' + 1 < level + 1 by omega) (h.child_lt hk' hW hm)
  rw [ls_le (by omega), ← he]
  exact hb

/-- Boxes that are unused after the trip are unused before it. -/
theorem unused_old (h : Room P level nnew B s) {b : Nat}
    (hb : Unused (ls B level nnew) (after P level s).used (level + 1) b) :
    Unused B.lstart s.used level b := by
  rcases hb with h1 | ⟨l, h1, h2, h3⟩
  · rw [ls_top] at h1
    have := h.le_nnew
    exact .inl (by omega)
  · by_cases he : l = level
    · subst he
      rw [ls_le (le_refl _)] at h2
      exact .inl (by omega)
    · rw [ls_le (by omega)] at h2 h3
      have := h.pre.used_le l
      exact .inr ⟨l, by omega, by omega, h3⟩

/-- New boxes are unused before the trip. -/
theorem unused_new (h : Room P level nnew B s) {l c : Nat} (hl : l < level)
    (h1 : s.used (l + 1) ≤ c) (h2 : c < (after P level s).used (l + 1)) :
    Unused B.lstart s.used level (B.lstart (l + 1) + c) := by
  by_cases he : l + 1 = level
  · rw [he]; exact .inl (by omega)
  · have := h.room (l + 1) (by omega)
    exact .inr ⟨l + 1, by omega, by omega, by omega⟩

theorem newUsed_eq (h : Room P level nnew B s) : B.newUsed P level = (after P level s).used := by
  funext l
  exact h.rel.newUsed h.refine_ h.pos l

theorem start_new0 (h : Pre P level s) {l k m : Nat} (hk : k < s.used l)
    (hW : want P level s l k = true) (hm : m < P.nch) (hp : ¬ 0 < (s.bins l k).pcnt m) :
    (after P level s).start (l + 1) (newBase P level s l k + m)
      = s.start (l + 1) (newBase P level s l k + m) := by
  change (if l + 1 = 0 then s.start (l + 1) (newBase P level s l k + m) else
    match writer P level (markSplit P level s) (l + 1 - 1) (newBase P level s l k + m) with
      | some k' => if 0 < (s.bins (l + 1 - 1) k').pcnt
          (newBase P level s l k + m - firstChild P level (markSplit P level s) (l + 1 - 1) k') then
          childStart s (l + 1 - 1) k'
          (newBase P level s l k + m - firstChild P level (markSplit P level s) (l + 1 - 1) k')
          else s.start (l + 1) (newBase P level s l k + m)
      | none => s.start (l + 1) (newBase P level s l k + m)) = _
  rw [Nat.add_sub_cancel, h.writer_new hk hW hm]
  simp only [if_neg (Nat.succ_ne_zero l)]
  rw [Pre.firstChild_eq hW, Nat.add_sub_cancel_left, if_neg hp]

theorem start_unused (h : Pre P level s) (h0 : ∀ l k, s.used l ≤ k → s.start l k = 0)
    (l k : Nat) (hk : (after P level s).used l ≤ k) : (after P level s).start l k = 0 := by
  have hu := h.used_le l
  cases l with
  | zero => exact h0 0 k (by omega)
  | succ l =>
    change (if l + 1 = 0 then s.start (l + 1) k else
      match writer P level (markSplit P level s) (l + 1 - 1) k with
      | some k' => if 0 < (s.bins (l + 1 - 1) k').pcnt
          (k - firstChild P level (markSplit P level s) (l + 1 - 1) k') then
          childStart s (l + 1 - 1) k'
          (k - firstChild P level (markSplit P level s) (l + 1 - 1) k')
          else s.start (l + 1) k
      | none => s.start (l + 1) k) = _
    rw [Nat.add_sub_cancel, h.writer_none (.inr hk)]
    simp only [if_neg (Nat.succ_ne_zero l)]
    exact h0 _ _ (by omega)

theorem childStart_eq (h : Room P level nnew B s) {l k : Nat} (hl : l < level) (hk : k < s.used l)
    (m : Nat) : B.childStart (B.lstart l + k) m = childStart s l k m := by
  unfold Buf.childStart childStart
  rw [(h.rel.same l hl k hk).start, (h.rel.same l hl k hk).bins]
  rfl

/-- A box that was there before. -/
theorem same_old (h : Room P level nnew B s) {l k : Nat} (hl : l < level) (hk : k < s.used l) :
    Same (B.splitStep P level nnew) (after P level s) l k := by
  have hw := h.writer_old hl hk
  have e : (B.splitStep P level nnew).lstart l + k = B.lstart l + k := by
    change ls B level nnew l + k = _
    rw [ls_le (by omega)]
  have hS := h.rel.same l hl k hk
  constructor
  · rw [e, h.pre.start_old hk]
    change (match B.writer P level nnew (B.lstart l + k) with
      | some b => if 0 < (B.bins b).pcnt (B.lstart l + k - B.firstChild P level b) then
          B.childStart b (B.lstart l + k - B.firstChild P level b) else B.start (B.lstart l + k)
      | none => B.start (B.lstart l + k)) = _
    rw [hw]; exact hS.start
  · rw [e, h.pre.count_old (.inl hk)]
    change (match B.writer P level nnew (B.lstart l + k) with
      | some b => (B.bins b).pcnt (B.lstart l + k - B.firstChild P level b)
      | none => B.count (B.lstart l + k)) = _
    rw [hw]; exact hS.count
  · rw [e]; exact hS.bins
  · intro a
    rw [e, h.pre.center_old hk]
    change (match B.writer P level nnew (B.lstart l + k) with
      | some b => if (B.lstart l + k - B.firstChild P level b) / 2 ^ (P.dims - 1 - a) % 2 = 1 then
          B.center b a + P.rootExtent / 2 ^ (1 + (B.lev b + 1))
          else B.center b a - P.rootExtent / 2 ^ (1 + (B.lev b + 1))
      | none => B.center (B.lstart l + k) a) = _
    rw [hw]; exact hS.center a
  · intro a
    rw [e, h.pre.stored_old hk]
    change (match B.writer P level nnew (B.lstart l + k) with
      | some b => if (B.lstart l + k - B.firstChild P level b) / 2 ^ (P.dims - 1 - a) % 2 = 1 then
          P.fl (B.stored b a + P.fl (P.rootExtent / 2 ^ (1 + (B.lev b + 1))))
          else P.fl (B.stored b a - P.fl (P.rootExtent / 2 ^ (1 + (B.lev b + 1))))
      | none => B.stored (B.lstart l + k) a) = _
    rw [hw]; exact hS.stored a
  · rw [e]; exact hS.hasCh
  · rw [e]; exact hS.force
  · rw [e, h.pre.parent_old hk]
    change (match B.writer P level nnew (B.lstart l + k) with
      | some b => b
      | none => B.parent (B.lstart l + k)) = if l = 0 then 0 else ls B level nnew (l - 1) + _
    rw [hw, ls_le (by omega)]; exact hS.parent
  · intro m
    rw [e]
    change (if B.lstart l + k < nnew ∧ m < P.nch ∧ B.doSplit P level (B.lstart l + k) = true then
      B.firstChild P level (B.lstart l + k) + m else B.child m (B.lstart l + k)) =
        match (after P level s).child m l k with
        | some c => ls B level nnew (l + 1) + c
        | none => 0
    rw [ls_le (by omega), h.doSplit_eq hl hk]
    by_cases hc : m < P.nch ∧ want P level s l k = true
    · have := h.rel.lay.lt_level hl hk
      have := h.le_nnew
      rw [if_pos ⟨by omega, hc.1, hc.2⟩, h.pre.child_want hk hc.2 hc.1, h.firstChild_eq hl hk hc.2]
      simp only
      omega
    · rw [if_neg (fun hx => hc ⟨hx.2.1, hx.2.2⟩), h.pre.child_old (by
        by_cases hm : m < P.nch
        · exact .inl fun hx => hc ⟨hm, hx.2⟩
        · exact .inr (by omega))]
      exact hS.child m

/-- A new box. -/
theorem same_new (h : Room P level nnew B s) {l k m : Nat} (hl : l < level) (hk : k < s.used l)
    (hW : want P level s l k = true) (hm : m < P.nch) :
    Same (B.splitStep P level nnew) (after P level s) (l + 1) (newBase P level s l k + m) := by
  have hw := h.writer_new hl hk hW hm
  have hf := h.firstChild_eq hl hk hW
  have e : (B.splitStep P level nnew).lstart (l + 1) + (newBase P level s l k + m) =
      B.lstart (l + 1) + (newBase P level s l k + m) := by
    change ls B level nnew (l + 1) + _ = _
    rw [ls_le (by omega)]
  have hsub : B.lstart (l + 1) + (newBase P level s l k + m) - (B.lstart (l + 1) +
      newBase P level s l k) = m := by omega
  have hS := h.rel.same l hl k hk
  have hge := Pre.used_le_newBase (P := P) (level := level) (s := s) l k
  have hu := h.unused_new hl (by omega) (h.child_lt hk hW hm)
  have hB := h.rel.blank _ hu
  have hc0 : s.hasCh (l + 1) (newBase P level s l k + m) = false := by
    by_contra hc
    have := (h.pre.inv.hasCh_used _ _ (by simpa using hc)).1
    omega
  constructor
  · rw [e]
    change (match B.writer P level nnew (B.lstart (l + 1) + (newBase P level s l k + m)) with
      | some b => if 0 < (B.bins b).pcnt (B.lstart (l + 1) + (newBase P level s l k + m) -
            B.firstChild P level b) then
          B.childStart b (B.lstart (l + 1) + (newBase P level s l k + m) - B.firstChild P level b)
          else B.start (B.lstart (l + 1) + (newBase P level s l k + m))
      | none => B.start (B.lstart (l + 1) + (newBase P level s l k + m))) = _
    rw [hw]
    simp only
    rw [hf, hsub, h.childStart_eq hl hk, hS.bins]
    by_cases hp : 0 < (s.bins l k).pcnt m
    · rw [h.pre.start_new hk hW hm hp]; exact if_pos hp
    · rw [start_new0 h.pre hk hW hm hp, h.start0 _ _ (by omega)]
      exact (if_neg hp).trans hB.start
  · rw [e, h.pre.count_new hk hW hm]
    change (match B.writer P level nnew (B.lstart (l + 1) + (newBase P level s l k + m)) with
      | some b => (B.bins b).pcnt (B.lstart (l + 1) + (newBase P level s l k + m) -
          B.firstChild P level b)
      | none => B.count (B.lstart (l + 1) + (newBase P level s l k + m))) = _
    rw [hw]
    simp only
    rw [hf, hsub, hS.bins]
    rfl
  · rw [e]
    change B.bins _ = s.bins _ _
    rw [hB.bins, h.pre.inv.empty_bins _ _ (h.pre.inv.unused_count _ _ (by omega))]
  · intro a
    rw [e, h.pre.center_new hk hW hm]
    change (match B.writer P level nnew (B.lstart (l + 1) + (newBase P level s l k + m)) with
      | some b => if (B.lstart (l + 1) + (newBase P level s l k + m) - B.firstChild P level b) /
          2 ^ (P.dims - 1 - a) % 2 = 1 then
          B.center b a + P.rootExtent / 2 ^ (1 + (B.lev b + 1))
          else B.center b a - P.rootExtent / 2 ^ (1 + (B.lev b + 1))
      | none => B.center (B.lstart (l + 1) + (newBase P level s l k + m)) a) = _
    rw [hw]
    simp only
    rw [hf, hsub, h.rel.lev_at hl hk, hS.center]
    rfl
  · intro a
    rw [e, h.pre.stored_new hk hW hm]
    change (match B.writer P level nnew (B.lstart (l + 1) + (newBase P level s l k + m)) with
      | some b => if (B.lstart (l + 1) + (newBase P level s l k + m) - B.firstChild P level b) /
          2 ^ (P.dims - 1 - a) % 2 = 1 then
          P.fl (B.stored b a + P.fl (P.rootExtent / 2 ^ (1 + (B.lev b + 1))))
          else P.fl (B.stored b a - P.fl (P.rootExtent / 2 ^ (1 + (B.lev b + 1))))
      | none => B.stored (B.lstart (l + 1) + (newBase P level s l k + m)) a) = _
    rw [hw]
    simp only
    rw [hf, hsub, h.rel.lev_at hl hk, hS.stored]
    rfl
  · rw [e]
    change B.hasCh _ = (after P level s).hasCh _ _
    rw [hB.hasCh, h.pre.newBox_hasCh]
  · rw [e]
    change B.force _ = s.force _ _
    rw [hB.force]
    symm
    by_contra hc
    have := (h.pre.force _ _ (by simpa using hc)).1
    omega
  · rw [e, h.pre.parent_new hk hW hm]
    change (match B.writer P level nnew (B.lstart (l + 1) + (newBase P level s l k + m)) with
      | some b => b
      | none => B.parent (B.lstart (l + 1) + (newBase P level s l k + m))) =
        if l + 1 = 0 then 0 else ls B level nnew (l + 1 - 1) + k
    rw [hw, if_neg (by omega), Nat.add_sub_cancel, ls_le (by omega)]
  · intro m'
    rw [e]
    have hcold : (after P level s).child m' (l + 1) (newBase P level s l k + m) = none := by
      rw [h.pre.child_old (.inl (by omega))]
      exact h.pre.inv.child_some _ _ _ (.inl hc0)
    rw [hcold]
    change (if B.lstart (l + 1) + (newBase P level s l k + m) < nnew ∧ m' < P.nch ∧
      B.doSplit P level (B.lstart (l + 1) + (newBase P level s l k + m)) = true then _
      else B.child m' (B.lstart (l + 1) + (newBase P level s l k + m))) = 0
    rw [h.doSplit_unused hu, if_neg (by simp)]
    exact hB.child m'

theorem target_eq (h : Room P level nnew B s) {i : Nat} (hi : i < P.n) :
    B.target P level i = target P level (markSplit P level s) i := by
  have hb := inBoxes h.pre i hi
  have hS := h.rel.same _ hb.1 _ hb.2
  have e1 : B.doSplit P level (B.box i) = doSplit P level (markSplit P level s)
      ((markSplit P level s).box i).1 ((markSplit P level s).box i).2 := by
    unfold Buf.doSplit doSplit
    rw [h.rel.box_lev (inBoxes h.pre) hi, h.rel.box, hS.hasCh, hS.force]
  have e2 : B.mortonNr P i = mortonNr P (markSplit P level s) i := by
    unfold Buf.mortonNr mortonNr
    rw [h.rel.box_lev (inBoxes h.pre) hi, h.rel.ids]
  unfold Buf.target target
  simp only
  rw [e1, e2, h.rel.box, hS.bins, hS.start, h.rel.scanItem (inBoxes h.pre) i hi]
  cases mortonNr P (markSplit P level s) i <;> rfl

theorem newBox_eq (h : Room P level nnew B s) {i : Nat} (hi : i < P.n) :
    B.newBox P level i = ls B level nnew (newBox P level (markSplit P level s) i).1 +
      (newBox P level (markSplit P level s) i).2 := by
  have hb := inBoxes h.pre i hi
  have e2 : B.mortonNr P i = mortonNr P (markSplit P level s) i := by
    unfold Buf.mortonNr mortonNr
    rw [h.rel.box_lev (inBoxes h.pre) hi, h.rel.ids]
  have hbox := h.rel.box i
  have hbs : (markSplit P level s).box i = s.box i := rfl
  have hbu : (markSplit P level s).used = s.used := rfl
  rw [hbs] at hbox
  rw [hbu, hbs] at hb
  by_cases hW : want P level s (s.box i).1 (s.box i).2 = true
  · have hd : B.doSplit P level (B.box i) = true := by
      rw [hbox, h.doSplit_eq hb.1 hb.2]; exact hW
    unfold Buf.newBox
    simp only
    rw [if_pos hd, e2]
    cases hm : mortonNr P (markSplit P level s) i with
    | none =>
      rw [h.pre.newBox_none (l := (s.box i).1) (k := (s.box i).2) rfl hb.2 hW hm]
      simp only
      rw [hbox, ls_le (by omega)]
    | some m =>
      rw [h.pre.newBox_some (l := (s.box i).1) (k := (s.box i).2) rfl hb.2 hW hm]
      simp only
      rw [hbox, h.firstChild_eq hb.1 hb.2 hW, ls_le (by omega)]
      omega
  · have hd : ¬ B.doSplit P level (B.box i) = true := by
      rw [hbox, h.doSplit_eq hb.1 hb.2]; exact hW
    unfold Buf.newBox
    simp only
    rw [if_neg hd, h.pre.newBox_stay hW, hbox, ls_le (by omega)]

theorem mover_eq (h : Room P level nnew B s) (j : Nat) :
    B.mover P level j = mover P level (markSplit P level s) j := by
  unfold Buf.mover mover
  apply Rel.find_congr
  intro i hi
  rw [h.target_eq hi]

theorem mover_lt {j i : Nat} (hm : mover P level (markSplit P level s) j = some i) : i < P.n := by
  unfold mover at hm
  have := List.mem_of_find?_eq_some hm
  rwa [List.mem_range] at this

/-- The trip keeps the relation. -/
theorem splitStep (h : Room P level nnew B s) :
    Rel P (level + 1) (B.splitStep P level nnew) (after P level s) where
  lay := h.newLay
  tight := by
    intro hr l hl
    change ls B level nnew (l + 1) = ls B level nnew l + _
    by_cases he : l = level
    · subst he
      rw [ls_top, ls_le (le_refl _)]; exact h.tight hr
    · rw [ls_le (by omega), ls_le (by omega)]
      have h1 := h.rel.tight hr l (by omega)
      have h2 := h.room l (by omega)
      have h3 := h.pre.used_le l
      have h4 : (markSplit P level s).used = s.used := rfl
      rw [h4] at h1
      omega
  cap := by
    change ls B level nnew (level + 1) ≤ B.cap
    rw [ls_top]; exact h.cap
  used := h.newUsed_eq
  ids := by
    funext j
    change (match B.mover P level j with | some i => B.ids i | none => 0) =
      match mover P level (markSplit P level s) j with | some i => s.ids i | none => 0
    rw [h.mover_eq, h.rel.ids]
    rfl
  flag := by
    funext i
    change (B.flag i || (List.range nnew).any fun b => B.doSplit P level b &&
      (List.range P.nch).any fun m => decide (0 < (B.bins b).pcnt m) &&
        decide (B.childStart b m = i)) = (s.flag i || (List.range level).any fun l =>
      (List.range (s.used l)).any fun k => doSplit P level (markSplit P level s) l k &&
        (List.range P.nch).any fun m => decide (0 < (s.bins l k).pcnt m) &&
          decide (childStart s l k m = i))
    rw [h.rel.flag]
    congr 1
    rw [Bool.eq_iff_iff]
    simp only [List.any_eq_true, List.mem_range, Bool.and_eq_true, decide_eq_true_eq]
    constructor
    · rintro ⟨b, hb, hd, m, hm, h1, h2⟩
      obtain ⟨l, k, hl, hk, rfl, hW⟩ := h.doSplit_cases hd
      refine ⟨l, hl, k, hk, (h.pre.doSplit_iff l k).2 ⟨hk, hW⟩, m, hm, ?_, ?_⟩
      · rw [(h.rel.same l hl k hk).bins] at h1; exact h1
      · rw [← h.childStart_eq hl hk]; exact h2
    · rintro ⟨l, hl, k, hk, hd, m, hm, h1, h2⟩
      have hW := ((h.pre.doSplit_iff l k).1 hd).2
      have := h.rel.lay.lt_level hl hk
      have := h.le_nnew
      refine ⟨B.lstart l + k, by omega, by rw [h.doSplit_eq hl hk]; exact hW, m, hm, ?_, ?_⟩
      · rw [(h.rel.same l hl k hk).bins]; exact h1
      · rw [h.childStart_eq hl hk]; exact h2
  oversize := h.rel.oversize
  box := by
    intro j
    change (match B.mover P level j with | some i => B.newBox P level i | none => 0) =
      ls B level nnew (match mover P level (markSplit P level s) j with
        | some i => newBox P level (markSplit P level s) i | none => (0, 0)).1 +
      (match mover P level (markSplit P level s) j with
        | some i => newBox P level (markSplit P level s) i | none => (0, 0)).2
    rw [h.mover_eq]
    cases hm : mover P level (markSplit P level s) j with
    | none =>
      simp only
      rw [ls_le (by omega), h.rel.lay.start0]
    | some i => exact h.newBox_eq (mover_lt hm)
  lev := by
    intro l hl b h1 h2
    change ls B level nnew l ≤ b at h1
    change b < ls B level nnew (l + 1) at h2
    change (if B.lstart level + B.newUsed P level level ≤ b ∧ b < nnew then level
      else match B.writer P level nnew b with
        | some b => B.lev b + 1
        | none => B.lev b) = l
    rw [h.newUsed_eq]
    have hnew : ∀ l' c, l' < level → s.used (l' + 1) ≤ c → c < (after P level s).used (l' + 1) →
        (match B.writer P level nnew (B.lstart (l' + 1) + c) with
          | some b => B.lev b + 1
          | none => B.lev (B.lstart (l' + 1) + c)) = l' + 1 := by
      intro l' c hl' hc1 hc2
      obtain ⟨k, m, hk, hW, hm, rfl⟩ := h.pre.new_box hc1 hc2
      rw [h.writer_new hl' hk hW hm]
      simp only
      rw [h.rel.lev_at hl' hk]
    by_cases he : l = level
    · subst he
      rw [ls_le (le_refl _)] at h1
      rw [ls_top] at h2
      split
      · rfl
      · rename_i hx
        obtain ⟨l', rfl⟩ : ∃ l', l = l' + 1 := ⟨l - 1, by have := h.pos'; omega⟩
        have := hnew l' (b - B.lstart (l' + 1)) (by omega)
          (by rw [h.pre.inv.used_deep _ (le_refl _)]; omega) (by omega)
        rw [show B.lstart (l' + 1) + (b - B.lstart (l' + 1)) = b by omega] at this
        exact this
    · rw [ls_le (by omega)] at h1 h2
      have hl' : l < level := by omega
      have := h.rel.lay.mono (show l + 1 ≤ level by omega) (le_refl _)
      rw [if_neg (by omega)]
      by_cases hu : b < B.lstart l + s.used l
      · have e : b = B.lstart l + (b - B.lstart l) := by omega
        rw [e, h.writer_old hl' (by omega)]
        exact h.rel.lev_at hl' (show _ < s.used l by omega)
      · by_cases hn : b < B.lstart l + (after P level s).used l
        · obtain ⟨l', rfl⟩ : ∃ l', l = l' + 1 := by
            refine ⟨l - 1, ?_⟩
            by_contra hc
            obtain rfl : l = 0 := by omega
            rw [Pre.used_zero] at hn
            rw [h.pre.inv.used_zero] at hu
            omega
          have := hnew l' (b - B.lstart (l' + 1)) (by omega) (by omega) (by omega)
          rw [show B.lstart (l' + 1) + (b - B.lstart (l' + 1)) = b by omega] at this
          exact this
        · rw [h.writer_unused (.inr ⟨l, by omega, by rw [ls_le (by omega)]; omega,
            by rw [ls_le (by omega)]; omega⟩)]
          exact h.rel.lev l hl' b h1 h2
  same := by
    intro l hl k hk
    by_cases hu : k < s.used l
    · exact h.same_old (h.pre.inv.used_level hu) hu
    · cases l with
      | zero => rw [Pre.used_zero] at hk; rw [h.pre.inv.used_zero] at hu; omega
      | succ l =>
        obtain ⟨k0, m, h1, h2, h3, rfl⟩ := h.pre.new_box (by omega) hk
        exact h.same_new (by omega) h1 h2 h3
  blank := by
    intro b hb
    have hw := h.writer_unused hb
    have hu := h.unused_old hb
    have hB := h.rel.blank b hu
    constructor
    · change (match B.writer P level nnew b with
        | some b' => if 0 < (B.bins b').pcnt (b - B.firstChild P level b') then
          B.childStart b' (b - B.firstChild P level b') else B.start b
        | none => B.start b) = 0
      rw [hw]; exact hB.start
    · change (match B.writer P level nnew b with
        | some b' => (B.bins b').pcnt (b - B.firstChild P level b')
        | none => B.count b) = 0
      rw [hw]; exact hB.count
    · exact hB.bins
    · exact hB.hasCh
    · exact hB.force
    · intro m
      change (if b < nnew ∧ m < P.nch ∧ B.doSplit P level b = true then _ else B.child m b) = 0
      rw [h.doSplit_unused hu, if_neg (by simp)]
      exact hB.child m
    · change (match B.writer P level nnew b with
        | some b' => b'
        | none => B.parent b) = 0
      rw [hw]; exact hB.parent

theorem splitOK (h : Room P level nnew B s) : B.SplitOK P level nnew := by
  refine ⟨h.cap, ?_, ?_⟩
  · intro b _ hd
    obtain ⟨l, k, hl, hk, rfl, hW⟩ := h.doSplit_cases hd
    refine ⟨?_, ?_, ?_⟩
    · rw [h.splitId_eq hl hk hW]; omega
    · rw [h.splitId_eq hl hk hW]
      have h1 := h.pre.newBase_le hk hW
      have h2 := h.newLay.len (l + 1) (by omega)
      have h3 := h.newLay.mono (show l + 1 + 1 ≤ level + 1 by omega) (le_refl _)
      rw [ls_le (by omega)] at h2
      rw [ls_top] at h3
      omega
    · intro m hm hp
      rw [h.childStart_eq hl hk]
      rw [(h.rel.same l hl k hk).bins] at hp
      have hp' : 0 < (s.bins l k).pcnt m := hp
      have h1 := h.pre.after_inv.range_le (l + 1) (newBase P level s l k + m)
        (h.child_lt hk hW hm) (by rw [h.pre.count_new hk hW hm]; exact hp')
      rw [h.pre.start_new hk hW hm hp', h.pre.count_new hk hW hm] at h1
      omega
  · intro i hi
    rw [h.target_eq hi]
    exact (h.pre.target_box hi).1

end Room
end Boxtree.Build
