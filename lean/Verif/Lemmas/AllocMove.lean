import Verif.Lemmas.AllocSplit
import Mathlib.Algebra.Order.BigOperators.Group.List
import Mathlib.Tactic.Linarith

/-! Making room in the flat arrays. -/

namespace Boxtree.Build

/-- Leaves on a level. -/
def leaves (s : State) (l : Nat) : Nat := Nat.count (fun k => s.child 0 l k = none) (s.used l)

/-- Room that is reserved on a level, from the state after the trip. -/
def padA (P : Params) (look : Nat) (s : State) (l : Nat) : Int :=
  ((List.range (min l look)).map fun j =>
    (2 : Int) ^ ((j + 1) * P.dims) * (leaves s (l - (j + 1)) : Int)).sum

theorem padA_nonneg (P : Params) (look : Nat) (s : State) (l : Nat) : 0 ≤ padA P look s l := by
  apply List.sum_nonneg
  intro x hx
  obtain ⟨j, _, rfl⟩ := List.mem_map.1 hx
  positivity

/-- Length of the new level, from the state after the trip. -/
def lenA (P : Params) (look level : Nat) (s : State) : Int :=
  s.used level + if P.levelRestrict && s.oversize then padA P look s level else 0

theorem lenA_ge (P : Params) (look level : Nat) (s : State) : (s.used level : Int) ≤ lenA P look level s := by
  unfold lenA
  have := padA_nonneg P look s level
  split <;> omega

/-- The arrays after the scans of a trip. -/
structure Marked (P : Params) (level : Nat) (B : Buf) (s : State) : Prop where
  rel : Rel P level B (markSplit P level s)
  pre : Pre P level s
  refine_ : P.levelRestrict = true → P.adaptive = true
  pos : ∀ l < level, 0 < s.used l
  start0 : ∀ l k, s.used l ≤ k → s.start l k = 0
  out : ∀ i, P.n ≤ i → s.box i = (0, 0)
  leaf : ∀ l < level, B.leaf l = leaves s l
  look : P.levelRestrict = true → 2 ≤ level → B.lookSet = true
  lookO : P.levelRestrict = true → B.oversize = true → B.lookSet = true
  noForce : P.levelRestrict = false → ∀ l k, s.force l k = false
  wb : writeBins P s = s

theorem count_split {p q : Nat → Prop} [DecidablePred p] [DecidablePred q]
    (h : ∀ k, q k → p k) (n : Nat) :
    Nat.count p n = Nat.count (fun k => p k ∧ ¬ q k) n + Nat.count q n := by
  induction n with
  | zero => simp
  | succ n ih =>
    rw [Nat.count_succ, Nat.count_succ, Nat.count_succ, ih]
    by_cases hq : q n
    · have hp := h n hq
      simp [hp, hq]; omega
    · simp [hq]; omega

theorem count_split_lt {p q : Nat → Prop} [DecidablePred p] [DecidablePred q] {n : Nat}
    (h : ∀ k < n, q k → p k) :
    Nat.count p n = Nat.count (fun k => p k ∧ ¬ q k) n + Nat.count q n := by
  induction n with
  | zero => simp
  | succ n ih =>
    rw [Nat.count_succ, Nat.count_succ, Nat.count_succ, ih fun k hk => h k (by omega)]
    by_cases hq : q n
    · have hp := h n (by omega) hq
      simp [hp, hq]; omega
    · simp [hq]; omega

theorem count_all {p : Nat → Prop} [DecidablePred p] {n : Nat} (h : ∀ k < n, p k) :
    Nat.count p n = n := by
  induction n with
  | zero => simp
  | succ n ih => rw [Nat.count_succ, ih fun k hk => h k (by omega), if_pos (h n (by omega))]

theorem le_grow {need : Nat} : ∀ (fuel guess : Nat), guess ≤ grow need fuel guess := by
  intro fuel
  induction fuel with
  | zero => intro g; exact le_refl _
  | succ f ih =>
    intro g
    unfold grow
    split
    · have := ih (g * 2); omega
    · exact le_refl _

theorem need_grow {need : Nat} : ∀ (fuel guess : Nat), need ≤ guess * 2 ^ fuel →
    need ≤ grow need fuel guess := by
  intro fuel
  induction fuel with
  | zero => intro g h; simpa [grow] using h
  | succ f ih =>
    intro g h
    unfold grow
    split
    · exact ih _ (by rw [Nat.mul_assoc, ← Nat.pow_succ']; exact h)
    · omega

theorem need_grow' {need guess : Nat} (h : 1 ≤ guess) : need ≤ grow need need guess := by
  apply need_grow
  have := Nat.lt_two_pow_self (n := need)
  calc need ≤ 1 * 2 ^ need := by omega
    _ ≤ guess * 2 ^ need := Nat.mul_le_mul_right _ h

namespace Marked
variable {P : Params} {level : Nat} {B : Buf} {s : State}

theorem lpos (h : Marked P level B s) : 1 ≤ level := by
  by_contra hc
  have := h.pre.inv.used_deep 0 (by omega)
  rw [h.pre.inv.used_zero] at this
  omega

theorem used_eq (h : Marked P level B s) : B.used = s.used := h.rel.used

theorem newUsed_eq (h : Marked P level B s) : B.newUsed P level = (after P level s).used := by
  funext l
  exact h.rel.newUsed h.refine_ h.pos l

theorem leaves_after (h : Marked P level B s) (l : Nat) :
    (leaves (after P level s) l : Int) = leaves s l + ((after P level s).used l - s.used l : Int)
      - Nat.count (fun k => want P level s l k = true) (s.used l) := by
  have hu := h.pre.used_le l
  obtain ⟨d, hd⟩ : ∃ d, (after P level s).used l = s.used l + d :=
    ⟨(after P level s).used l - s.used l, by omega⟩
  have h1 : leaves (after P level s) l =
      Nat.count (fun k => s.child 0 l k = none ∧ ¬ want P level s l k = true) (s.used l) + d := by
    unfold leaves
    rw [hd, Nat.count_add]
    congr 1
    · apply count_congr
      intro k hk
      by_cases hW : want P level s l k = true
      · rw [h.pre.child_want hk hW (nch_pos P)]; simp [hW]
      · rw [h.pre.child_old (.inl fun hx => hW hx.2)]; simp [hW]
    · apply count_all
      intro k hk
      rw [h.pre.child_old (.inl (by omega))]
      apply h.pre.inv.child_some
      left
      by_contra hc
      have := (h.pre.inv.hasCh_used _ _ (by simpa using hc)).1
      omega
  have h2 : leaves s l =
      Nat.count (fun k => s.child 0 l k = none ∧ ¬ want P level s l k = true) (s.used l) +
        Nat.count (fun k => want P level s l k = true) (s.used l) := by
    unfold leaves
    apply count_split_lt
    intro k hk hW
    exact h.pre.inv.child_some _ _ _ (.inl (h.pre.want_leaf hk hW).2)
  rw [h1, h2, hd]
  push_cast
  ring

theorem newLeaf_eq (h : Marked P level B s) {l : Nat} (hl : l ≤ level) :
    B.newLeaf P level l = (leaves (after P level s) l : Int) := by
  unfold Buf.newLeaf
  simp only
  rw [h.newUsed_eq, h.used_eq]
  by_cases he : l < level
  · rw [if_pos he, h.leaf l he, h.leaves_after, h.pre.used_succ]
    congr 1
    unfold newBase
    push_cast
    rw [add_sub_cancel_left]
    exact Int.mul_ediv_cancel_left _ (by have := nch_pos P; omega)
  · obtain rfl : l = level := by omega
    rw [if_neg he, if_pos rfl, h.leaves_after]
    have h0 := h.pre.inv.used_deep l (le_refl _)
    rw [h0]
    unfold leaves
    rw [h0]
    simp

theorem padding_eq (h : Marked P level B s) (look : Nat) {l : Nat} (hl : l ≤ level) :
    B.padding P look level l = padA P look (after P level s) l := by
  unfold Buf.padding padA
  congr 1
  apply List.map_congr_left
  intro j hj
  rw [List.mem_range] at hj
  rw [h.newLeaf_eq (by omega)]

theorem newLength_eq (h : Marked P level B s) (look : Nat) :
    B.newLength P look level = lenA P look level (after P level s) := by
  unfold Buf.newLength lenA
  rw [h.newUsed_eq, h.padding_eq look (le_refl _), h.rel.oversize]
  rfl

theorem lstart_pos (h : Marked P level B s) : 1 ≤ B.lstart level := by
  have h1 := h.rel.lay.lt_level (show 0 < level from h.lpos) (h.pos 0 h.lpos)
  omega

theorem levelStart_length (h : Marked P level B s) : ∀ l, l ≤ level →
    levelStart B.levelLength l = B.lstart l := by
  intro l
  induction l with
  | zero => intro _; rw [levelStart_zero, h.rel.lay.start0]
  | succ l ih =>
    intro hl
    rw [levelStart_succ, ih (by omega)]
    unfold Buf.levelLength
    have := h.rel.lay.mono (show l ≤ l + 1 by omega) hl
    omega

theorem levelStart_congr {f g : Nat → Nat} : ∀ l, (∀ j < l, f j = g j) →
    levelStart f l = levelStart g l := by
  intro l hl
  unfold levelStart
  congr 1
  apply List.map_congr_left
  intro j hj
  exact hl j (by simpa using hj)

theorem fits (hn : B.needsRenumbering P level = false) {l : Nat}
    (hl : l < level) : B.newUsed P level l ≤ B.levelLength l := by
  unfold Buf.needsRenumbering at hn
  rw [List.any_eq_false] at hn
  have := hn l (by simpa using hl)
  unfold Buf.minLength at this
  simp only [decide_eq_true_eq] at this
  omega

theorem nboxesMinimal_eq (h : Marked P level B s) (look : Nat)
    (hn : B.needsRenumbering P level = false) :
    (B.nboxesMinimal P look level : Int) =
      B.lstart level + lenA P look level (after P level s) := by
  unfold Buf.nboxesMinimal
  have e : levelStart (B.minLength P level) level = B.lstart level := by
    rw [← h.levelStart_length level (le_refl _)]
    apply levelStart_congr
    intro l hl
    have := fits hn hl
    unfold Buf.minLength
    omega
  have := lenA_ge P look level (after P level s)
  rw [e, h.newLength_eq]
  omega

/-- If everything fits, the splitter can run. -/
theorem toRoom (h : Marked P level B s) {look : Nat} (hn : B.needsRenumbering P level = false)
    (hc : B.nboxesMinimal P look level ≤ B.cap) :
    Room P level (B.nboxesMinimal P look level) B s where
  rel := h.rel
  pre := h.pre
  refine_ := h.refine_
  pos := h.pos
  room := by
    intro l hl
    have h1 := fits hn hl
    rw [h.newUsed_eq] at h1
    unfold Buf.levelLength at h1
    have := h.rel.lay.mono (show l ≤ l + 1 by omega) (by omega)
    omega
  top := by
    have h1 := h.nboxesMinimal_eq look hn
    have := lenA_ge P look level (after P level s)
    omega
  tight := by
    intro hr
    have h1 := h.nboxesMinimal_eq look hn
    unfold lenA at h1
    rw [hr] at h1
    simp only [Bool.false_and] at h1
    simp at h1
    omega
  cap := hc
  start0 := h.start0

/-! ### The new starts of the levels -/

/-- Reserved length of a level. -/
theorem newStart_succ (h : Marked P level B s) (look : Nat) {l : Nat} (_hl : l < level) :
    B.newStart P look level l + max ((after P level s).used l) (B.levelLength l) ≤
      B.newStart P look level (l + 1) := by
  unfold Buf.newStart
  rw [levelStart_succ]
  have h1 := padA_nonneg P look (after P level s) l
  rw [← h.padding_eq look (by omega)] at h1
  have h2 : (B.minLength P level l : Int) = max ((after P level s).used l : Int) (B.levelLength l) := by
    unfold Buf.minLength
    rw [h.newUsed_eq]
    push_cast
    rfl
  rw [h2, h.newUsed_eq]
  omega

theorem newStart_zero (look : Nat) : B.newStart P look level 0 = 0 := rfl

theorem newLay (h : Marked P level B s) (look : Nat) :
    Lay (B.newStart P look level) (after P level s).used level where
  start0 := rfl
  len := by
    intro l hl
    have := h.newStart_succ look hl
    omega

theorem newLay_old (h : Marked P level B s) (look : Nat) :
    Lay (B.newStart P look level) B.levelLength level where
  start0 := rfl
  len := by
    intro l hl
    have := h.newStart_succ look hl
    omega

theorem newLay_used (h : Marked P level B s) (look : Nat) :
    Lay (B.newStart P look level) s.used level where
  start0 := rfl
  len := by
    intro l hl
    have := h.newStart_succ look hl
    have := h.pre.used_le l
    omega

theorem length_eq (h : Marked P level B s) {l : Nat} (hl : l < level) :
    B.lstart l + B.levelLength l = B.lstart (l + 1) := by
  unfold Buf.levelLength
  have := h.rel.lay.mono (show l ≤ l + 1 by omega) (by omega)
  omega

theorem used_le_length (h : Marked P level B s) {l : Nat} (hl : l < level) :
    s.used l ≤ B.levelLength l := by
  have h1 := h.length_eq hl
  have h2 : B.lstart l + s.used l ≤ B.lstart (l + 1) := h.rel.lay.len l hl
  omega

theorem oldLay (h : Marked P level B s) : Lay B.lstart B.levelLength level where
  start0 := h.rel.lay.start0
  len := fun _ hl => le_of_eq (h.length_eq hl)

/-- Where a box goes. -/
theorem dst_eq (h : Marked P level B s) (look : Nat) {l k : Nat} (hl : l < level)
    (hk : k < B.levelLength l) :
    B.dst P look level (B.lstart l + k) = B.newStart P look level l + k := by
  unfold Buf.dst
  have e : ((List.range level).find? fun l' => decide (B.lstart l' ≤ B.lstart l + k ∧
      B.lstart l + k < B.lstart l' + B.levelLength l')) = some l := by
    apply find?_range_unique hl
    · simp [hk]
    · intro j hj hp
      simp only [decide_eq_true_eq] at hp
      have h1 := h.length_eq hj
      exact h.oldLay.inj (b := B.lstart l + k) hj hl hp.1 (by omega) (by omega)
        (h.oldLay.in_level hl hk)
  rw [e]
  simp

theorem dst_zero (h : Marked P level B s) (look : Nat) : B.dst P look level 0 = 0 := by
  have h1 := h.used_le_length h.lpos
  have h2 := h.pos 0 h.lpos
  have := h.dst_eq look (l := 0) (k := 0) h.lpos (by omega)
  rw [h.rel.lay.start0, newStart_zero] at this
  simpa using this

theorem old_cases (h : Marked P level B s) {b : Nat} (hb : b < B.lstart level) :
    ∃ l k, l < level ∧ k < B.levelLength l ∧ b = B.lstart l + k := by
  obtain ⟨l, h1, h2, h3⟩ := h.rel.lay.find hb
  have := h.length_eq h1
  exact ⟨l, b - B.lstart l, h1, by omega, by omega⟩

theorem gappy_at (h : Marked P level B s) (look : Nat) {α : Type} (zero : α) (a : Nat → α)
    {l k : Nat} (hl : l < level) (hk : k < B.levelLength l) :
    gappy zero (B.lstart level) (B.dst P look level) a (B.newStart P look level l + k) =
      a (B.lstart l + k) := by
  unfold gappy
  have e : ((List.range (B.lstart level)).find? fun i =>
      decide (B.dst P look level i = B.newStart P look level l + k)) = some (B.lstart l + k) := by
    apply find?_range_unique (h.oldLay.lt_level hl hk)
    · simpa using h.dst_eq look hl hk
    · intro j hj hp
      obtain ⟨l', k', hl', hk', rfl⟩ := h.old_cases hj
      simp only [decide_eq_true_eq] at hp
      rw [h.dst_eq look hl' hk'] at hp
      obtain ⟨rfl, rfl⟩ := (h.newLay_old look).emb_inj hl' hk' hl hk hp
      rfl
  rw [e]

theorem gappy_blank (h : Marked P level B s) (look : Nat) {α : Type} (zero : α) (a : Nat → α)
    {b : Nat} (hb : Unused (B.newStart P look level) s.used level b)
    (ha : ∀ b, Unused B.lstart s.used level b → a b = zero) :
    gappy zero (B.lstart level) (B.dst P look level) a b = zero := by
  unfold gappy
  split
  · rename_i i hi
    have h1 := List.mem_of_find?_eq_some hi
    have h2 := List.find?_some hi
    rw [List.mem_range] at h1
    simp only [decide_eq_true_eq] at h2
    obtain ⟨l, k, hl, hk, rfl⟩ := h.old_cases h1
    rw [h.dst_eq look hl hk] at h2
    apply ha
    have := h.length_eq hl
    refine .inr ⟨l, hl, ?_, by omega⟩
    by_contra hc
    exact (h.newLay_used look).not_unused hl (show k < s.used l by omega) (h2 ▸ hb)
  · rfl

theorem child_used (h : Marked P level B s) {m l k c : Nat} (hc : s.child m l k = some c) :
    l + 1 < level ∧ c < s.used (l + 1) := by
  have hch : s.hasCh l k = true ∧ m < P.nch := by
    by_contra hx
    rw [h.pre.inv.child_some m l k (by
      by_cases hy : s.hasCh l k = true
      · exact .inr (by by_contra; exact hx ⟨hy, by omega⟩)
      · exact .inl (by simpa using hy))] at hc
    cases hc
  refine ⟨(h.pre.inv.hasCh_used l k hch.1).2, ?_⟩
  obtain ⟨_, base, _, h2, h3⟩ := h.pre.inv.children l k hch.1
  have := (h3 m hch.2).1
  rw [this] at hc
  obtain rfl := Option.some.inj hc
  omega

theorem box_cases (h : Marked P level B s) (i : Nat) :
    (s.box i).1 < level ∧ (s.box i).2 < s.used (s.box i).1 := by
  by_cases hi : i < P.n
  · have := (h.pre.inv.box_used hi).1
    exact ⟨h.pre.inv.used_level this, this⟩
  · rw [h.out i (by omega)]
    exact ⟨h.lpos, h.pos 0 h.lpos⟩

/-- Moving keeps the relation. -/
theorem move (h : Marked P level B s) (hr : P.levelRestrict = true) (look : Nat) {cap : Nat}
    (hc : B.newStart P look level level ≤ cap) :
    Rel P level (B.move P look level cap) (markSplit P level s) := by
  have els : ∀ l ≤ level, (B.move P look level cap).lstart l = B.newStart P look level l := by
    intro l hl
    change (if l ≤ level then _ else _) = _
    rw [if_pos hl]
  have hlay := h.newLay_used look
  have eU : (markSplit P level s).used = s.used := rfl
  have hun : ∀ b, Unused (B.move P look level cap).lstart s.used level b →
      Unused (B.newStart P look level) s.used level b := by
    rintro b (h1 | ⟨l, h1, h2, h3⟩)
    · rw [els _ (le_refl _)] at h1; exact .inl h1
    · rw [els _ (by omega)] at h2 h3; exact .inr ⟨l, h1, h2, h3⟩
  constructor
  · exact ⟨by rw [els _ (by omega)]; rfl, fun l hl => by
      rw [els _ (by omega), els _ (by omega)]; exact hlay.len l hl⟩
  · intro hx; rw [hr] at hx; cases hx
  · rw [els _ (le_refl _)]; exact hc
  · exact h.rel.used
  · exact h.rel.ids
  · exact h.rel.flag
  · exact h.rel.oversize
  · intro i
    change B.dst P look level (B.box i) = _
    have hb := h.box_cases i
    have e : B.box i = B.lstart (s.box i).1 + (s.box i).2 := h.rel.box i
    have eb : (markSplit P level s).box i = s.box i := rfl
    have := h.used_le_length hb.1
    rw [e, h.dst_eq look hb.1 (by omega), eb, els _ (by omega)]
  · intro l hl b h1 h2
    rw [els _ (by omega)] at h1 h2
    change ((List.range level).find? fun l => decide (B.newStart P look level l ≤ b ∧
      b < B.newStart P look level (l + 1))).getD 0 = l
    have e : ((List.range level).find? fun l => decide (B.newStart P look level l ≤ b ∧
        b < B.newStart P look level (l + 1))) = some l := by
      apply find?_range_unique hl (by simp [h1, h2])
      intro j hj hp
      simp only [decide_eq_true_eq] at hp
      exact hlay.inj hj hl hp.1 hp.2 h1 h2
    rw [e]
    rfl
  · intro l hl k hk
    rw [eU] at hk
    have hS := h.rel.same l hl k hk
    have hk' : k < B.levelLength l := by have := h.used_le_length hl; omega
    have e : (B.move P look level cap).lstart l + k = B.newStart P look level l + k := by
      rw [els _ (by omega)]
    constructor
    · rw [e]; exact (h.gappy_at look _ _ hl hk').trans hS.start
    · rw [e]; exact (h.gappy_at look _ _ hl hk').trans hS.count
    · rw [e]; exact (h.gappy_at look _ _ hl hk').trans hS.bins
    · intro a; rw [e]; exact (h.gappy_at look _ _ hl hk').trans (hS.center a)
    · intro a; rw [e]; exact (h.gappy_at look _ _ hl hk').trans (hS.stored a)
    · rw [e]; exact (h.gappy_at look _ _ hl hk').trans hS.hasCh
    · rw [e]; exact (h.gappy_at look _ _ hl hk').trans hS.force
    · rw [e]
      refine (h.gappy_at look _ _ hl hk').trans ?_
      rw [hS.parent]
      cases l with
      | zero => simp only [if_true]; exact h.dst_zero look
      | succ l =>
        simp only [Nat.succ_ne_zero, if_false, Nat.add_sub_cancel]
        have hp := (h.pre.inv.parent_ok l k hk).1
        have := h.used_le_length (show l < level by omega)
        rw [els _ (by omega)]
        exact h.dst_eq look (by omega) (show s.parent (l + 1) k < _ by omega)
    · intro m
      rw [e]
      refine (h.gappy_at look _ _ hl hk').trans ?_
      rw [hS.child]
      have ec : (markSplit P level s).child m l k = s.child m l k := rfl
      rw [ec]
      cases hcd : s.child m l k with
      | none => exact h.dst_zero look
      | some c =>
        obtain ⟨h1, h2⟩ := h.child_used hcd
        have := h.used_le_length h1
        simp only
        rw [els _ (by omega)]
        exact h.dst_eq look h1 (by omega)
  · intro b hb
    have hb' := hun b hb
    constructor
    · exact h.gappy_blank look _ _ hb' fun b hb => (h.rel.blank b hb).start
    · exact h.gappy_blank look _ _ hb' fun b hb => (h.rel.blank b hb).count
    · exact h.gappy_blank look _ _ hb' fun b hb => (h.rel.blank b hb).bins
    · exact h.gappy_blank look _ _ hb' fun b hb => (h.rel.blank b hb).hasCh
    · exact h.gappy_blank look _ _ hb' fun b hb => (h.rel.blank b hb).force
    · intro m
      exact h.gappy_blank look _ _ hb' fun b hb => by
        rw [(h.rel.blank b hb).child]; exact h.dst_zero look
    · exact h.gappy_blank look _ _ hb' fun b hb => by
        rw [(h.rel.blank b hb).parent]; exact h.dst_zero look

theorem moveOK (h : Marked P level B s) (look : Nat) {cap : Nat}
    (hc : B.newStart P look level level ≤ cap) : B.MoveOK P look level cap := by
  have hp := h.lstart_pos
  refine ⟨?_, ?_, hc⟩
  · intro b hb
    refine ⟨?_, ?_, ?_⟩
    · obtain ⟨l, k, hl, hk, rfl⟩ := h.old_cases hb
      rw [h.dst_eq look hl hk]
      have := (h.newLay_old look).lt_level hl hk
      omega
    · rcases h.rel.lay.cases b with hu | ⟨l, k, hl, hk, rfl⟩
      · rw [(h.rel.blank b hu).parent]; omega
      · rw [(h.rel.same l hl k hk).parent]
        cases l with
        | zero => simp only [if_true]; omega
        | succ l =>
          simp only [Nat.succ_ne_zero, if_false, Nat.add_sub_cancel]
          exact h.rel.lay.lt_level (show l < level by omega) (h.pre.inv.parent_ok l k hk).1
    · intro m _
      rcases h.rel.lay.cases b with hu | ⟨l, k, hl, hk, rfl⟩
      · rw [(h.rel.blank b hu).child]; omega
      · rw [(h.rel.same l hl k hk).child]
        split
        · rename_i c hcd
          obtain ⟨h1, h2⟩ := h.child_used hcd
          exact h.rel.lay.lt_level h1 h2
        · omega
  · intro i _
    rw [h.rel.box]
    exact h.rel.lay.lt_level (h.box_cases i).1 (h.box_cases i).2

/-- Enlarging keeps the relation. -/
theorem enlarge (h : Marked P level B s) {cap : Nat} (hc : B.cap ≤ cap) :
    Rel P level (B.enlarge cap) (markSplit P level s) := by
  have hcap := h.rel.cap
  have hin : ∀ {α : Type} (zero : α) (a : Nat → α) {b : Nat}, b < B.lstart level →
      extend zero B.cap a b = a b := by
    intro α zero a b hb
    unfold extend
    rw [if_pos (by omega)]
  have hbl : ∀ {α : Type} (zero : α) (a : Nat → α) {b : Nat}, a b = zero →
      extend zero B.cap a b = zero := by
    intro α zero a b hb
    unfold extend
    split
    · exact hb
    · rfl
  constructor
  · exact h.rel.lay
  · exact h.rel.tight
  · exact le_trans h.rel.cap hc
  · exact h.rel.used
  · exact h.rel.ids
  · exact h.rel.flag
  · exact h.rel.oversize
  · exact h.rel.box
  · intro l hl b h1 h2
    have : b < B.lstart (l + 1) := h2
    have := h.rel.lay.mono (show l + 1 ≤ level by omega) (le_refl _)
    exact (hin 0 B.lev (by omega)).trans (h.rel.lev l hl b h1 h2)
  · intro l hl k hk
    have hS := h.rel.same l hl k hk
    have hlt := h.rel.lay.lt_level hl hk
    constructor
    · exact (hin _ _ hlt).trans hS.start
    · exact (hin _ _ hlt).trans hS.count
    · exact (hin _ _ hlt).trans hS.bins
    · exact fun a => (hin 0 (fun b => B.center b a) hlt).trans (hS.center a)
    · exact fun a => (hin 0 (fun b => B.stored b a) hlt).trans (hS.stored a)
    · exact (hin _ _ hlt).trans hS.hasCh
    · exact (hin _ _ hlt).trans hS.force
    · exact (hin _ _ hlt).trans hS.parent
    · exact fun m => (hin _ _ hlt).trans (hS.child m)
  · intro b hb
    have hB := h.rel.blank b hb
    exact ⟨hbl _ _ hB.start, hbl _ _ hB.count, hbl _ _ hB.bins, hbl _ _ hB.hasCh,
      hbl _ _ hB.force, fun m => hbl _ _ (hB.child m), hbl _ _ hB.parent⟩

/-! ### The second try -/


theorem writeBins_markSplit (hw : writeBins P s = s) :
    writeBins P (markSplit P level s) = markSplit P level s := by
  have e : (writeBins P (markSplit P level s)).bins = (writeBins P s).bins := by
    funext l k
    change (match (List.range P.n).find? fun i => decide (s.box i = (l, k) ∧
        (scanItem P (markSplit P level s) i).total P.nch = s.count l k) with
      | some i => scanItem P (markSplit P level s) i
      | none => s.bins l k) =
      (match (List.range P.n).find? fun i => decide (s.box i = (l, k) ∧
        (scanItem P s i).total P.nch = s.count l k) with
      | some i => scanItem P s i
      | none => s.bins l k)
    rw [show scanItem P (markSplit P level s) = scanItem P s from
      funext fun i => Pre.scanItem_mark i]
  have e2 : writeBins P (markSplit P level s) =
      { markSplit P level s with bins := (writeBins P (markSplit P level s)).bins } := rfl
  rw [e2, e, hw]
  rfl

theorem markSplit_twice (s : State) :
    markSplit P level (markSplit P level s) = markSplit P level s := by
  have hW : ∀ l k, want P level (markSplit P level s) l k = want P level s l k := fun _ _ => rfl
  unfold markSplit
  congr 1
  · funext l k
    change ((s.hasCh l k || (decide (l < level) && decide (k < s.used l) && want P level s l k)) ||
      (decide (l < level) && decide (k < s.used l) && want P level s l k)) = _
    rw [Bool.or_assoc, Bool.or_self]
  · change ((s.oversize || (List.range level).any fun l => (List.range (s.used l)).any fun k =>
      want P level s l k && decide (P.maxWeight < (s.bins l k).maxWeight P.nch)) ||
      (List.range level).any fun l => (List.range (s.used l)).any fun k =>
      want P level s l k && decide (P.maxWeight < (s.bins l k).maxWeight P.nch)) = _
    rw [Bool.or_assoc, Bool.or_self]

theorem scans_of_rel (h : Marked P level B s) {B' : Buf}
    (hB : Rel P level B' (markSplit P level s)) (hl : B'.leaf = B.leaf)
    (hlk : B'.lookSet = B.lookSet) :
    Marked P level ((B'.writeBins P).markSplit P level) s where
  rel := by
    have h1 := (hB.writeBins (Room.inBoxes h.pre)).markSplit h.refine_
    rw [writeBins_markSplit h.wb, markSplit_twice] at h1
    exact h1
  pre := h.pre
  refine_ := h.refine_
  pos := h.pos
  start0 := h.start0
  out := h.out
  leaf := by
    intro l hl'
    change B'.leaf l = _
    rw [hl]
    exact h.leaf l hl'
  look := by
    intro h1 h2
    change (B'.lookSet || _) = true
    rw [hlk, h.look h1 h2]
    rfl
  lookO := by
    intro h1 h2
    change (B'.lookSet || (P.levelRestrict && _)) = true
    rw [h1, Bool.true_and, Bool.or_eq_true]
    exact .inr h2
  noForce := h.noForce
  wb := h.wb

/-- Everything fits. -/
def Fits (P : Params) (look level : Nat) (B : Buf) : Prop :=
  B.needsRenumbering P level = false ∧ B.nboxesMinimal P look level ≤ B.cap

theorem needs_false (h : Marked P level B s)
    (hx : ∀ l < level, (after P level s).used l ≤ B.levelLength l) :
    B.needsRenumbering P level = false := by
  unfold Buf.needsRenumbering
  rw [List.any_eq_false]
  intro l hl
  rw [List.mem_range] at hl
  have := hx l hl
  unfold Buf.minLength
  rw [h.newUsed_eq]
  simp only [decide_eq_true_eq]
  omega

/-- After moving, everything fits. -/
theorem move_fits (h : Marked P level B s) (hr : P.levelRestrict = true) (look : Nat) {cap : Nat}
    (hc : ((B.newStart P look level level : Int) + lenA P look level (after P level s)).toNat ≤ cap) :
    Marked P level (((B.move P look level cap).writeBins P).markSplit P level) s ∧
      Fits P look level (((B.move P look level cap).writeBins P).markSplit P level) := by
  have hge := lenA_ge P look level (after P level s)
  have hM := h.scans_of_rel (h.move hr look (cap := cap) (by omega)) rfl rfl
  refine ⟨hM, ?_⟩
  have els : ∀ l ≤ level, (((B.move P look level cap).writeBins P).markSplit P level).lstart l =
      B.newStart P look level l := by
    intro l hl
    change (if l ≤ level then _ else _) = _
    rw [if_pos hl]
  have hn := hM.needs_false (fun l hl => by
    unfold Buf.levelLength
    rw [els _ (by omega), els _ (by omega)]
    have := h.newStart_succ look hl
    omega)
  refine ⟨hn, ?_⟩
  have := hM.nboxesMinimal_eq look hn
  rw [els _ (le_refl _)] at this
  change _ ≤ cap
  omega

/-- After enlarging, everything fits. -/
theorem enlarge_fits (h : Marked P level B s) (look : Nat) {cap : Nat}
    (hn : B.needsRenumbering P level = false) (hb : B.cap ≤ cap)
    (hc : B.nboxesMinimal P look level ≤ cap) :
    Marked P level (((B.enlarge cap).writeBins P).markSplit P level) s ∧
      Fits P look level (((B.enlarge cap).writeBins P).markSplit P level) := by
  have hM := h.scans_of_rel (h.enlarge hb) rfl rfl
  refine ⟨hM, ?_⟩
  have hn' := hM.needs_false (fun l hl => by
    have := fits hn hl
    rw [h.newUsed_eq] at this
    exact this)
  refine ⟨hn', ?_⟩
  have h1 := hM.nboxesMinimal_eq look hn'
  have h2 := h.nboxesMinimal_eq look hn
  have e : (((B.enlarge cap).writeBins P).markSplit P level).lstart level = B.lstart level := rfl
  rw [e] at h1
  change _ ≤ cap
  omega

/-- Renumbering is needed with level restriction only, and not on the first levels. -/
theorem needs_restrict (h : Marked P level B s) (hn : B.needsRenumbering P level = true) :
    P.levelRestrict = true ∧ 2 ≤ level ∧
      ∃ l < level, B.levelLength l < (after P level s).used l := by
  unfold Buf.needsRenumbering at hn
  rw [List.any_eq_true] at hn
  obtain ⟨l, hl, hx⟩ := hn
  rw [List.mem_range] at hl
  simp only [decide_eq_true_eq] at hx
  unfold Buf.minLength at hx
  rw [h.newUsed_eq] at hx
  have hlt : B.levelLength l < (after P level s).used l := by omega
  have hu := h.used_le_length hl
  have hl0 : l ≠ 0 := by
    rintro rfl
    rw [Pre.used_zero] at hlt
    rw [h.pre.inv.used_zero] at hu
    omega
  refine ⟨?_, by omega, l, hl, hlt⟩
  by_contra hr
  obtain ⟨l', rfl⟩ : ∃ l', l = l' + 1 := ⟨l - 1, by omega⟩
  obtain ⟨k, m, h1, h2, h3, h4⟩ := h.pre.new_box (l := l') (c := s.used (l' + 1)) (le_refl _)
    (by omega)
  unfold want at h2
  rw [h.noForce (by simpa using hr)] at h2
  simp only [Bool.and_false, Bool.or_false, Bool.and_eq_true, decide_eq_true_eq] at h2
  omega

theorem plan_needs (h : Marked P level B s) (look : Nat) (final : Bool)
    (hn : B.needsRenumbering P level = true) : ∃ cap,
      B.plan P look level final = .move cap ∧
      ((B.newStart P look level level : Int) + lenA P look level (after P level s)).toNat ≤ cap := by
  obtain ⟨hr, hl, l, hlt, hx⟩ := h.needs_restrict hn
  have hcap := h.rel.cap
  have hp := h.lstart_pos
  refine ⟨_, ?_, need_grow' (guess := B.cap) (by omega)⟩
  unfold Buf.plan
  rw [if_pos hn, if_neg (by rw [hr]; simp), if_neg (by rw [h.look hr hl]; simp), if_neg]
  · simp only
    rw [h.newLength_eq]
  · intro hc
    have h1 := h.newStart_succ look hlt
    rw [← hc l (by omega), ← hc (l + 1) (by omega)] at h1
    have h2 := h.length_eq hlt
    omega

theorem plan_enlarge (h : Marked P level B s) (look : Nat) (final : Bool)
    (hn : B.needsRenumbering P level = false) (hc : B.cap < B.nboxesMinimal P look level) : ∃ cap,
      B.plan P look level final = .enlarge cap ∧ B.cap ≤ cap ∧
        B.nboxesMinimal P look level ≤ cap := by
  have hcap := h.rel.cap
  have hp := h.lstart_pos
  refine ⟨_, ?_, le_grow _ _, need_grow' (guess := B.cap) (by omega)⟩
  unfold Buf.plan
  rw [if_neg (by rw [hn]; simp)]
  simp only
  rw [if_pos hc]

theorem plan_fits {look : Nat} (final : Bool) (hf : Fits P look level B) :
    B.plan P look level final =
      if B.lstart level = B.nboxesMinimal P look level ∧ final = false then
        if P.haveExtent then .stop else .fail "AssertionError"
      else .split (B.nboxesMinimal P look level) := by
  unfold Buf.plan
  rw [if_neg (by rw [hf.1]; simp)]
  simp only
  rw [if_neg (by have := hf.2; omega)]

end Marked
end Boxtree.Build
