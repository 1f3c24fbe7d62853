import Verif.Model.Alloc
import Verif.Lemmas.LeafWeights
import Verif.Lemmas.Flat

/-! The flat arrays represent a state of the level loop. -/

namespace Boxtree.Build

/-- Levels `0, …, level-1` start at `lstart` and have room for `used` boxes. -/
structure Lay (lstart used : Nat → Nat) (level : Nat) : Prop where
  start0 : lstart 0 = 0
  len : ∀ l < level, lstart l + used l ≤ lstart (l + 1)

namespace Lay
variable {lstart used : Nat → Nat} {level : Nat}

theorem mono (h : Lay lstart used level) {a b : Nat} (hab : a ≤ b) (hb : b ≤ level) :
    lstart a ≤ lstart b := by
  induction b, hab using Nat.le_induction with
  | base => exact le_refl _
  | succ b hab ih =>
    have := h.len b (by omega)
    have := ih (by omega)
    omega

theorem inj (h : Lay lstart used level) {l l' b : Nat} (hl : l < level) (hl' : l' < level)
    (h1 : lstart l ≤ b) (h2 : b < lstart (l + 1)) (h3 : lstart l' ≤ b) (h4 : b < lstart (l' + 1)) :
    l = l' := by
  rcases Nat.lt_trichotomy l l' with hc | hc | hc
  · have := h.mono (show l + 1 ≤ l' by omega) (by omega); omega
  · exact hc
  · have := h.mono (show l' + 1 ≤ l by omega) (by omega); omega

theorem find (h : Lay lstart used level) {b : Nat} (hb : b < lstart level) :
    ∃ l < level, lstart l ≤ b ∧ b < lstart (l + 1) := by
  have key : ∀ d, d ≤ level → b < lstart d → ∃ l < d, lstart l ≤ b ∧ b < lstart (l + 1) := by
    intro d
    induction d with
    | zero => intro _ hc; rw [h.start0] at hc; omega
    | succ d ih =>
      intro hd hc
      by_cases h1 : b < lstart d
      · obtain ⟨l, h2, h3⟩ := ih (by omega) h1
        exact ⟨l, by omega, h3⟩
      · exact ⟨d, by omega, by omega, hc⟩
  exact key level (le_refl _) hb

theorem in_level (h : Lay lstart used level) {l k : Nat} (hl : l < level) (hk : k < used l) :
    lstart l + k < lstart (l + 1) := by have := h.len l hl; omega

theorem lt_level (h : Lay lstart used level) {l k : Nat} (hl : l < level) (hk : k < used l) :
    lstart l + k < lstart level := by
  have := h.in_level hl hk
  have := h.mono (show l + 1 ≤ level by omega) (le_refl _)
  omega

theorem emb_inj (h : Lay lstart used level) {l k l' k' : Nat} (hl : l < level) (hk : k < used l)
    (hl' : l' < level) (hk' : k' < used l') (he : lstart l + k = lstart l' + k') :
    l = l' ∧ k = k' := by
  have : l = l' := h.inj (b := lstart l + k) hl hl' (by omega) (h.in_level hl hk) (by omega)
    (by rw [he]; exact h.in_level hl' hk')
  subst this
  omega

end Lay

/-- Box `b` is padding or is not on a level yet. -/
def Unused (lstart used : Nat → Nat) (level b : Nat) : Prop :=
  lstart level ≤ b ∨ ∃ l < level, lstart l + used l ≤ b ∧ b < lstart (l + 1)

theorem Lay.cases {lstart used : Nat → Nat} {level : Nat} (h : Lay lstart used level) (b : Nat) :
    Unused lstart used level b ∨ ∃ l k, l < level ∧ k < used l ∧ b = lstart l + k := by
  by_cases hb : b < lstart level
  · obtain ⟨l, h1, h2, h3⟩ := h.find hb
    by_cases h4 : b < lstart l + used l
    · exact .inr ⟨l, b - lstart l, h1, by omega, by omega⟩
    · exact .inl (.inr ⟨l, h1, by omega, h3⟩)
  · exact .inl (.inl (by omega))

theorem Lay.not_unused {lstart used : Nat → Nat} {level l k : Nat} (h : Lay lstart used level)
    (hl : l < level) (hk : k < used l) : ¬ Unused lstart used level (lstart l + k) := by
  rintro (h1 | ⟨l', h1, h2, h3⟩)
  · have := h.lt_level hl hk; omega
  · have e := h.inj hl h1 (b := lstart l + k) (by omega) (h.in_level hl hk) (by omega) h3
    subst e
    omega

/-- The entries for box `(l, k)`. -/
structure Same (B : Buf) (s : State) (l k : Nat) : Prop where
  start : B.start (B.lstart l + k) = s.start l k
  count : B.count (B.lstart l + k) = s.count l k
  bins : B.bins (B.lstart l + k) = s.bins l k
  center : ∀ a, B.center (B.lstart l + k) a = s.center l k a
  stored : ∀ a, B.stored (B.lstart l + k) a = s.stored l k a
  hasCh : B.hasCh (B.lstart l + k) = s.hasCh l k
  force : B.force (B.lstart l + k) = s.force l k
  parent : B.parent (B.lstart l + k) = if l = 0 then 0 else B.lstart (l - 1) + s.parent l k
  child : ∀ m, B.child m (B.lstart l + k) = match s.child m l k with
    | some c => B.lstart (l + 1) + c
    | none => 0

/-- The entries of an unused box. -/
structure Blank (B : Buf) (b : Nat) : Prop where
  start : B.start b = 0
  count : B.count b = 0
  bins : B.bins b = Bins.zero
  hasCh : B.hasCh b = false
  force : B.force b = false
  child : ∀ m, B.child m b = 0
  parent : B.parent b = 0

/-- The arrays `B` at the beginning of the trip for `level` represent the state `s`. -/
structure Rel (P : Params) (level : Nat) (B : Buf) (s : State) : Prop where
  lay : Lay B.lstart s.used level
  tight : P.levelRestrict = false → ∀ l < level, B.lstart (l + 1) = B.lstart l + s.used l
  cap : B.lstart level ≤ B.cap
  used : B.used = s.used
  ids : B.ids = s.ids
  flag : B.flag = s.flag
  oversize : B.oversize = s.oversize
  box : ∀ i, B.box i = B.lstart (s.box i).1 + (s.box i).2
  lev : ∀ l < level, ∀ b, B.lstart l ≤ b → b < B.lstart (l + 1) → B.lev b = l
  same : ∀ l < level, ∀ k < s.used l, Same B s l k
  blank : ∀ b, Unused B.lstart s.used level b → Blank B b

/-- All particles are in used boxes above `level`. -/
def InBoxes (P : Params) (level : Nat) (s : State) : Prop :=
  ∀ i < P.n, (s.box i).1 < level ∧ (s.box i).2 < s.used (s.box i).1

section
variable {P : Params} {level : Nat} {B : Buf} {s : State}

theorem zero_weight (nch : Nat) : Bins.zero.weight nch = 0 := by
  unfold Bins.weight
  induction nch with
  | zero => rfl
  | succ n ih =>
    rw [List.range_succ, List.foldl_append, ih]
    rfl

namespace Rel

theorem lev_at (h : Rel P level B s) {l k : Nat} (hl : l < level) (hk : k < s.used l) :
    B.lev (B.lstart l + k) = l := h.lev l hl _ (by omega) (h.lay.in_level hl hk)

theorem box_lev (h : Rel P level B s) (hb : InBoxes P level s) {i : Nat} (hi : i < P.n) :
    B.lev (B.box i) = (s.box i).1 := by
  rw [h.box]
  exact h.lev_at (hb i hi).1 (hb i hi).2

theorem box_iff (h : Rel P level B s) (hb : InBoxes P level s) {i l k : Nat} (hi : i < P.n)
    (hl : l < level) (hk : k < s.used l) : B.box i = B.lstart l + k ↔ s.box i = (l, k) := by
  rw [h.box]
  constructor
  · intro he
    obtain ⟨h1, h2⟩ := h.lay.emb_inj (hb i hi).1 (hb i hi).2 hl hk he
    exact Prod.ext h1 h2
  · intro he; rw [he]

theorem scanItem (h : Rel P level B s) (hb : InBoxes P level s) : ∀ i < P.n,
    B.scanItem P i = Build.scanItem P s i := by
  intro i
  induction i with
  | zero =>
    intro hi
    unfold Buf.scanItem Build.scanItem
    rw [h.box_lev hb hi, h.ids]
  | succ i ih =>
    intro hi
    unfold Buf.scanItem Build.scanItem
    rw [h.box_lev hb hi, h.ids, h.flag, ih (by omega)]

theorem find_congr {n : Nat} {p q : Nat → Bool} (h : ∀ i < n, p i = q i) :
    (List.range n).find? p = (List.range n).find? q := by
  induction n with
  | zero => rfl
  | succ n ih =>
    rw [List.range_succ, List.find?_append, List.find?_append, ih fun i hi => h i (by omega)]
    congr 1
    simp only [List.find?_cons, List.find?_nil]
    rw [h n (by omega)]

theorem writeBins (h : Rel P level B s) (hb : InBoxes P level s) :
    Rel P level (B.writeBins P) (Build.writeBins P s) where
  lay := h.lay
  tight := h.tight
  cap := h.cap
  used := h.used
  ids := h.ids
  flag := h.flag
  oversize := h.oversize
  box := h.box
  lev := h.lev
  same := fun l hl k hk =>
    { start := (h.same l hl k hk).start
      count := (h.same l hl k hk).count
      center := (h.same l hl k hk).center
      stored := (h.same l hl k hk).stored
      hasCh := (h.same l hl k hk).hasCh
      force := (h.same l hl k hk).force
      parent := (h.same l hl k hk).parent
      child := (h.same l hl k hk).child
      bins := by
        have e : ((List.range P.n).find? fun i => decide (B.box i = B.lstart l + k ∧
              (B.scanItem P i).total P.nch = B.count (B.lstart l + k))) =
            ((List.range P.n).find? fun i => decide (s.box i = (l, k) ∧
              (Build.scanItem P s i).total P.nch = s.count l k)) := by
          apply find_congr
          intro i hi
          rw [Bool.eq_iff_iff, decide_eq_true_eq, decide_eq_true_eq, h.box_iff hb hi hl hk,
            h.scanItem hb i hi, (h.same l hl k hk).count]
        show (match (List.range P.n).find? fun i => decide (B.box i = B.lstart l + k ∧
              (B.scanItem P i).total P.nch = B.count (B.lstart l + k)) with
            | some i => B.scanItem P i | none => B.bins (B.lstart l + k)) =
          (match (List.range P.n).find? fun i => decide (s.box i = (l, k) ∧
              (Build.scanItem P s i).total P.nch = s.count l k) with
            | some i => Build.scanItem P s i | none => s.bins l k)
        rw [e]
        split
        · rename_i i hi
          have := List.mem_of_find?_eq_some hi
          rw [List.mem_range] at this
          exact h.scanItem hb i this
        · exact (h.same l hl k hk).bins }
  blank := fun b hub =>
    have hB := h.blank b hub
    { start := hB.start
      count := hB.count
      hasCh := hB.hasCh
      force := hB.force
      child := hB.child
      parent := hB.parent
      bins := by
        have e : ((List.range P.n).find? fun i => decide (B.box i = b ∧
              (B.scanItem P i).total P.nch = B.count b)) = none := by
          apply find?_range_none
          intro i hi
          rw [decide_eq_false_iff_not]
          rintro ⟨h1, _⟩
          rw [h.box] at h1
          exact h.lay.not_unused (hb i hi).1 (hb i hi).2 (by rw [h1]; exact hub)
        show (match (List.range P.n).find? fun i => decide (B.box i = b ∧
              (B.scanItem P i).total P.nch = B.count b) with
            | some i => B.scanItem P i | none => B.bins b) = _
        rw [e]
        exact hB.bins }

theorem want (h : Rel P level B s) {l k : Nat} (hl : l < level) (hk : k < s.used l) :
    B.want P level (B.lstart l + k) = Build.want P level s l k := by
  unfold Buf.want Build.want
  rw [h.lev_at hl hk, (h.same l hl k hk).bins, (h.same l hl k hk).count, (h.same l hl k hk).force]

theorem want_unused (h : Rel P level B s) (hA : P.levelRestrict = true → P.adaptive = true)
    {b : Nat} (hb : b < B.lstart level) (hu : Unused B.lstart s.used level b) :
    B.want P level b = false := by
  have hr : P.levelRestrict = true := by
    by_contra hc
    rcases hu with h1 | ⟨l, h1, h2, h3⟩
    · omega
    · have := h.tight (by simpa using hc) l h1; omega
  unfold Buf.want
  rw [hA hr, (h.blank b hu).bins, (h.blank b hu).force, zero_weight]
  simp

theorem any_used (h : Rel P level B s) (f : Nat → Bool) (g : Nat → Nat → Bool)
    (h1 : ∀ l < level, ∀ k < s.used l, f (B.lstart l + k) = g l k)
    (h2 : ∀ b < B.lstart level, Unused B.lstart s.used level b → f b = false) :
    (List.range (B.lstart level)).any f =
      (List.range level).any fun l => (List.range (s.used l)).any (g l) := by
  rw [Bool.eq_iff_iff]
  simp only [List.any_eq_true, List.mem_range]
  constructor
  · rintro ⟨b, hb, hf⟩
    rcases h.lay.cases b with hu | ⟨l, k, hl, hk, rfl⟩
    · rw [h2 b hb hu] at hf; cases hf
    · exact ⟨l, hl, k, hk, by rw [← h1 l hl k hk]; exact hf⟩
  · rintro ⟨l, hl, k, hk, hg⟩
    exact ⟨_, h.lay.lt_level hl hk, by rw [h1 l hl k hk]; exact hg⟩

theorem markSplit (h : Rel P level B s) (hA : P.levelRestrict = true → P.adaptive = true) :
    Rel P level (B.markSplit P level) (Build.markSplit P level s) where
  lay := h.lay
  tight := h.tight
  cap := h.cap
  used := h.used
  ids := h.ids
  flag := h.flag
  oversize := by
    show (B.oversize || (List.range (B.lstart level)).any fun b =>
      B.want P level b && decide (P.maxWeight < (B.bins b).maxWeight P.nch)) = _
    rw [h.oversize, h.any_used _ (fun l k => Build.want P level s l k &&
      decide (P.maxWeight < (s.bins l k).maxWeight P.nch))]
    · rfl
    · intro l hl k hk
      rw [h.want hl hk, (h.same l hl k hk).bins]
    · intro b hb hu
      rw [h.want_unused hA hb hu]; rfl
  box := h.box
  lev := h.lev
  same := fun l hl k hk =>
    { start := (h.same l hl k hk).start
      count := (h.same l hl k hk).count
      bins := (h.same l hl k hk).bins
      center := (h.same l hl k hk).center
      stored := (h.same l hl k hk).stored
      force := (h.same l hl k hk).force
      parent := (h.same l hl k hk).parent
      child := (h.same l hl k hk).child
      hasCh := by
        show (B.hasCh (B.lstart l + k) || (decide (B.lstart l + k < B.lstart level) &&
          B.want P level (B.lstart l + k))) = (s.hasCh l k ||
            (decide (l < level) && decide (k < s.used l) && Build.want P level s l k))
        rw [(h.same l hl k hk).hasCh, h.want hl hk, decide_eq_true (h.lay.lt_level hl hk),
          decide_eq_true hl,
          decide_eq_true (show k < s.used l from hk)]
        rfl }
  blank := fun b hu =>
    have hB := h.blank b hu
    { start := hB.start
      count := hB.count
      bins := hB.bins
      force := hB.force
      child := hB.child
      parent := hB.parent
      hasCh := by
        show (B.hasCh b || (decide (b < B.lstart level) && B.want P level b)) = false
        rw [hB.hasCh]
        by_cases hb : b < B.lstart level
        · rw [h.want_unused hA hb hu]; simp
        · simp [hb] }

end Rel

/-! ### The scan for the new boxes -/

theorem Rel.lev_lt (h : Rel P level B s) {b : Nat} (hb : b < B.lstart level) : B.lev b < level := by
  obtain ⟨l, h1, h2, h3⟩ := h.lay.find hb
  rw [h.lev l h1 b h2 h3]
  exact h1

/-- `split_box_ids` of the box at position `k` of its level, padding included. -/
theorem Rel.splitId_raw (h : Rel P level B s) {l : Nat} (hl : l < level) : ∀ k,
    B.lstart l + k < B.lstart (l + 1) →
    B.splitId P level (B.lstart l + k) = B.lstart (l + 1) + B.used (l + 1) +
      P.nch * Nat.count (fun k' => B.want P level (B.lstart l + k') = true) (k + 1) := by
  intro k
  induction k with
  | zero =>
    intro hk
    have hlev := h.lev l hl _ (le_refl _) hk
    have e : B.need P level (B.lstart l) = B.lstart (l + 1) + B.used (l + 1) +
        P.nch * Nat.count (fun k' => B.want P level (B.lstart l + k') = true) (0 + 1) := by
      unfold Buf.need
      rw [hlev, if_pos rfl, Nat.count_succ]
      simp only [Nat.count_zero, Nat.add_zero, Nat.zero_add]
      split <;> simp
    have e0 : B.lstart l + 0 = B.lstart l := by omega
    rw [e0, ← e]
    cases hb : B.lstart l with
    | zero => rw [Buf.splitId]
    | succ b =>
      rw [Buf.splitId, if_pos]
      intro hc
      have hl0 : 0 < l := by
        rcases Nat.eq_zero_or_pos l with h0 | h0
        · subst h0; rw [h.lay.start0] at hb; omega
        · exact h0
      have hb1 : b < B.lstart level := by
        have := h.lay.mono (show l ≤ level by omega) (le_refl _); omega
      obtain ⟨l', h1, h2, h3⟩ := h.lay.find hb1
      rw [h.lev l' h1 b h2 h3, ← hb, hlev] at hc
      subst hc
      omega
  | succ k ih =>
    intro hk
    have hlev := h.lev l hl (B.lstart l + (k + 1)) (by omega) hk
    have hlev' := h.lev l hl (B.lstart l + k) (by omega) (by omega)
    rw [show B.lstart l + (k + 1) = (B.lstart l + k) + 1 by omega] at hlev ⊢
    rw [Buf.splitId, if_neg (by rw [hlev, hlev']; simp), ih (by omega)]
    unfold Buf.need
    rw [hlev, if_neg (by omega), Nat.count_succ _ (k + 1)]
    rw [show B.lstart l + (k + 1) = (B.lstart l + k) + 1 by omega]
    split <;> ring

/-- Counting the split boxes of a level: padding does not matter. -/
theorem Rel.count_want (h : Rel P level B s) (hA : P.levelRestrict = true → P.adaptive = true)
    {l : Nat} (hl : l < level) : ∀ k, B.lstart l + k ≤ B.lstart (l + 1) →
    Nat.count (fun k' => B.want P level (B.lstart l + k') = true) k =
      Nat.count (fun k' => Build.want P level s l k' = true) (min k (s.used l)) := by
  intro k
  induction k with
  | zero => intro _; simp
  | succ k ih =>
    intro hk
    rw [Nat.count_succ, ih (by omega)]
    by_cases hu : k < s.used l
    · rw [h.want hl hu, show min (k + 1) (s.used l) = k + 1 by omega,
        show min k (s.used l) = k by omega, Nat.count_succ]
    · have := h.lay.mono (show l + 1 ≤ level by omega) (le_refl _)
      rw [h.want_unused hA (b := B.lstart l + k) (by omega)
        (.inr ⟨l, hl, by omega, by omega⟩), show min (k + 1) (s.used l) = s.used l by omega,
        show min k (s.used l) = s.used l by omega]
      simp

theorem Rel.splitId (h : Rel P level B s) (hA : P.levelRestrict = true → P.adaptive = true)
    {l k : Nat} (hl : l < level) (hk : k < s.used l) :
    B.splitId P level (B.lstart l + k) = B.lstart (l + 1) + splitEnd P level s l k := by
  have := h.lay.in_level hl hk
  rw [h.splitId_raw hl k this, h.count_want hA hl (k + 1) (by omega), h.used]
  unfold splitEnd
  rw [show min (k + 1) (s.used l) = k + 1 by omega]
  omega

theorem Rel.newUsed (h : Rel P level B s) (hA : P.levelRestrict = true → P.adaptive = true)
    (hpos : ∀ l < level, 0 < s.used l) (l : Nat) :
    B.newUsed P level l = Build.newUsed P level s l := by
  unfold Buf.newUsed Build.newUsed
  split
  · rfl
  · rename_i h0
    split
    · rename_i hl
      obtain ⟨l, rfl⟩ : ∃ j, l = j + 1 := ⟨l - 1, by omega⟩
      have hl' : l < level := by omega
      have hlen := h.lay.len l hl'
      have hp := hpos l hl'
      rw [show B.lstart (l + 1) - 1 = B.lstart l + (B.lstart (l + 1) - 1 - B.lstart l) by omega,
        h.splitId_raw hl' _ (by omega), h.count_want hA hl' _ (by omega), h.used,
        show l + 1 - 1 = l by omega,
        show min (B.lstart (l + 1) - 1 - B.lstart l + 1) (s.used l) = s.used l by omega]
      omega
    · rfl

end
end Boxtree.Build
