import Verif.Model.TreeBuild
import Verif.Lemmas.CountSort
import Mathlib.Tactic.Common

/-! Invariant of the level loop of the tree builder. -/

namespace Boxtree.Build

open CountSort

/-- Morton numbers are in range. -/
def Params.MortOK (P : Params) : Prop := ∀ p l m, P.mort p l = some m → m < P.nch

theorem nch_pos (P : Params) : 0 < P.nch := Nat.pow_pos (by omega)

/-- Number of particles that are in the box and in none of its children. -/
def own (s : State) (l k : Nat) : Nat :=
  if s.hasCh l k then (s.bins l k).nonchild else s.count l k

/-- Particle `p` belongs into all boxes between the root and `(l, k)`. -/
def PathOK (P : Params) (parent : Nat → Nat → Nat) (p : Nat) : Nat → Nat → Prop
  | 0, _ => True
  | l + 1, k => P.mort p l = some (k % P.nch) ∧ PathOK P parent p l (parent (l + 1) k)

/-- Radius of a box. -/
def radius (P : Params) (l : Nat) : ℚ := P.rootExtent / 2 ^ (1 + l)

/-- Center of child `m` of the box with center `c` on level `l`. -/
def childCenter (P : Params) (l : Nat) (c : Nat → ℚ) (m a : Nat) : ℚ :=
  if m / 2 ^ (P.dims - 1 - a) % 2 = 1 then c a + radius P (l + 1) else c a - radius P (l + 1)

/-- Stored center of child `m` of the box with stored center `c` on level `l`. -/
def childStored (P : Params) (l : Nat) (c : Nat → ℚ) (m a : Nat) : ℚ :=
  if m / 2 ^ (P.dims - 1 - a) % 2 = 1 then P.fl (c a + P.fl (radius P (l + 1)))
  else P.fl (c a - P.fl (radius P (l + 1)))

/-- The state is a tree with the levels above `level`. -/
structure Inv (P : Params) (level : Nat) (s : State) : Prop where
  ids_lt : ∀ i < P.n, s.ids i < P.n
  ids_inj : ∀ i < P.n, ∀ j < P.n, s.ids i = s.ids j → i = j
  used_zero : s.used 0 = 1
  used_deep : ∀ l, level ≤ l → s.used l = 0
  used_dvd : ∀ l, P.nch ∣ s.used (l + 1)
  root_start : s.start 0 0 = 0
  root_count : s.count 0 0 = P.n
  root_center : ∀ a, s.center 0 0 a = P.rootCenter a
  root_stored : ∀ a, s.stored 0 0 a = P.storedRoot a
  hasCh_used : ∀ l k, s.hasCh l k = true → k < s.used l ∧ l + 1 < level
  unused_count : ∀ l k, s.used l ≤ k → s.count l k = 0
  empty_bins : ∀ l k, s.count l k = 0 → s.bins l k = Bins.zero
  children : ∀ l k, s.hasCh l k = true →
    (s.bins l k).total P.nch = s.count l k ∧
    ∃ base, P.nch ∣ base ∧ base + P.nch ≤ s.used (l + 1) ∧
      ∀ m < P.nch, s.child m l k = some (base + m) ∧ s.parent (l + 1) (base + m) = k ∧
        s.count (l + 1) (base + m) = (s.bins l k).pcnt m ∧
        (0 < (s.bins l k).pcnt m → s.start (l + 1) (base + m) = childStart s l k m) ∧
        (∀ a, s.center (l + 1) (base + m) a = childCenter P l (s.center l k) m a) ∧
        ∀ a, s.stored (l + 1) (base + m) a = childStored P l (s.stored l k) m a
  child_some : ∀ m l k, (s.hasCh l k = false ∨ P.nch ≤ m) → s.child m l k = none
  parent_ok : ∀ l k, k < s.used (l + 1) → s.parent (l + 1) k < s.used l ∧
    s.hasCh l (s.parent (l + 1) k) = true ∧ s.child (k % P.nch) l (s.parent (l + 1) k) = some k
  part : ∀ i < P.n, ∀ l k,
    s.box i = (l, k) ↔ k < s.used l ∧ s.start l k ≤ i ∧ i < s.start l k + own s l k
  flag_iff : ∀ i < P.n, (i = 0 ∨ s.flag i = true) ↔ s.start (s.box i).1 (s.box i).2 = i
  path : ∀ i < P.n, PathOK P s.parent (s.ids i) (s.box i).1 (s.box i).2
  stay : ∀ i < P.n, s.hasCh (s.box i).1 (s.box i).2 = true → mortonNr P s i = none

/-- Forced splits are of leaves well above the newest level. -/
def ForceOK (level : Nat) (s : State) : Prop :=
  ∀ l k, s.force l k = true → k < s.used l ∧ l + 1 < level ∧ s.hasCh l k = false

/-- Sort key of a Morton number: particles that stay come first. -/
def keyOf : Option Nat → Nat
  | none => 0
  | some m => m + 1

/-- Sort key of the `i`th particle of a box. -/
def boxKey (P : Params) (s : State) (l k i : Nat) : Nat :=
  keyOf (P.mort (s.ids (s.start l k + i)) l)

theorem count_congr {p q : Nat → Prop} [DecidablePred p] [DecidablePred q] {n : Nat}
    (h : ∀ i < n, p i ↔ q i) : Nat.count p n = Nat.count q n := by
  induction n with
  | zero => simp
  | succ n ih =>
    rw [Nat.count_succ, Nat.count_succ, ih fun i hi => h i (by omega)]
    simp [h n (by omega)]

theorem keyOf_zero {o : Option Nat} : keyOf o = 0 ↔ o = none := by cases o <;> simp [keyOf]

theorem keyOf_succ {o : Option Nat} {m : Nat} : keyOf o = m + 1 ↔ o = some m := by
  cases o <;> simp [keyOf]

/-- The bins of the box count the first `c` particles of the box. -/
structure Counts (key : Nat → Nat) (b : Bins) (c : Nat) : Prop where
  nonchild : b.nonchild = Nat.count (fun j => key j = 0) c
  pcnt : ∀ m, b.pcnt m = Nat.count (fun j => key j = m + 1) c

section
variable {P : Params} {level : Nat} {s : State}

theorem Counts.below {key : Nat → Nat} {c m : Nat} {b : Bins} (h : Counts key b c) :
    b.nonchild + ((List.range m).map b.pcnt).sum = below key c (m + 1) := by
  have := below_sum (key := key) (C := c) 1 m
  rw [Nat.add_comm 1 m] at this
  rw [← this]
  congr 1
  · rw [show (1 : Nat) = 0 + 1 from rfl, below_succ, below_zero, h.nonchild]; simp
  · congr 1
    apply List.map_congr_left
    intro i _
    rw [h.pcnt, Nat.add_comm 1 i]

theorem Counts.total (hM : P.MortOK) {l k c : Nat} {b : Bins} (h : Counts (boxKey P s l k) b c) :
    b.total P.nch = c := by
  unfold Bins.total
  rw [h.below]
  apply below_all
  intro i _
  unfold boxKey keyOf
  split
  · omega
  · rename_i m hm
    have := hM _ _ _ hm
    omega

theorem Inv.used_level (h : Inv P level s) {l k : Nat} (hk : k < s.used l) : l < level := by
  by_contra hc
  rw [h.used_deep l (by omega)] at hk
  omega

theorem sum_range_le {f : Nat → Nat} {m n : Nat} (h : m ≤ n) :
    ((List.range m).map f).sum ≤ ((List.range n).map f).sum := by
  induction n, h using Nat.le_induction with
  | base => exact le_refl _
  | succ n _ ih => rw [List.range_succ, List.map_append, List.sum_append]; omega

theorem sum_range_succ (f : Nat → Nat) (m : Nat) :
    ((List.range (m + 1)).map f).sum = ((List.range m).map f).sum + f m := by
  rw [List.range_succ, List.map_append, List.sum_append]; simp

theorem Inv.own_le (h : Inv P level s) (l k : Nat) : own s l k ≤ s.count l k := by
  unfold own
  split
  · rename_i hc
    have := (h.children l k hc).1
    unfold Bins.total at this
    omega
  · exact le_refl _

/-- The particles of a box are within the particles of its parent. -/
theorem Inv.child_range (h : Inv P level s) {l k : Nat} (hk : k < s.used (l + 1))
    (hc : 0 < s.count (l + 1) k) :
    s.start l (s.parent (l + 1) k) ≤ s.start (l + 1) k ∧
    s.start (l + 1) k + s.count (l + 1) k
      ≤ s.start l (s.parent (l + 1) k) + s.count l (s.parent (l + 1) k) ∧
    0 < s.count l (s.parent (l + 1) k) := by
  obtain ⟨hp1, hp2, hp3⟩ := h.parent_ok l k hk
  obtain ⟨htot, base, _, _, hch⟩ := h.children l _ hp2
  have hm := Nat.mod_lt k (nch_pos P)
  obtain ⟨h1, h2, h3, h4, _⟩ := hch _ hm
  rw [hp3] at h1
  have hkb : k = base + k % P.nch := Option.some.inj h1
  rw [← hkb] at h3 h4
  have h5 := h4 (by omega)
  have hsum := sum_range_le (f := (s.bins l (s.parent (l + 1) k)).pcnt)
    (show k % P.nch + 1 ≤ P.nch from hm)
  rw [sum_range_succ] at hsum
  unfold childStart at h5
  unfold Bins.total at htot
  omega

theorem Inv.range_le (h : Inv P level s) : ∀ (l k : Nat), k < s.used l → 0 < s.count l k →
    s.start l k + s.count l k ≤ P.n := by
  intro l
  induction l with
  | zero =>
    intro k hk _
    rw [h.used_zero] at hk
    obtain rfl : k = 0 := by omega
    rw [h.root_start, h.root_count]; omega
  | succ l ih =>
    intro k hk hc
    have h1 := h.child_range hk hc
    have h2 := ih _ (h.parent_ok l k hk).1 h1.2.2
    omega

/-- The particles of a box that are in no child. -/
theorem Inv.own_mem (h : Inv P level s) {l k i : Nat} (hk : k < s.used l) (hi : i < own s l k) :
    s.start l k + i < P.n ∧ s.box (s.start l k + i) = (l, k) := by
  have h1 := h.own_le l k
  have h2 := h.range_le l k hk (by omega)
  have h3 : s.start l k + i < P.n := by omega
  exact ⟨h3, (h.part _ h3 l k).2 ⟨hk, by omega, by omega⟩⟩

theorem Inv.box_used (h : Inv P level s) {i : Nat} (hi : i < P.n) :
    (s.box i).2 < s.used (s.box i).1 ∧ s.start (s.box i).1 (s.box i).2 ≤ i ∧
      i < s.start (s.box i).1 (s.box i).2 + own s (s.box i).1 (s.box i).2 :=
  (h.part i hi _ _).1 rfl

theorem fromParticle_counts (s : State) (l k i : Nat) {b : Bins} {c : Nat}
    (hb : Counts (boxKey P s l k) b c) (hi : i = s.start l k + c) :
    Counts (boxKey P s l k) (b.add (fromParticle P (s.ids i) l)) (c + 1) := by
  subst hi
  constructor
  · simp only [Bins.add, fromParticle, hb.nonchild, Nat.count_succ]
    congr 1
    simp [boxKey, keyOf_zero]
  · intro m
    simp only [Bins.add, fromParticle, hb.pcnt, Nat.count_succ]
    congr 1
    simp [boxKey, keyOf_succ]

theorem counts_zero (s : State) (l k : Nat) : Counts (boxKey P s l k) Bins.zero 0 :=
  ⟨by simp [Bins.zero], by simp [Bins.zero]⟩

theorem counts_one (s : State) (l k i : Nat) (hi : i = s.start l k) :
    Counts (boxKey P s l k) (fromParticle P (s.ids i) l) 1 := by
  subst hi
  constructor
  · simp [fromParticle, Nat.count_succ, boxKey, keyOf_zero]
  · intro m
    simp [fromParticle, Nat.count_succ, boxKey, keyOf_succ]

/-- The scan counts the particles from the start of the box. -/
theorem Inv.scan (h : Inv P level s) {l k : Nat} (hk : k < s.used l) : ∀ i, i < own s l k →
    Counts (boxKey P s l k) (scanItem P s (s.start l k + i)) (i + 1) := by
  intro i
  induction i with
  | zero =>
    intro hi
    obtain ⟨h1, h2⟩ := h.own_mem hk hi
    have hf := (h.flag_iff _ h1).2 (by rw [h2]; rfl)
    simp only [Nat.add_zero] at *
    cases hS : s.start l k with
    | zero =>
      unfold scanItem
      rw [hS] at h2
      rw [h2]
      exact counts_one s l k 0 hS.symm
    | succ S =>
      rw [hS] at h2 hf
      unfold scanItem
      have hf' : s.flag (S + 1) = true := by
        rcases hf with hf | hf
        · omega
        · exact hf
      simp only [hf', if_true]
      rw [h2]
      exact counts_one s l k (S + 1) hS.symm
  | succ i ih =>
    intro hi
    obtain ⟨h1, h2⟩ := h.own_mem hk hi
    have hf : s.flag (s.start l k + i + 1) = false := by
      by_contra hc
      have := (h.flag_iff _ h1).1 (Or.inr (by simpa [Nat.add_assoc] using hc))
      rw [h2] at this
      simp only at this
      omega
    rw [← Nat.add_assoc]
    unfold scanItem
    simp only [hf, Bool.false_eq_true, if_false]
    rw [Nat.add_assoc, h2]
    exact fromParticle_counts s l k _ (ih (by omega)) (by omega)

/-- After the scan the bins of the leaves are right. -/
def Full (P : Params) (s : State) : Prop :=
  ∀ l k, k < s.used l → s.hasCh l k = false → Counts (boxKey P s l k) (s.bins l k) (s.count l k)

theorem find?_range_unique {n i : Nat} {p : Nat → Bool} (hi : i < n) (hp : p i = true)
    (hu : ∀ j < n, p j = true → j = i) : (List.range n).find? p = some i := by
  cases hf : (List.range n).find? p with
  | none =>
    have := List.find?_eq_none.1 hf i (List.mem_range.2 hi)
    exact absurd hp this
  | some j =>
    have h1 := List.find?_some hf
    have h2 := List.mem_range.1 (List.mem_of_find?_eq_some hf)
    rw [hu j h2 h1]

theorem find?_range_none {n : Nat} {p : Nat → Bool} (hu : ∀ j < n, p j = false) :
    (List.range n).find? p = none := by
  rw [List.find?_eq_none]
  intro x hx
  simp [hu x (List.mem_range.1 hx)]

/-- Where the scan writes the bins of a box. -/
theorem Inv.writeBins_bins (h : Inv P level s) (hM : P.MortOK) (l k : Nat) :
    (k < s.used l ∧ 0 < s.count l k ∧ own s l k = s.count l k ∧
      (writeBins P s).bins l k = scanItem P s (s.start l k + (s.count l k - 1))) ∨
    (¬ (k < s.used l ∧ 0 < s.count l k ∧ own s l k = s.count l k) ∧
      (writeBins P s).bins l k = s.bins l k) := by
  have key : ∀ i < P.n, (s.box i = (l, k) ∧ (scanItem P s i).total P.nch = s.count l k) →
      k < s.used l ∧ 0 < s.count l k ∧ own s l k = s.count l k ∧
        i = s.start l k + (s.count l k - 1) := by
    intro i hi ⟨h1, h2⟩
    obtain ⟨h3, h4, h5⟩ := (h.part i hi l k).1 h1
    have h6 := (h.scan h3 (i - s.start l k) (by omega)).total hM
    rw [show s.start l k + (i - s.start l k) = i from by omega, h2] at h6
    have := h.own_le l k
    omega
  by_cases hc : k < s.used l ∧ 0 < s.count l k ∧ own s l k = s.count l k
  · left
    refine ⟨hc.1, hc.2.1, hc.2.2, ?_⟩
    obtain ⟨h1, h2⟩ := h.own_mem (i := s.count l k - 1) hc.1 (by omega)
    have h3 := (h.scan hc.1 (s.count l k - 1) (by omega)).total hM
    have hf := find?_range_unique
      (p := fun i => decide (s.box i = (l, k) ∧ (scanItem P s i).total P.nch = s.count l k))
      h1 (by simp only [decide_eq_true_eq]; exact ⟨h2, by omega⟩)
      (fun j hj hp => (key j hj (by simpa using hp)).2.2.2)
    unfold writeBins
    simp only
    rw [hf]
  · right
    refine ⟨hc, ?_⟩
    have hf := find?_range_none
      (p := fun i => decide (s.box i = (l, k) ∧ (scanItem P s i).total P.nch = s.count l k))
      (n := P.n) (fun j hj => by
        rw [decide_eq_false_iff_not]
        intro hp
        have := key j hj hp
        exact hc ⟨this.1, this.2.1, this.2.2.1⟩)
    unfold writeBins
    simp only
    rw [hf]

/-- Storing the bins does not change the counts of a box that has children. -/
theorem Inv.writeBins_split (h : Inv P level s) (hM : P.MortOK) {l k : Nat}
    (hc : s.hasCh l k = true) :
    ((writeBins P s).bins l k).nonchild = (s.bins l k).nonchild ∧
    ∀ m < P.nch, ((writeBins P s).bins l k).pcnt m = (s.bins l k).pcnt m := by
  rcases h.writeBins_bins hM l k with ⟨h1, h2, h3, h4⟩ | ⟨_, h4⟩
  · have h5 := h.scan h1 (s.count l k - 1) (by omega)
    rw [show s.count l k - 1 + 1 = s.count l k from by omega, ← h4] at h5
    have h6 := (h.children l k hc).1
    have hown : own s l k = (s.bins l k).nonchild := by unfold own; simp [hc]
    have hk0 : ∀ j < s.count l k, boxKey P s l k j = 0 := by
      intro j hj
      obtain ⟨h7, h8⟩ := h.own_mem (i := j) h1 (by omega)
      have := h.stay _ h7 (by rw [h8]; exact hc)
      unfold mortonNr at this
      rw [h8] at this
      unfold boxKey
      rw [this]; rfl
    have hz : ∀ m, Nat.count (fun j => boxKey P s l k j = m + 1) (s.count l k) = 0 := by
      intro m
      rw [count_congr (q := fun _ => False) (fun i hi => by rw [hk0 i hi]; simp)]
      simp
    have ho : Nat.count (fun j => boxKey P s l k j = 0) (s.count l k) = s.count l k := by
      rw [count_congr (q := fun _ => True) (fun i hi => by simp [hk0 i hi])]
      simp
    constructor
    · rw [h5.nonchild, ho]; omega
    · intro m hm
      rw [h5.pcnt, hz]
      unfold Bins.total at h6
      have := sum_range_le (f := (s.bins l k).pcnt) (show m + 1 ≤ P.nch from hm)
      rw [sum_range_succ] at this
      omega
  · rw [h4]; exact ⟨rfl, fun _ _ => rfl⟩

theorem sum_congr_range {f g : Nat → Nat} {n : Nat} (h : ∀ m < n, f m = g m) :
    ((List.range n).map f).sum = ((List.range n).map g).sum := by
  congr 1
  exact List.map_congr_left fun a ha => h a (List.mem_range.1 ha)

theorem Inv.writeBins_own (h : Inv P level s) (hM : P.MortOK) (l k : Nat) :
    own (writeBins P s) l k = own s l k := by
  unfold own
  change (if s.hasCh l k = true then _ else s.count l k) = _
  split
  · rename_i hc; exact (h.writeBins_split hM hc).1
  · rfl

theorem Inv.writeBins (h : Inv P level s) (hM : P.MortOK) :
    Inv P level (writeBins P s) ∧ Full P (writeBins P s) := by
  constructor
  · refine { h with
      empty_bins := ?_
      children := ?_
      part := ?_ }
    · intro l k hc
      rcases h.writeBins_bins hM l k with ⟨_, h2, _⟩ | ⟨_, h4⟩
      · exact absurd hc (by change s.count l k ≠ 0; omega)
      · rw [h4]; exact h.empty_bins l k hc
    · intro l k hc
      obtain ⟨h1, h2⟩ := h.writeBins_split hM hc
      obtain ⟨h3, base, h4, h5, h6⟩ := h.children l k hc
      refine ⟨?_, base, h4, h5, ?_⟩
      · unfold Bins.total at *
        rw [h1, sum_congr_range h2]; exact h3
      · intro m hm
        obtain ⟨a1, a2, a3, a4, a5⟩ := h6 m hm
        refine ⟨a1, a2, ?_, ?_, a5⟩
        · rw [h2 m hm]; exact a3
        · rw [h2 m hm]
          intro hp
          unfold childStart
          rw [h1, sum_congr_range (fun j hj => h2 j (by omega))]
          exact a4 hp
    · intro i hi l k
      rw [h.writeBins_own hM]
      exact h.part i hi l k
  · intro l k hk hc
    change k < s.used l at hk
    change s.hasCh l k = false at hc
    change Counts (boxKey P s l k) _ (s.count l k)
    have hown : own s l k = s.count l k := by unfold own; simp [hc]
    rcases h.writeBins_bins hM l k with ⟨_, h2, _, h4⟩ | ⟨h3, h4⟩
    · have h5 := h.scan hk (s.count l k - 1) (by omega)
      rw [show s.count l k - 1 + 1 = s.count l k from by omega, ← h4] at h5
      exact h5
    · have h0 : s.count l k = 0 := by
        by_contra hne
        exact h3 ⟨hk, by omega, hown⟩
      rw [h4, h.empty_bins l k h0, h0]
      exact counts_zero s l k

end
end Boxtree.Build
