import Verif.Lemmas.LoopInd
import Mathlib.Algebra.BigOperators.Intervals
import Mathlib.Algebra.Order.BigOperators.Group.Finset

/-! Refine weights of the boxes. -/

namespace Boxtree.Build

open Finset

instance decPathOK (P : Params) (parent : Nat → Nat → Nat) (p : Nat) :
    ∀ l k, Decidable (PathOK P parent p l k)
  | 0, _ => .isTrue trivial
  | l + 1, k =>
    have := decPathOK P parent p l (parent (l + 1) k)
    inferInstanceAs (Decidable (P.mort p l = some (k % P.nch) ∧ PathOK P parent p l (parent (l + 1) k)))

/-- Sum of `f` over the particles that belong into the box. -/
def load (P : Params) (parent : Nat → Nat → Nat) (l k : Nat) (f : Nat → Nat) : Nat :=
  ∑ p ∈ range P.n, if PathOK P parent p l k then f p else 0

/-- Weight of a particle if it goes to child `m` of a box on level `l`. -/
def wChild (P : Params) (l m p : Nat) : Nat := if P.mort p l = some m then P.weight p else 0

/-- Weight of a particle if it goes to a child of a box on level `l`. -/
def wMove (P : Params) (l p : Nat) : Nat := if P.mort p l = none then 0 else P.weight p

section
variable {P : Params} {level : Nat} {s : State}

theorem load_child (parent : Nat → Nat → Nat) (l k : Nat) :
    load P parent (l + 1) k P.weight
      = load P parent l (parent (l + 1) k) (wChild P l (k % P.nch)) := by
  unfold load
  refine sum_congr rfl fun p _ => ?_
  by_cases h1 : P.mort p l = some (k % P.nch) <;>
    by_cases h2 : PathOK P parent p l (parent (l + 1) k) <;> simp [PathOK, wChild, h1, h2]

theorem load_mono {parent : Nat → Nat → Nat} {l k : Nat} {f g : Nat → Nat} (h : ∀ p, f p ≤ g p) :
    load P parent l k f ≤ load P parent l k g := by
  unfold load
  refine sum_le_sum fun p _ => ?_
  split
  · exact h p
  · exact le_refl _

theorem wMove_le (l p : Nat) : wMove P l p ≤ P.weight p := by unfold wMove; split <;> simp

theorem wChild_le (l m p : Nat) : wChild P l m p ≤ wMove P l p := by
  unfold wChild wMove
  split
  · rename_i h; simp [h]
  · simp

theorem load_move (hM : P.MortOK) (parent : Nat → Nat → Nat) (l k : Nat) :
    ∑ m ∈ range P.nch, load P parent l k (wChild P l m) = load P parent l k (wMove P l) := by
  unfold load
  rw [sum_comm]
  refine sum_congr rfl fun p _ => ?_
  by_cases h2 : PathOK P parent p l k
  · simp only [h2, if_true]
    cases h1 : P.mort p l with
    | none => simp [wChild, wMove, h1]
    | some m => simp [wChild, wMove, h1, hM _ _ _ h1]
  · simp [h2]

theorem load_congr {par par' : Nat → Nat → Nat} {l k : Nat} (f : Nat → Nat)
    (h : ∀ p, PathOK P par' p l k ↔ PathOK P par p l k) :
    load P par' l k f = load P par l k f := by
  unfold load
  exact sum_congr rfl fun p _ => by simp [h p]

theorem Inv.path_unique (h : Inv P level s) {p : Nat} : ∀ (l k k' : Nat), k < s.used l →
    k' < s.used l → PathOK P s.parent p l k → PathOK P s.parent p l k' → k = k' := by
  intro l
  induction l with
  | zero => intro k k' h1 h2 _ _; rw [h.used_zero] at h1 h2; omega
  | succ l ih =>
    intro k k' h1 h2 h3 h4
    obtain ⟨a1, a2, a3⟩ := h.parent_ok l k h1
    obtain ⟨b1, b2, b3⟩ := h.parent_ok l k' h2
    have he := ih _ _ a1 b1 h3.2 h4.2
    have hm := h3.1.symm.trans h4.1
    rw [he, Option.some.inj hm, b3] at a3
    exact (Option.some.inj a3).symm

theorem Inv.path_anc (h : Inv P level s) {p : Nat} : ∀ (d l k : Nat), k < s.used (l + d + 1) →
    PathOK P s.parent p (l + d + 1) k →
    ∃ a < s.used l, PathOK P s.parent p l a ∧ s.hasCh l a = true ∧ P.mort p l ≠ none := by
  intro d
  induction d with
  | zero =>
    intro l k hk hp
    obtain ⟨a1, a2, a3⟩ := h.parent_ok l k hk
    exact ⟨_, a1, hp.2, a2, by rw [hp.1]; simp⟩
  | succ d ih =>
    intro l k hk hp
    exact ih l _ (h.parent_ok _ k hk).1 hp.2

/-- The particles in a leaf are those that belong into it. -/
theorem Inv.leaf_mem (h : Inv P level s) {l k i : Nat} (hk : k < s.used l)
    (hc : s.hasCh l k = false) (hi : i < P.n) :
    s.box i = (l, k) ↔ PathOK P s.parent (s.ids i) l k := by
  constructor
  · intro hb
    have := h.path i hi
    rw [hb] at this
    exact this
  · intro hp
    have hq := h.path i hi
    have hu := (h.box_used hi).1
    rcases Nat.lt_trichotomy (s.box i).1 l with hlt | heq | hgt
    · obtain ⟨d, rfl⟩ : ∃ d, l = (s.box i).1 + d + 1 := ⟨l - (s.box i).1 - 1, by omega⟩
      obtain ⟨a, a1, a2, a3, a4⟩ := h.path_anc d _ k hk hp
      have := h.path_unique _ _ _ a1 hu a2 hq
      rw [this] at a3
      exact absurd (h.stay i hi a3) a4
    · have := h.path_unique _ _ _ (by rw [heq]; exact hk) hu (by rw [heq]; exact hp) hq
      exact Prod.ext heq this.symm
    · obtain ⟨d, hd⟩ : ∃ d, (s.box i).1 = l + d + 1 := ⟨(s.box i).1 - l - 1, by omega⟩
      rw [hd] at hq hu
      obtain ⟨a, a1, a2, a3, _⟩ := h.path_anc d l _ hu hq
      have := h.path_unique _ _ _ a1 hk a2 hp
      rw [this, hc] at a3
      cases a3

theorem Inv.sum_ids (h : Inv P level s) (f : Nat → Nat) :
    ∑ i ∈ range P.n, f (s.ids i) = ∑ p ∈ range P.n, f p := by
  have hm : ∀ i ∈ range P.n, s.ids i ∈ range P.n := by
    intro i hi; rw [mem_range] at *; exact h.ids_lt i hi
  have hinj : Set.InjOn s.ids (range P.n : Set Nat) := by
    intro i hi j hj he
    simp only [coe_range, Set.mem_Iio] at hi hj
    exact h.ids_inj i hi j hj he
  refine sum_nbij s.ids hm hinj ?_ (fun _ _ => rfl)
  exact surjOn_of_injOn_of_card_le s.ids hm hinj (le_refl _)

/-- The sum over the positions of a leaf is the sum over the particles that belong into it. -/
theorem Inv.sum_leaf (h : Inv P level s) {l k : Nat} (hk : k < s.used l)
    (hc : s.hasCh l k = false) (f : Nat → Nat) :
    ∑ j ∈ range (s.count l k), f (s.ids (s.start l k + j)) = load P s.parent l k f := by
  unfold load
  rw [← h.sum_ids (fun p => if PathOK P s.parent p l k then f p else 0)]
  have h1 : ∀ i ∈ range P.n, (if PathOK P s.parent (s.ids i) l k then f (s.ids i) else 0)
      = if i ∈ Ico (s.start l k) (s.start l k + s.count l k) then f (s.ids i) else 0 := by
    intro i hi
    rw [mem_range] at hi
    have e : PathOK P s.parent (s.ids i) l k ↔ i ∈ Ico (s.start l k) (s.start l k + s.count l k) := by
      rw [← h.leaf_mem hk hc hi, h.part i hi l k, mem_Ico]
      unfold own
      simp [hc, hk]
    simp only [e]
  rw [sum_congr rfl h1, sum_ite_mem]
  have h2 : range P.n ∩ Ico (s.start l k) (s.start l k + s.count l k)
      = Ico (s.start l k) (s.start l k + s.count l k) := by
    ext i
    simp only [mem_inter, mem_range, mem_Ico]
    constructor
    · exact fun x => x.2
    · intro x
      have := h.range_le l k hk (by omega)
      exact ⟨by omega, x⟩
  rw [h2, sum_Ico_eq_sum_range]
  simp

/-- The weights in the scan. -/
theorem Inv.scan_pwt (h : Inv P level s) (hw : ∀ p < P.n, P.weight p ≤ intMax) {l k : Nat}
    (hk : k < s.used l) (m : Nat) : ∀ i, i < own s l k →
    (scanItem P s (s.start l k + i)).pwt m
      = min (∑ j ∈ range (i + 1), wChild P l m (s.ids (s.start l k + j))) intMax := by
  have one : ∀ i < P.n, (fromParticle P (s.ids i) l).pwt m = min (wChild P l m (s.ids i)) intMax := by
    intro i hi
    have := hw _ (h.ids_lt i hi)
    simp only [fromParticle, wChild]
    split <;> omega
  intro i
  induction i with
  | zero =>
    intro hi
    obtain ⟨h1, h2⟩ := h.own_mem hk hi
    have hf := (h.flag_iff _ h1).2 (by rw [h2]; rfl)
    have h3 := one _ h1
    simp only [Nat.add_zero, zero_add, range_one, sum_singleton] at *
    rw [← h3]
    cases hS : s.start l k with
    | zero =>
      unfold scanItem
      rw [hS] at h2
      rw [h2]
    | succ S =>
      rw [hS] at h2 hf
      unfold scanItem
      have hf' : s.flag (S + 1) = true := by
        rcases hf with hf | hf
        · omega
        · exact hf
      simp only [hf', if_true]
      rw [h2]
  | succ i ih =>
    intro hi
    obtain ⟨h1, h2⟩ := h.own_mem hk hi
    have hf : s.flag (s.start l k + i + 1) = false := by
      by_contra hc
      have := (h.flag_iff _ h1).1 (Or.inr (by simpa [Nat.add_assoc] using hc))
      rw [h2] at this
      simp only at this
      omega
    have h3 := one _ h1
    rw [Finset.sum_range_succ]
    rw [← Nat.add_assoc] at h2 h3 ⊢
    unfold scanItem
    simp only [hf, Bool.false_eq_true, if_false]
    rw [h2]
    simp only [Bins.add, addSat]
    rw [ih (by omega), h3]
    omega

/-- After the scan the weights of the leaves are right. -/
def FullW (P : Params) (s : State) : Prop :=
  ∀ l k, k < s.used l → s.hasCh l k = false → ∀ m,
    (s.bins l k).pwt m = min (load P s.parent l k (wChild P l m)) intMax

theorem Inv.writeBins_pwt (h : Inv P level s) (hM : P.MortOK)
    (hw : ∀ p < P.n, P.weight p ≤ intMax) : FullW P (Build.writeBins P s) := by
  intro l k hk hc m
  change k < s.used l at hk
  change s.hasCh l k = false at hc
  change _ = min (load P s.parent l k (wChild P l m)) intMax
  rw [← h.sum_leaf hk hc]
  have hown : own s l k = s.count l k := by unfold own; simp [hc]
  rcases h.writeBins_bins hM l k with ⟨_, h2, _, h4⟩ | ⟨h3, h4⟩
  · have h5 := h.scan_pwt hw hk m (s.count l k - 1) (by omega)
    rw [show s.count l k - 1 + 1 = s.count l k from by omega, ← h4] at h5
    exact h5
  · have h0 : s.count l k = 0 := by
      by_contra hne
      exact h3 ⟨hk, by omega, hown⟩
    rw [h4, h.empty_bins l k h0, h0]
    simp [Bins.zero]

theorem foldl_addSat (f g : Nat → Nat) (h : ∀ m, f m = min (g m) intMax) (n : Nat) :
    (List.range n).foldl (fun w m => addSat w (f m)) 0 = min (∑ m ∈ range n, g m) intMax := by
  induction n with
  | zero => simp
  | succ n ih =>
    rw [List.range_succ, List.foldl_append, ih, Finset.sum_range_succ]
    simp only [List.foldl_cons, List.foldl_nil, addSat, h]
    omega

theorem lt_foldl_max (f : Nat → Nat) (c n : Nat) :
    c < (List.range n).foldl (fun w m => max w (f m)) 0 ↔ ∃ m < n, c < f m := by
  induction n with
  | zero => simp
  | succ n ih =>
    rw [List.range_succ, List.foldl_append]
    simp only [List.foldl_cons, List.foldl_nil, lt_max_iff, ih]
    constructor
    · rintro (⟨m, h1, h2⟩ | h)
      · exact ⟨m, by omega, h2⟩
      · exact ⟨n, by omega, h⟩
    · rintro ⟨m, h1, h2⟩
      rcases Nat.lt_succ_iff_lt_or_eq.1 h1 with h | rfl
      · exact Or.inl ⟨m, h, h2⟩
      · exact Or.inr h2

theorem FullW.weight (h : FullW P s) (hM : P.MortOK) {l k : Nat} (hk : k < s.used l)
    (hc : s.hasCh l k = false) :
    (s.bins l k).weight P.nch = min (load P s.parent l k (wMove P l)) intMax := by
  rw [← load_move hM]
  exact foldl_addSat _ _ (h l k hk hc) _

theorem FullW.maxWeight (h : FullW P s) {l k : Nat} (hk : k < s.used l)
    (hc : s.hasCh l k = false) (hmax : P.maxWeight < intMax) :
    P.maxWeight < (s.bins l k).maxWeight P.nch ↔
      ∃ m < P.nch, P.maxWeight < load P s.parent l k (wChild P l m) := by
  unfold Bins.maxWeight
  rw [lt_foldl_max]
  constructor
  · rintro ⟨m, h1, h2⟩
    rw [h l k hk hc] at h2
    exact ⟨m, h1, by omega⟩
  · rintro ⟨m, h1, h2⟩
    refine ⟨m, h1, ?_⟩
    rw [h l k hk hc]
    omega

end
end Boxtree.Build
