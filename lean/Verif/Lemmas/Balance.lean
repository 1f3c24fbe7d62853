import Verif.Lemmas.WalkMem
import Verif.Lemmas.StateTree
import Verif.Lemmas.LoopInd

/-! With level restriction, leaves that touch differ by at most one level. -/

namespace Boxtree.Build

open BoxTree

section
variable {P : Params} {n level : Nat} {s : State}

def Leaf (s : State) (l k : Nat) : Prop := k < s.used l ∧ s.hasCh l k = false

/-- The boxes `(l, k)` and `(l', k')` are adjacent for the level restriction kernel. -/
def Near (P : Params) (s : State) (l k l' k' : Nat) : Prop :=
  ∀ a < P.dims, |s.center l k a - s.center l' k' a|
    ≤ radius P l + radius P l' + min (radius P l) (radius P l')

theorem radius_pos (hpos : 0 < P.rootExtent) (l : Nat) : 0 < radius P l := by
  unfold radius; positivity

theorem nws_toTree (h : Inv P n s) (hpos : 0 < P.rootExtent) {l k l' k' : Nat} (hk : k < s.used l)
    (hk' : k' < s.used l') :
    (toTree P n s).nws 1 (levelStart s.used l + k) (levelStart s.used l' + k') ↔
      Near P s l k l' k' := by
  unfold nws Near
  rw [level_toTree h hk, level_toTree h hk', rad_toTree, rad_toTree, linf_le_iff]
  have h1 := radius_pos hpos l
  have h2 := radius_pos hpos l'
  have h3 : 0 < min (radius P l) (radius P l') := lt_min h1 h2
  constructor
  · rintro ⟨_, h4⟩ a ha
    have := h4 a ha
    rw [center_toTree h hk, center_toTree h hk'] at this
    push_cast at this
    linarith
  · intro h4
    refine ⟨by push_cast; linarith, fun a ha => ?_⟩
    have := h4 a ha
    rw [center_toTree h hk, center_toTree h hk']
    push_cast
    linarith

theorem Near.symm {l k l' k' : Nat} (h : Near P s l k l' k') : Near P s l' k' l k := by
  intro a ha
  have := h a ha
  rw [abs_sub_comm, min_comm, add_comm (radius P l') (radius P l)]
  exact this

theorem Near.parent (h : Inv P n s) (hpos : 0 < P.rootExtent) {l k l' k' : Nat}
    (hk : k < s.used (l + 1)) (hk' : k' < s.used l') (hn : Near P s (l + 1) k l' k') :
    Near P s l (s.parent (l + 1) k) l' k' := by
  rw [← nws_toTree h hpos hk hk'] at hn
  rw [← nws_toTree h hpos (h.parent_ok l k hk).1 hk']
  have := (h.toTree_wf hpos).nws_parent_left (le_refl 1) (id_lt s.used (h.used_level hk) hk) hn
  rw [parent_toTree h hk, if_neg (by omega), Nat.add_sub_cancel] at this
  exact this

/-- The adjacency test of the level restriction kernel is right for all boxes of trees with `n`
levels. -/
def AdjOK (P : Params) (n : Nat) : Prop := ∀ s, Inv P n s → ∀ l k l' k', k < s.used l →
  k' < s.used l' → ((toTree P n s).adjF P.fl (s.stored l k) l 1 (s.stored l' k') l' = true ↔
    Near P s l k l' k')

/-- What is known at the beginning of a trip. -/
structure Bal (P : Params) (level : Nat) (s : State) : Prop where
  close : ∀ u k v k', Leaf s u k → Leaf s v k' → Near P s u k v k' →
    v ≤ u + 1 ∨ (v = u + 2 ∧ v + 1 = level ∧ s.force u k = true)
  spread : ∀ u k k', Leaf s u k → Leaf s (u + 1) k' → Near P s u k (u + 1) k' →
    s.force (u + 1) k' = true → s.force u k = true

theorem Pre.leaf_after (h : Pre P level s) {l k : Nat} (hl : Leaf (after P level s) l k) :
    (Leaf s l k ∧ want P level s l k = false) ∨
    (∃ l0 k0, l = l0 + 1 ∧ Leaf s l0 k0 ∧ want P level s l0 k0 = true ∧
      (after P level s).parent l k = k0) := by
  obtain ⟨h1, h2⟩ := hl
  by_cases hold : k < s.used l
  · left
    have h3 : ¬ (k < s.used l ∧ want P level s l k = true) := by
      intro hw
      rw [h.hasCh_want hw.1 hw.2] at h2
      cases h2
    refine ⟨⟨hold, by rw [← Pre.hasCh_old (P := P) (level := level) h3]; exact h2⟩, ?_⟩
    by_contra hc
    exact h3 ⟨hold, by simpa using hc⟩
  · right
    cases l with
    | zero =>
      rw [Pre.used_zero] at h1
      rw [h.inv.used_zero] at hold
      omega
    | succ l =>
      obtain ⟨k0, m, h3, h4, h5, rfl⟩ := h.new_box (by omega) h1
      exact ⟨l, k0, rfl, ⟨h3, (h.want_leaf h3 h4).2⟩, h4, h.parent_new h3 h4 h5⟩

theorem Pre.near_old (h : Pre P level s) {l k l' k' : Nat} (hk : k < s.used l)
    (hk' : k' < s.used l') : Near P (after P level s) l k l' k' ↔ Near P s l k l' k' := by
  unfold Near
  simp only [h.center_old hk, h.center_old hk']

theorem want_force (hr : P.levelRestrict = true) {l k : Nat} (h : s.force l k = true) :
    want P level s l k = true := by
  unfold want; simp [hr, h]

/-- One trip can only create differences of two on the newest level. -/
theorem Pre.close_after (h : Pre P level s) (hpos : 0 < P.rootExtent)
    (hr : P.levelRestrict = true) (hb : Bal P level s) {u k v k' : Nat}
    (hA : Leaf (after P level s) u k) (hB : Leaf (after P level s) v k')
    (hn : Near P (after P level s) u k v k') : v ≤ u + 1 ∨ (v = u + 2 ∧ v = level) := by
  have hi := h.after_inv
  have force_contra : ∀ {l k}, want P level s l k = false → s.force l k = true → False := by
    intro l k h1 h2
    rw [want_force hr h2] at h1
    cases h1
  rcases h.leaf_after hA with ⟨hA0, hwA⟩ | ⟨u0, k0, rfl, hA0, hwA, hpA⟩
  · rcases h.leaf_after hB with ⟨hB0, hwB⟩ | ⟨v0, k0', rfl, hB0, hwB, hpB⟩
    · rw [h.near_old hA0.1 hB0.1] at hn
      rcases hb.close _ _ _ _ hA0 hB0 hn with h1 | ⟨_, _, h1⟩
      · exact .inl h1
      · exact (force_contra hwA h1).elim
    · have hn' := (hn.symm.parent hi hpos hB.1 hA.1).symm
      rw [hpB, h.near_old hA0.1 hB0.1] at hn'
      rcases hb.close _ _ _ _ hA0 hB0 hn' with h1 | ⟨_, _, h1⟩
      · by_cases hv : v0 = u + 1
        · subst hv
          unfold want at hwB
          simp only [Bool.or_eq_true, Bool.and_eq_true, decide_eq_true_eq] at hwB
          rcases hwB with hw | hw
          · exact .inr ⟨by omega, hw.1⟩
          · exact (force_contra hwA (hb.spread _ _ _ hA0 hB0 hn' hw.2)).elim
        · exact .inl (by omega)
      · exact (force_contra hwA h1).elim
  · have hn' := hn.parent hi hpos hA.1 hB.1
    rw [hpA] at hn'
    rcases h.leaf_after hB with ⟨hB0, hwB⟩ | ⟨v0, k0', rfl, hB0, hwB, hpB⟩
    · rw [h.near_old hA0.1 hB0.1] at hn'
      rcases hb.close _ _ _ _ hA0 hB0 hn' with h1 | h1
      · exact .inl (by omega)
      · exact .inl (by omega)
    · have hn2 := (hn'.symm.parent hi hpos hB.1 (lt_of_lt_of_le hA0.1 (h.used_le _))).symm
      rw [hpB, h.near_old hA0.1 hB0.1] at hn2
      rcases hb.close _ _ _ _ hA0 hB0 hn2 with h1 | h1
      · exact .inl (by omega)
      · exact .inr (by omega)

/-! ### The level restriction kernel -/

theorem Inv.root_hasCh (h : Inv P n s) : ∀ (l k : Nat), k < s.used (l + 1) → s.hasCh 0 0 = true := by
  intro l
  induction l with
  | zero =>
    intro k hk
    obtain ⟨h1, h2, _⟩ := h.parent_ok 0 k hk
    rw [h.used_zero] at h1
    rw [show s.parent (0 + 1) k = 0 by omega] at h2
    exact h2
  | succ l ih =>
    intro k hk
    exact ih _ (h.parent_ok _ k hk).1

theorem hasCh_anc (h : Inv P n s) (hpos : 0 < P.rootExtent) {l k : Nat} (hk : k < s.used l)
    {i : Nat} (hi : i < l) : ∃ k', k' < s.used i ∧ s.hasCh i k' = true ∧
      (toTree P n s).ancAt (levelStart s.used l + k) i = levelStart s.used i + k' := by
  obtain ⟨d, rfl⟩ : ∃ d, l = i + 1 + d := ⟨l - i - 1, by omega⟩
  induction d generalizing k with
  | zero =>
    obtain ⟨h1, h2, _⟩ := h.parent_ok i k hk
    refine ⟨_, h1, h2, ?_⟩
    unfold ancAt
    rw [level_toTree h hk, show i + 1 + 0 - i = 1 by omega]
    change (toTree P n s).parent _ = _
    rw [parent_toTree h hk, if_neg (by omega), show i + 1 + 0 - 1 = i by omega]
  | succ d ih =>
    obtain ⟨h1, _, _⟩ := h.parent_ok (i + 1 + d) k hk
    obtain ⟨k', h2, h3, h4⟩ := ih h1 (by omega)
    refine ⟨k', h2, h3, ?_⟩
    rw [← h4, ← (h.toTree_wf hpos).parent_ancAt (id_lt s.used (h.used_level hk) hk)
      (by rw [level_toTree h hk]; omega)]
    rw [parent_toTree h hk, if_neg (by omega)]
    rfl

/-- The kernel marks a leaf with a much smaller neighbor. -/
theorem restrictLevel_mark (h : Inv P n s) (hpos : 0 < P.rootExtent) (hadj : AdjOK P n) (f : Nat → Nat → Bool)
    {u k v k' : Nat} (hA : Leaf s u k) (hB : Leaf s v k') (hn : Near P s u k v k')
    (hv : v = u + 2 ∨ (v = u + 1 ∧ f v k' = true)) :
    restrictLevel P (toTree P n s) s f u u k = true := by
  have hw := h.toTree_wf hpos
  have hAl := id_lt s.used (h.used_level hA.1) hA.1
  have hBl := id_lt s.used (h.used_level hB.1) hB.1
  have hlB := level_toTree h hB.1
  have hlA := level_toTree h hA.1
  have hnw := nws_one_symm _ ((nws_toTree h hpos hA.1 hB.1).2 hn)
  have h0 := hw.nboxes_pos
  have hne : levelStart s.used v + k' ≠ levelStart s.used u + k := by
    intro hc
    rw [hc, hlA] at hlB
    omega
  unfold restrictLevel
  simp only [if_true, Bool.or_eq_true, Bool.and_eq_true, decide_eq_true_eq, Bool.not_eq_true',
    bne_iff_ne, ne_eq]
  right
  refine ⟨hA, ?_⟩
  suffices hm : () ∈ walk (toTree P n s) (restrictVisit P.fl (toTree P n s)
      (fun b => s.stored (locate s.used (toTree P n s).nlevels 0 b).1
        (locate s.used (toTree P n s).nlevels 0 b).2)
      (fun b => s.hasCh (locate s.used (toTree P n s).nlevels 0 b).1
        (locate s.used (toTree P n s).nlevels 0 b).2)
      (fun b => f (locate s.used (toTree P n s).nlevels 0 b).1
        (locate s.used (toTree P n s).nlevels 0 b).2) u (levelStart s.used u + k)) 0 by
    intro hc
    rw [hc] at hm
    cases hm
  have hloc : ∀ {l k}, k < s.used l → locate s.used (toTree P n s).nlevels 0
      (levelStart s.used l + k) = (l, k) := fun hk => locate_id s.used (h.used_level hk) hk
  refine mem_walk_of_reached (s := levelStart s.used v + k') hw h0 hBl ⟨?_, ?_, ?_⟩ ?_
  · rw [hw.level_root, hlB]; omega
  · rw [hw.level_root]; exact hw.ancAt_zero hBl
  · intro l h1 h2
    rw [hw.level_root] at h1
    rw [hlB] at h2
    obtain ⟨c, h3, h4, h5⟩ := hasCh_anc h hpos hB.1 h2
    rw [hw.level_root, h5]
    have hnc := hw.nws_ancAt_left (l := l) (le_refl 1) hBl hnw
    rw [h5, nws_toTree h hpos h3 hA.1, ← hadj s h _ _ _ _ h3 hA.1] at hnc
    unfold restrictVisit
    have hcne : levelStart s.used l + c ≠ levelStart s.used u + k := by
      intro hc
      have e := hloc h3
      rw [hc, hloc hA.1] at e
      obtain ⟨rfl, rfl⟩ := Prod.mk.inj e
      rw [hA.2] at h4
      cases h4
    have hl : 0 + (l - 0 - 1) + 1 = l := by omega
    simp only [hl]
    rw [hloc h3, hloc hA.1, if_pos ⟨hcne, hnc⟩]
    simp only [h4, if_true, decide_eq_true_eq]
    omega
  · rw [hw.level_root, hlB]
    rw [nws_toTree h hpos hB.1 hA.1, ← hadj s h _ _ _ _ hB.1 hA.1] at hnw
    unfold restrictVisit
    have hl : v - 0 - 1 + 1 = v := by omega
    simp only [hl]
    rw [hloc hB.1, hloc hA.1, if_pos ⟨hne, hnw⟩]
    simp only [hB.2, Bool.false_eq_true, if_false]
    rw [if_pos (by rcases hv with hv | hv <;> [left; right] <;> [omega; exact ⟨by omega, hv.2⟩])]
    exact List.mem_singleton.2 rfl

theorem restrictLevel_mono {t : BoxTree} {f : Nat → Nat → Bool} {u l k : Nat} (h : f l k = true) :
    restrictLevel P t s f u l k = true := by
  unfold restrictLevel
  split <;> simp [h]

theorem restrictLevel_other {t : BoxTree} {f : Nat → Nat → Bool} {u l k : Nat} (h : l ≠ u) :
    restrictLevel P t s f u l k = f l k := by
  unfold restrictLevel
  rw [if_neg h]

theorem upward_mono {t : BoxTree} : ∀ (w : Nat) (f : Nat → Nat → Bool) (l k : Nat),
    f l k = true → upward P t s w f l k = true := by
  intro w
  induction w with
  | zero => intro f l k h; exact h
  | succ w ih =>
    intro f l k h
    unfold upward
    simp only
    split
    · exact ih _ _ _ (restrictLevel_mono h)
    · exact restrictLevel_mono h

theorem upward_above {t : BoxTree} : ∀ (w : Nat) (f : Nat → Nat → Bool) (l k : Nat),
    w < l → upward P t s w f l k = f l k := by
  intro w
  induction w with
  | zero => intro f l k _; rfl
  | succ w ih =>
    intro f l k h
    unfold upward
    simp only
    split
    · rw [ih _ _ _ (by omega), restrictLevel_other (by omega)]
    · exact restrictLevel_other (by omega)

theorem upward_first (h : Inv P n s) (hpos : 0 < P.rootExtent) (hadj : AdjOK P n) (f : Nat → Nat → Bool)
    {w k k' : Nat} (h1 : 1 ≤ w) (hA : Leaf s w k) (hB : Leaf s (w + 2) k')
    (hn : Near P s w k (w + 2) k') : upward P (toTree P n s) s w f w k = true := by
  obtain ⟨w, rfl⟩ : ∃ w', w = w' + 1 := ⟨w - 1, by omega⟩
  have hm := restrictLevel_mark h hpos hadj f hA hB hn (.inl rfl)
  unfold upward
  simp only
  split
  · exact upward_mono _ _ _ _ hm
  · exact hm

theorem upward_spread (h : Inv P n s) (hpos : 0 < P.rootExtent) (hadj : AdjOK P n) : ∀ (w : Nat)
    (f : Nat → Nat → Bool), (∀ l k, l ≤ w → f l k = false) → ∀ {u k k' : Nat}, 1 ≤ u →
    u ≤ w → Leaf s u k → Leaf s (u + 1) k' → Near P s u k (u + 1) k' →
    upward P (toTree P n s) s w f (u + 1) k' = true → upward P (toTree P n s) s w f u k = true := by
  intro w
  induction w with
  | zero => intro f _ u k k' h1 h2; omega
  | succ w ih =>
    intro f hf u k k' h1 h2 hA hB hn hF
    rcases Nat.eq_or_lt_of_le h2 with rfl | hlt
    · rw [upward_above _ _ _ _ (by omega)] at hF
      have hm := restrictLevel_mark h hpos hadj f hA hB hn (.inr ⟨rfl, hF⟩)
      unfold upward
      simp only
      split
      · exact upward_mono _ _ _ _ hm
      · exact hm
    · unfold upward at hF ⊢
      simp only at hF ⊢
      split at hF
      · rename_i ha
        rw [if_pos ha]
        refine ih _ ?_ h1 (by omega) hA hB hn hF
        intro l k hl
        rw [restrictLevel_other (by omega)]
        exact hf l k (by omega)
      · rename_i ha
        exfalso
        by_cases hu : u + 1 = w + 1
        · apply ha
          unfold anyForced
          rw [List.any_eq_true]
          exact ⟨k', List.mem_range.2 (by rw [← hu]; exact hB.1), by rw [← hu] at hF ⊢; exact hF⟩
        · rw [restrictLevel_other hu, hf _ _ (by omega)] at hF
          cases hF

/-- Level restriction establishes what the next trip needs. -/
theorem restrict_bal (h : Inv P (level + 1) s) (hpos : 0 < P.rootExtent)
    (hadj : AdjOK P (level + 1))
    (hc : ∀ u k v k', Leaf s u k → Leaf s v k' → Near P s u k v k' →
      v ≤ u + 1 ∨ (v = u + 2 ∧ v = level)) : Bal P (level + 1) (restrict P level s) where
  close := by
    intro u k v k' hA hB hn
    rcases hc u k v k' hA hB hn with h1 | ⟨h1, h2⟩
    · exact .inl h1
    · refine .inr ⟨h1, by omega, ?_⟩
      subst h1
      have hu : 1 ≤ u := by
        by_contra hu
        obtain rfl : u = 0 := by omega
        have hk : k < s.used 0 := hA.1
        rw [h.used_zero] at hk
        have h3 : s.hasCh 0 k = false := hA.2
        rw [show k = 0 by omega, h.root_hasCh 1 k' hB.1] at h3
        cases h3
      change upward P (toTree P (level + 1) s) s (level - 2) (fun _ _ => false) u k = true
      rw [show level - 2 = u by omega]
      exact upward_first h hpos hadj _ hu hA hB hn
  spread := by
    intro u k k' hA hB hn hf
    change upward P (toTree P (level + 1) s) s (level - 2) (fun _ _ => false) (u + 1) k' = true at hf
    change upward P (toTree P (level + 1) s) s (level - 2) (fun _ _ => false) u k = true
    have hu : 1 ≤ u := by
      by_contra hu
      obtain rfl : u = 0 := by omega
      have hk : k < s.used 0 := hA.1
      rw [h.used_zero] at hk
      have h3 : s.hasCh 0 k = false := hA.2
      rw [show k = 0 by omega, h.root_hasCh 0 k' hB.1] at h3
      cases h3
    have hw : u ≤ level - 2 := by
      by_contra hw
      rw [upward_above _ _ _ _ (by omega)] at hf
      cases hf
    exact upward_spread h hpos hadj _ _ (fun _ _ _ => rfl) hu hw hA hB hn hf

theorem Bal.congr (h : Bal P level s) (o : Bool) : Bal P level { s with oversize := o } :=
  ⟨h.close, h.spread⟩

theorem Bal.trip (h : Bal P level s) (he : Entry P level s) (hM : P.MortOK)
    (hpos : 0 < P.rootExtent) (hadj : AdjOK P (level + 1)) (hr : P.levelRestrict = true) :
    Bal P (level + 1) (trip P level s) := by
  unfold Build.trip
  rw [if_pos hr]
  exact restrict_bal (he.pre hM).after_inv hpos hadj fun u k v k' hA hB hn =>
    (he.pre hM).close_after hpos hr ⟨h.close, h.spread⟩ hA hB hn

/-- At the end of the level loop, leaves that touch differ by at most one level. -/
theorem buildLevels_balanced (hM : P.MortOK) (hpos : 0 < P.rootExtent)
    (hr : P.levelRestrict = true) {L : Nat} {r : State} (hb : buildLevels P = .ok (L, r))
    (hadj : ∀ n, 1 ≤ n → n ≤ L + 1 → AdjOK P n)
    (hlink : P.haveExtent = true → Linked P r) {u k v k' : Nat} (hA : Leaf r u k)
    (hB : Leaf r v k') (hn : Near P r u k v k') : v ≤ u + 1 := by
  have hinit : ∀ {u k v k'}, Leaf (init P) u k → Leaf (init P) v k' → v = 0 := by
    intro u k v k' _ h
    have : k' < if v = 0 then 1 else 0 := h.1
    split at this
    · assumption
    · omega
  unfold buildLevels at hb
  split at hb
  · have hfuel : 1 ≤ P.nlevelsMax ∨ P.nlevelsMax = 0 := by omega
    rcases hfuel with hfuel | hfuel
    swap
    · rw [hfuel] at hb; cases hb
    obtain ⟨level, final, s, hl, ⟨hE, hB'⟩, hend⟩ := loop_ends (P := P)
      (fun level _ s => Entry P level s ∧ (level ≤ L + 1 → Bal P level s))
      (fun level s hJ _ _ _ => ⟨hJ.1.trip hM false, fun hL =>
        ((hJ.2 (by omega)).trip hJ.1 hM hpos (hadj _ (by omega) hL) hr).congr false⟩)
      (fun level s hJ _ _ ho _ _ => by
        refine ⟨?_, fun hL => (hJ.2 (by omega)).trip hJ.1 hM hpos (hadj _ (by omega) hL) hr⟩
        have := hJ.1.trip hM (Build.trip P level s).oversize
        exact this)
      P.nlevelsMax 1 false (init P) (le_refl 1) hfuel (by omega)
      ⟨Entry.init P, fun _ => by
        constructor
        · intro u k v k' hA hB _
          exact .inl (by rw [hinit hA hB]; omega)
        · intro u k k' hA hB
          have := hinit hA hB
          omega⟩
    rw [hb] at hend
    have hpre := hE.pre hM
    have hcl := fun (hB' : Bal P level s) {u k v k'} => hpre.close_after hpos hr
      ⟨hB'.close, hB'.spread⟩ (u := u) (k := k) (v := v) (k' := k')
    cases hend with
    | noNew h1 hu he =>
      -- nothing is split
      have hno : ∀ l k, k < s.used l → want P level (writeBins P s) l k = false := by
        intro l k hk
        by_contra hW
        rw [Bool.not_eq_false] at hW
        obtain ⟨hl, hleaf⟩ := hpre.want_leaf (l := l) (k := k) hk hW
        obtain ⟨m, _, hm⟩ := hlink he l k (by unfold markSplit; simp [hl, hW]; right; exact hk)
        exact hm (hpre.inv.child_some m l k (Or.inl hleaf))
      have hleaf : ∀ {l k}, Leaf (markSplit P level (writeBins P s)) l k → Leaf s l k := by
        rintro l k ⟨h2, h3⟩
        refine ⟨h2, ?_⟩
        by_contra hc
        have : (s.hasCh l k || (decide (l < level) && decide (k < s.used l) &&
          want P level (writeBins P s) l k)) = false := h3
        simp [hc] at this
      rcases (hB' (by omega)).close u k v k' (hleaf hA) (hleaf hB) hn with h2 | ⟨_, _, h2⟩
      · exact h2
      · have := hno u k (hleaf hA).1
        rw [want_force (s := writeBins P s) hr h2] at this
        cases this
    | final h1 ho hu =>
      rcases hcl (hB' (by omega)) hA hB hn with h2 | ⟨_, h2⟩
      · exact h2
      · have := hB.1
        rw [h2, hu] at this
        omega
    | done h1 hu ho hd =>
      rcases ((hB' (by omega)).trip hE hM hpos (hadj _ (by omega) (by omega)) hr).close u k v k' hA hB hn with h2 | ⟨h2, h3, h4⟩
      · exact h2
      · exfalso
        have hd' := hd hr
        have h5 := (hE.trip hM (Build.trip P L s).oversize).inv
        have hu1 : 1 ≤ u := by
          by_contra hu1
          obtain rfl : u = 0 := by omega
          have hk : k < (Build.trip P L s).used 0 := hA.1
          have e0 : (Build.trip P L s).used 0 = 1 := h5.used_zero
          have h6 := hA.2
          have h7 : (Build.trip P L s).hasCh 0 0 = true := h5.root_hasCh 1 k' (by rw [h2] at hB; exact hB.1)
          rw [show k = 0 by omega, h7] at h6
          cases h6
        unfold didSplit at hd'
        rw [Bool.and_eq_false_iff] at hd'
        rcases hd' with hd' | hd'
        · simp only [decide_eq_false_iff_not] at hd'
          omega
        · have : anyForced (Build.trip P L s) (Build.trip P L s).force (L - 2) = true := by
            unfold anyForced
            rw [show L - 2 = u by omega, List.any_eq_true]
            exact ⟨k, List.mem_range.2 hA.1, h4⟩
          rw [hd'] at this
          cases this
  · have h' := Except.ok.inj hb
    obtain ⟨rfl, rfl⟩ := Prod.mk.inj h'
    rw [hinit hA hB]
    omega

end
end Boxtree.Build
