import Verif.Lemmas.Weights

/-! How the level loop ends, and the refine weights of the leaves. -/

namespace Boxtree.Build

open Finset

/-- The weights do not overflow. -/
structure WOK (P : Params) : Prop where
  mort : P.MortOK
  weight : ∀ p < P.n, P.weight p ≤ intMax
  maxWeight : P.maxWeight < intMax
  /-- without extents no particle is held back -/
  free : P.haveExtent = false → ∀ p l, P.mort p l ≠ none

/-- Weight of the particles that the children of the box could get. -/
def mload (P : Params) (s : State) (l k : Nat) : Nat := load P s.parent l k (wMove P l)

/-- The leaves above the newest level are not too heavy. -/
def LeafOK (P : Params) (level : Nat) (s : State) : Prop :=
  ∀ l k, k < s.used l → s.hasCh l k = false → l + 1 < level → mload P s l k ≤ P.maxWeight

/-- There is a heavy leaf on the newest level. -/
def Big (P : Params) (level : Nat) (s : State) : Prop :=
  ∃ l k, l + 1 = level ∧ k < s.used l ∧ s.hasCh l k = false ∧ P.maxWeight < mload P s l k

section
variable {P : Params} {level : Nat} {s : State}

theorem want_iff (hP : WOK P) (ha : P.adaptive = true) (hF : FullW P s) {l k : Nat}
    (hk : k < s.used l) (hc : s.hasCh l k = false) : want P level s l k = true ↔
      (l + 1 = level ∧ P.maxWeight < mload P s l k) ∨
        (P.levelRestrict = true ∧ s.force l k = true) := by
  unfold want mload
  rw [hF.weight hP.mort hk hc]
  have := hP.maxWeight
  simp only [ha, if_true, Bool.or_eq_true, Bool.and_eq_true, decide_eq_true_eq]
  constructor
  · rintro (h | h)
    · exact Or.inl ⟨h.1, by omega⟩
    · exact Or.inr h
  · rintro (h | h)
    · exact Or.inl ⟨h.1, by omega⟩
    · exact Or.inr h

theorem Pre.mload_old (h : Pre P level s) {l k : Nat} (hk : k < s.used l) :
    mload P (after P level s) l k = mload P s l k :=
  load_congr _ fun _ => h.path_old hk

/-- Weight of a new box. -/
theorem Pre.load_new (h : Pre P level s) {l k m : Nat} (hk : k < s.used l)
    (hW : want P level s l k = true) (hm : m < P.nch) :
    load P (after P level s).parent (l + 1) (newBase P level s l k + m) P.weight
      = load P s.parent l k (wChild P l m) := by
  rw [load_child, h.parent_new hk hW hm, h.newBase_mod hm]
  exact load_congr _ fun _ => h.path_old hk

theorem mload_le (l k : Nat) : mload P s l k ≤ load P s.parent l k P.weight :=
  load_mono fun p => wMove_le l p

theorem leafOK_after (hP : WOK P) (ha : P.adaptive = true) (h : Pre P level s) (hF : FullW P s)
    (hl : LeafOK P level s) : LeafOK P (level + 1) (after P level s) := by
  intro l k hk hc hlt
  by_cases hold : k < s.used l
  · rw [h.mload_old hold]
    have hc' : ¬ (s.hasCh l k = true ∨ (k < s.used l ∧ want P level s l k = true)) := by
      rw [← h.hasCh_iff, hc]; simp
    rw [not_or] at hc'
    have hc1 : s.hasCh l k = false := by simpa using hc'.1
    by_cases hlev : l + 1 = level
    · by_contra hgt
      exact hc'.2 ⟨hold, (want_iff hP ha hF hold hc1).2 (Or.inl ⟨hlev, by omega⟩)⟩
    · exact hl l k hold hc1 (by omega)
  · cases l with
    | zero => rw [Pre.used_zero] at hk; rw [h.inv.used_zero] at hold; omega
    | succ l =>
      obtain ⟨k0, m, h1, h2, h3, rfl⟩ := h.new_box (by omega) hk
      have hc0 := (h.want_leaf h1 h2).2
      have := hl l k0 h1 hc0 (by omega)
      have h4 := mload_le (P := P) (s := after P level s) (l + 1) (newBase P level s l k0 + m)
      rw [h.load_new h1 h2 h3] at h4
      have h5 : load P s.parent l k0 (wChild P l m) ≤ mload P s l k0 :=
        load_mono fun p => wChild_le l m p
      omega

theorem oversize_iff (h : Pre P level s) : (after P level s).oversize = true ↔
    s.oversize = true ∨ ∃ l k, k < s.used l ∧ want P level s l k = true ∧
      P.maxWeight < (s.bins l k).maxWeight P.nch := by
  change (s.oversize || (List.range level).any fun l => (List.range (s.used l)).any fun k =>
      want P level s l k && decide (P.maxWeight < (s.bins l k).maxWeight P.nch)) = true ↔ _
  simp only [Bool.or_eq_true, List.any_eq_true, List.mem_range, Bool.and_eq_true, decide_eq_true_eq]
  constructor
  · rintro (h1 | ⟨l, _, k, h2, h3⟩)
    · exact Or.inl h1
    · exact Or.inr ⟨l, k, h2, h3⟩
  · rintro (h1 | ⟨l, k, h2, h3⟩)
    · exact Or.inl h1
    · exact Or.inr ⟨l, h.inv.used_level h2, k, h2, h3⟩

/-- If no new box is too heavy, all leaves are done. -/
theorem leafOK_done (hP : WOK P) (ha : P.adaptive = true) (h : Pre P level s) (hF : FullW P s)
    (hl : LeafOK P level s) (ho : (after P level s).oversize = false) :
    LeafOK P (level + 2) (after P level s) := by
  intro l k hk hc hlt
  rcases Nat.lt_or_ge (l + 1) (level + 1) with hlt' | hge
  · exact leafOK_after hP ha h hF hl l k hk hc hlt'
  · obtain rfl : l = level := by omega
    cases l with
    | zero =>
      have := h.inv.used_level (l := 0) (k := 0) (by rw [h.inv.used_zero]; omega)
      omega
    | succ l =>
      obtain ⟨k0, m, h1, h2, h3, rfl⟩ := h.new_box (by rw [h.inv.used_deep _ (le_refl _)]; omega) hk
      have hc0 := (h.want_leaf h1 h2).2
      have h4 := mload_le (P := P) (s := after P (l + 1) s) (l + 1) (newBase P (l + 1) s l k0 + m)
      rw [h.load_new h1 h2 h3] at h4
      refine le_trans h4 ?_
      by_contra hgt
      have := (oversize_iff h).2 (Or.inr ⟨l, k0, h1, h2,
        (hF.maxWeight h1 hc0 hP.maxWeight).2 ⟨m, h3, by omega⟩⟩)
      rw [ho] at this
      cases this

theorem mload_free (hP : WOK P) (he : P.haveExtent = false) (l k : Nat) :
    mload P s l k = load P s.parent l k P.weight := by
  unfold mload
  congr 1
  funext p
  unfold wMove
  rw [if_neg (hP.free he p l)]

theorem big_after (hP : WOK P) (he : P.haveExtent = false)
    (h : Pre P level s) (hF : FullW P s)
    (hl : LeafOK P level s) (ho : s.oversize = false) (ho' : (after P level s).oversize = true) :
    Big P (level + 1) (after P level s) := by
  rcases (oversize_iff h).1 ho' with h1 | ⟨l, k, h1, h2, h3⟩
  · rw [ho] at h1; cases h1
  · have hc0 := (h.want_leaf h1 h2).2
    obtain ⟨m, h4, h5⟩ := (hF.maxWeight h1 hc0 hP.maxWeight).1 h3
    have h6 : load P s.parent l k (wChild P l m) ≤ mload P s l k :=
      load_mono fun p => wChild_le l m p
    have hlev : l + 1 = level := by
      by_contra hne
      have := h.inv.used_level h1
      have := hl l k h1 hc0 (by omega)
      omega
    subst hlev
    refine ⟨l + 1, newBase P (l + 1) s l k + m, rfl, ?_, h.newBox_hasCh, ?_⟩
    · have := h.newBase_le h1 h2; omega
    · rw [mload_free hP he, h.load_new h1 h2 h4]; exact h5

theorem no_new (h : Pre P level s) (hpos : 1 ≤ level)
    (hu : (after P level s).used level = 0) : ∀ l k, l + 1 = level → k < s.used l →
      want P level s l k = false := by
  intro l k hl hk
  by_contra hW
  subst hl
  have := h.newBase_le hk (by simpa using hW)
  have := nch_pos P
  omega

/-- What holds at the beginning of every trip of an adaptive build. -/
structure AInv (P : Params) (level : Nat) (final : Bool) (s : State) : Prop where
  entry : Entry P level s
  leaf : LeafOK P level s
  oversize : s.oversize = false
  fin : final = true → LeafOK P (level + 1) s
  big : final = false → P.haveExtent = false → Big P level s

theorem AInv.next (hP : WOK P) (ha : P.adaptive = true) {level : Nat} {s : State}
    (h : AInv P level false s) (ho : (after P level (writeBins P s)).oversize = true) :
    AInv P (level + 1) false { trip P level s with oversize := false } := by
  have hpre := h.entry.pre hP.mort
  have hF := h.entry.inv.writeBins_pwt hP.mort hP.weight
  have hl : LeafOK P level (writeBins P s) := h.leaf
  refine ⟨h.entry.trip hP.mort false, ?_, rfl, by simp, ?_⟩
  · have := leafOK_after hP ha hpre hF hl
    unfold trip
    split <;> exact this
  · intro _ he
    have := big_after hP he hpre hF hl h.oversize ho
    unfold trip
    split <;> exact this

theorem AInv.last (hP : WOK P) (ha : P.adaptive = true) {level : Nat} {s : State}
    (h : AInv P level false s) (ho : (after P level (writeBins P s)).oversize = false) :
    AInv P (level + 1) true (trip P level s) := by
  have hpre := h.entry.pre hP.mort
  have hF := h.entry.inv.writeBins_pwt hP.mort hP.weight
  have hl : LeafOK P level (writeBins P s) := h.leaf
  have hd := leafOK_done hP ha hpre hF hl ho
  refine ⟨?_, ?_, by rw [trip_oversize]; exact ho, fun _ => ?_, by simp⟩
  · have := h.entry.trip hP.mort (trip P level s).oversize
    exact this
  · have := leafOK_after hP ha hpre hF hl
    unfold trip
    split <;> exact this
  · unfold trip
    split <;> exact hd

theorem list_sum_range (f : Nat → Nat) (n : Nat) :
    ((List.range n).map f).sum = ∑ i ∈ range n, f i := by
  induction n with
  | zero => simp
  | succ n ih => rw [Build.sum_range_succ, Finset.sum_range_succ, ih]

theorem AInv.init (hP : WOK P) (hw : P.maxWeight < totalWeight P) : AInv P 1 false (init P) := by
  refine ⟨Entry.init P, ?_, rfl, by simp, ?_⟩
  · intro l k _ _ hl; omega
  · intro _ he
    refine ⟨0, 0, rfl, by simp [Build.init], rfl, ?_⟩
    rw [mload_free hP he]
    have : load P (Build.init P).parent 0 0 P.weight = totalWeight P := by
      unfold load totalWeight
      simp only [PathOK]
      exact (list_sum_range _ _).symm
    rw [this]; exact hw

theorem AInv.all (hP : WOK P) (ha : P.adaptive = true) {fuel level : Nat} {final : Bool} {s : State}
    (hl : 1 ≤ level) (h1 : level ≤ P.nlevelsMax) (h2 : P.nlevelsMax + 1 ≤ fuel + level)
    (h : AInv P level final s) : ∃ level' final' s', 1 ≤ level' ∧ AInv P level' final' s' ∧
        LoopEnd P level' s' final' (loop P fuel level final s) :=
  loop_ends (AInv P) (fun _ _ hJ _ _ ho => hJ.next hP ha ho)
    (fun _ _ hJ _ _ ho _ _ => hJ.last hP ha ho) fuel level final s hl h1 h2 h

/-- The marks follow from the children. -/
theorem Inv.marks {h1 h2 : Nat → Nat → Bool} {o1 o2 : Bool}
    (i1 : Inv P level { s with hasCh := h1, oversize := o1 })
    (i2 : Inv P level { s with hasCh := h2, oversize := o2 }) : h1 = h2 := by
  have key : ∀ {h h' : Nat → Nat → Bool} {o o' : Bool},
      Inv P level { s with hasCh := h, oversize := o } →
      Inv P level { s with hasCh := h', oversize := o' } → ∀ l k, h l k = true → h' l k = true := by
    intro h h' o o' i i' l k hc
    by_contra hne
    obtain ⟨_, base, _, _, h3⟩ := i.children l k hc
    have a := (h3 0 (nch_pos P)).1
    have b := i'.child_some 0 l k (Or.inl (by simpa using hne))
    have a' : s.child 0 l k = some (base + 0) := a
    have b' : s.child 0 l k = none := b
    rw [a'] at b'
    cases b'
  funext l k
  rw [Bool.eq_iff_iff]
  exact ⟨key i1 i2 l k, key i2 i1 l k⟩

theorem final_no_new (hP : WOK P) (ha : P.adaptive = true) (h : Pre P level s) (hF : FullW P s)
    (hpos : 1 ≤ level) (ho : s.oversize = false) (hl : LeafOK P (level + 1) s) :
    (after P level s).oversize = false ∧ (after P level s).used level = 0 := by
  have forced : ∀ l k, k < s.used l → want P level s l k = true → l + 1 < level := by
    intro l k hk hW
    have hc := (h.want_leaf hk hW).2
    rcases (want_iff hP ha hF hk hc).1 hW with h1 | h1
    · have := hl l k hk hc (by omega); omega
    · exact (h.force l k h1.2).2.1
  constructor
  · by_contra hne
    rcases (oversize_iff h).1 (by simpa using hne) with h1 | ⟨l, k, h1, h2, h3⟩
    · rw [ho] at h1; cases h1
    · have hc := (h.want_leaf h1 h2).2
      obtain ⟨m, _, h4⟩ := (hF.maxWeight h1 hc hP.maxWeight).1 h3
      have h5 : load P s.parent l k (wChild P l m) ≤ mload P s l k :=
        load_mono fun p => wChild_le l m p
      have := hl l k h1 hc (by have := forced l k h1 h2; omega)
      omega
  · by_contra hne
    obtain ⟨l, rfl⟩ : ∃ l, level = l + 1 := ⟨level - 1, by omega⟩
    obtain ⟨k, m, h1, h2, _, _⟩ := h.new_box (c := 0)
      (by rw [h.inv.used_deep _ (le_refl _)]) (by omega)
    have := forced l k h1 h2
    omega

/-- In an adaptive build that succeeds, no leaf is too heavy. -/
theorem buildLevels_leafOK (hP : WOK P) (ha : P.adaptive = true) (hn : 1 ≤ P.nlevelsMax)
    {L : Nat} {r : State} (h : buildLevels P = .ok (L, r)) {hc : Nat → Nat → Bool} {o : Bool}
    (hI : Inv P (L + 1) { r with hasCh := hc, oversize := o }) :
    LeafOK P (L + 2) { r with hasCh := hc, oversize := o } := by
  unfold buildLevels at h
  split at h
  · rename_i hw
    obtain ⟨level, final, s, hpos, hJ, hE⟩ := AInv.all (fuel := P.nlevelsMax) hP ha (le_refl 1) hn
      (by omega) (AInv.init hP hw)
    rw [h] at hE
    have hpre := hJ.entry.pre hP.mort
    have hF := hJ.entry.inv.writeBins_pwt hP.mort hP.weight
    have hl : LeafOK P level (writeBins P s) := hJ.leaf
    cases hE with
    | noNew hmax hu he =>
      rw [show level - 1 + 1 = level from by omega] at hI
      rw [show level - 1 + 2 = level + 1 from by omega]
      have hmk : hc = (writeBins P s).hasCh :=
        Inv.marks (o2 := (writeBins P s).oversize) hI hpre.inv
      subst hmk
      intro l k hk hc0 hlt
      by_cases hlev : l + 1 = level
      · have h1 := no_new hpre hpos hu l k hlev hk
        by_contra hgt
        have h2 := (want_iff (level := level) hP ha hF hk hc0).2
          (Or.inl ⟨hlev, not_le.1 hgt⟩)
        rw [h1] at h2
        cases h2
      · exact hl l k hk hc0 (by omega)
    | final hmax ho hu =>
      rw [show level - 1 + 1 = level from by omega] at hI
      rw [show level - 1 + 2 = level + 1 from by omega]
      have hmk : hc = (after P level (writeBins P s)).hasCh :=
        Inv.marks (o2 := (after P level (writeBins P s)).oversize) hI (hpre.after_inv.mono hu)
      subst hmk
      exact leafOK_after hP ha hpre hF hl
    | done hmax hu ho hd =>
      have ht : Inv P (L + 1) (trip P L s) :=
        (hJ.entry.trip hP.mort (trip P L s).oversize).inv
      have hmk : hc = (trip P L s).hasCh :=
        Inv.marks (o2 := (trip P L s).oversize) hI ht
      subst hmk
      have := leafOK_done hP ha hpre hF hl ho
      unfold trip
      split <;> exact this
  · rename_i hw
    obtain ⟨rfl, rfl⟩ := Prod.mk.inj (Except.ok.inj h)
    intro l k hk _ hlt
    have hl0 : l = 0 := by omega
    subst hl0
    refine le_trans (mload_le _ _) ?_
    have : load P (Build.init P).parent 0 k P.weight = totalWeight P := by
      unfold load totalWeight
      simp only [PathOK]
      exact (list_sum_range _ _).symm
    change load P (Build.init P).parent 0 k P.weight ≤ _
    omega

/-- The only error. -/
theorem buildLevels_error (hP : WOK P) (hn : 1 ≤ P.nlevelsMax)
    (hLR : P.levelRestrict = true → P.adaptive = true) {e : String}
    (h : buildLevels P = .error e) : e = "MaxLevelsExceeded" := by
  unfold buildLevels at h
  split at h
  · rename_i hw
    by_cases ha : P.adaptive = true
    · obtain ⟨level, final, s, hpos, hJ, hE⟩ := AInv.all (fuel := P.nlevelsMax) hP ha (le_refl 1) hn
        (by omega) (AInv.init hP hw)
      rw [h] at hE
      have hpre := hJ.entry.pre hP.mort
      have hF := hJ.entry.inv.writeBins_pwt hP.mort hP.weight
      cases hE with
      | maxLevels => rfl
      | noNewError hmax hu he =>
        obtain ⟨l, k, h1, h2, h3, h4⟩ := hJ.big rfl he
        have h5 := no_new hpre hpos hu l k h1 h2
        rw [(want_iff (s := writeBins P s) hP ha hF h2 h3).2 (Or.inl ⟨h1, h4⟩)] at h5
        cases h5
      | finalError hmax hu =>
        have := final_no_new hP ha hpre hF hpos hJ.oversize (hJ.fin rfl)
        rw [this.1, this.2] at hu
        simp at hu
    · obtain ⟨level, final, s, hpos, hJ, hE⟩ := loop_ends (P := P)
        (fun level final s => Entry P level s ∧ final = false ∧ 0 < s.used (level - 1))
        (fun level s hJ _ hu _ => ⟨hJ.1.trip hP.mort false, rfl, by
          rw [Nat.add_sub_cancel]
          unfold trip
          split <;> exact Nat.pos_of_ne_zero hu⟩)
        (fun level s hJ _ hu _ hr _ => absurd (hLR hr) ha) P.nlevelsMax 1 false (init P) (le_refl 1) hn
        (by omega) ⟨Entry.init P, rfl, by simp [Build.init]⟩
      rw [h] at hE
      obtain ⟨hEn, rfl, hpos'⟩ := hJ
      have hpre := hEn.pre hP.mort
      cases hE with
      | maxLevels => rfl
      | noNewError hmax hu he =>
        have h5 := no_new hpre hpos hu (level - 1) 0 (by omega) hpos'
        have hc : (writeBins P s).hasCh (level - 1) 0 = false := by
          by_contra hne
          have := (hpre.inv.hasCh_used (level - 1) 0 (by simpa using hne)).2
          omega
        have h6 := (hpre.full (level - 1) 0 hpos' hc).nonchild
        have h7 : ((writeBins P s).bins (level - 1) 0).nonchild ≤ (writeBins P s).count (level - 1) 0 := by
          rw [h6]; exact Nat.count_le _
        unfold want at h5
        simp only [show level - 1 + 1 = level from by omega, ha, decide_true,
          Bool.true_and, Bool.or_eq_false_iff] at h5
        simp at h5
        omega
  · cases h

end
end Boxtree.Build
