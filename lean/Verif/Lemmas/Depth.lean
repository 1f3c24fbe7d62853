import Verif.Lemmas.LeafWeights

/-! Depth of the tree, and builds that are not adaptive. -/

namespace Boxtree.Build

section
variable {P : Params} {level : Nat} {s : State}

/-- There is a heavy box on level `level - 1`. -/
def Deep (P : Params) (level : Nat) (s : State) : Prop :=
  ∃ l k, l + 1 = level ∧ k < s.used l ∧ P.maxWeight < load P s.parent l k P.weight

theorem Deep.old {n : Nat} (h : Pre P level s) (hd : Deep P n s) : Deep P n (after P level s) := by
  obtain ⟨l, k, h1, h2, h3⟩ := hd
  refine ⟨l, k, h1, lt_of_lt_of_le h2 (h.used_le l), ?_⟩
  have : load P (after P level s).parent l k P.weight = load P s.parent l k P.weight :=
    load_congr _ fun _ => h.path_old h2
  rw [this]; exact h3

theorem Deep.trip {n : Nat} (h : Pre P level (writeBins P s)) (hd : Deep P n s) :
    Deep P n (trip P level s) := by
  have : Deep P n (after P level (writeBins P s)) := Deep.old h hd
  unfold Build.trip
  split <;> exact this

theorem deep_after (hP : WOK P) (h : Pre P level s) (hF : FullW P s)
    (hl : P.adaptive = true → LeafOK P level s) (hLR : P.levelRestrict = true → P.adaptive = true)
    (ho : s.oversize = false) (ho' : (after P level s).oversize = true) :
    Deep P (level + 1) (after P level s) := by
  rcases (oversize_iff h).1 ho' with h1 | ⟨l, k, h1, h2, h3⟩
  · rw [ho] at h1; cases h1
  · have hc0 := (h.want_leaf h1 h2).2
    obtain ⟨m, h4, h5⟩ := (hF.maxWeight h1 hc0 hP.maxWeight).1 h3
    have h6 : load P s.parent l k (wChild P l m) ≤ mload P s l k :=
      load_mono fun p => wChild_le l m p
    have hlev : l + 1 = level := by
      cases ha : P.adaptive with
      | true =>
        by_contra hne
        have := h.inv.used_level h1
        have := hl ha l k h1 hc0 (by omega)
        omega
      | false =>
        have hr : P.levelRestrict = false := by
          by_contra hr
          rw [hLR (by simpa using hr)] at ha
          cases ha
        unfold want at h2
        simp only [hr, Bool.false_and, Bool.or_false, Bool.and_eq_true, decide_eq_true_eq] at h2
        exact h2.1
    subst hlev
    refine ⟨l + 1, newBase P (l + 1) s l k + m, rfl, ?_, ?_⟩
    · have := h.newBase_le h1 h2; omega
    · rw [h.load_new h1 h2 h4]; exact h5

theorem buildLevels_deep (hP : WOK P) (hn : 1 ≤ P.nlevelsMax)
    (hLR : P.levelRestrict = true → P.adaptive = true) {L : Nat} {r : State}
    (h : buildLevels P = .ok (L, r)) (hL : 1 ≤ L) : Deep P L r := by
  unfold buildLevels at h
  split at h
  · rename_i hw
    obtain ⟨level, final, s, hl, hJ, hend⟩ := loop_ends (P := P)
      (fun level final s => Entry P level s ∧ s.oversize = false ∧
        (P.adaptive = true → AInv P level final s) ∧ (2 ≤ level → Deep P (level - 1) s) ∧
        (final = false → Deep P level s))
      (fun level s hJ _ _ ho => by
        obtain ⟨hE, hov, hA, _, hD⟩ := hJ
        have hpre := hE.pre hP.mort
        have hF := hE.inv.writeBins_pwt hP.mort hP.weight
        refine ⟨hE.trip hP.mort false, rfl, fun ha => (hA ha).next hP ha ho, fun _ => ?_, fun _ => ?_⟩
        · rw [Nat.add_sub_cancel]
          exact (hD rfl).trip hpre
        · have := deep_after hP hpre hF (fun ha => (hA ha).leaf) hLR hov ho
          unfold trip
          split <;> exact this)
      (fun level s hJ _ _ ho _ _ => by
        obtain ⟨hE, hov, hA, _, hD⟩ := hJ
        have hpre := hE.pre hP.mort
        have h1 := hE.trip hP.mort (trip P level s).oversize
        refine ⟨h1, by rw [trip_oversize]; exact ho, fun ha => (hA ha).last hP ha ho, fun _ => ?_,
          by simp⟩
        rw [Nat.add_sub_cancel]
        exact (hD rfl).trip hpre)
      P.nlevelsMax 1 false (init P) (le_refl 1) hn (by omega)
      ⟨Entry.init P, rfl, fun _ => AInv.init hP hw, by omega, fun _ => by
        refine ⟨0, 0, rfl, by simp [Build.init], ?_⟩
        have : load P (Build.init P).parent 0 0 P.weight = totalWeight P := by
          unfold load totalWeight
          simp only [PathOK]
          exact (list_sum_range _ _).symm
        rw [this]; exact hw⟩
    rw [h] at hend
    obtain ⟨hE, _, _, hD1, hD2⟩ := hJ
    have hpre := hE.pre hP.mort
    cases hend with
    | noNew hmax hu he => exact hD1 (by omega)
    | final hmax ho hu =>
      have hd : Deep P (level - 1) (writeBins P s) := hD1 (by omega)
      exact hd.old hpre
    | done hmax hu ho hd => exact (hD2 rfl).trip hpre
  · obtain ⟨rfl, rfl⟩ := Prod.mk.inj (Except.ok.inj h)
    omega

/-! ### Not adaptive -/

/-- All boxes above the newest level are split. -/
def AllSplit (level : Nat) (s : State) : Prop :=
  ∀ l k, k < s.used l → l + 1 < level → s.hasCh l k = true

/-- No box of the newest level is too heavy. -/
def LastOK (P : Params) (level : Nat) (s : State) : Prop :=
  ∀ l k, k < s.used l → l + 1 = level → load P s.parent l k P.weight ≤ P.maxWeight

theorem want_uniform (ha : P.adaptive = false) (h : Pre P level s) {l k : Nat} (hl : l + 1 = level)
    (hk : k < s.used l) (hc : s.hasCh l k = false) : want P level s l k = true := by
  have h1 := (h.full l k hk hc).nonchild
  have h2 := Nat.count_le (p := fun j => boxKey P s l k j = 0) (n := s.count l k)
  unfold want
  simp [ha, hl]
  omega

theorem allSplit_after (ha : P.adaptive = false) (h : Pre P level s) (hu : AllSplit level s) :
    AllSplit (level + 1) (after P level s) := by
  intro l k hk hl
  rw [h.hasCh_iff]
  by_cases hold : k < s.used l
  · by_cases hc : s.hasCh l k = true
    · exact .inl hc
    · right
      refine ⟨hold, want_uniform ha h ?_ hold (by simpa using hc)⟩
      by_contra hne
      exact hc (hu l k hold (by omega))
  · exfalso
    cases l with
    | zero => rw [Pre.used_zero] at hk; rw [h.inv.used_zero] at hold; omega
    | succ l =>
      obtain ⟨k0, m, h1, h2, h3, rfl⟩ := h.new_box (by omega) hk
      have := hu l k0 h1 (by omega)
      rw [(h.want_leaf h1 h2).2] at this
      cases this

theorem lastOK_after (hP : WOK P) (h : Pre P level s) (hF : FullW P s)
    (ho : (after P level s).oversize = false) : LastOK P (level + 1) (after P level s) := by
  intro l k hk hl
  obtain rfl : l = level := by omega
  cases l with
  | zero =>
    have := h.inv.used_level (l := 0) (k := 0) (by rw [h.inv.used_zero]; omega)
    omega
  | succ l =>
    obtain ⟨k0, m, h1, h2, h3, rfl⟩ := h.new_box (by rw [h.inv.used_deep _ (le_refl _)]; omega) hk
    have hc0 := (h.want_leaf h1 h2).2
    rw [h.load_new h1 h2 h3]
    by_contra hgt
    have := (oversize_iff h).2 (Or.inr ⟨l, k0, h1, h2,
      (hF.maxWeight h1 hc0 hP.maxWeight).2 ⟨m, h3, by omega⟩⟩)
    rw [ho] at this
    cases this

/-- Result of a build that is not adaptive, without extents. -/
theorem buildLevels_uniform (hP : WOK P) (hn : 1 ≤ P.nlevelsMax) (ha : P.adaptive = false)
    (hr : P.levelRestrict = false) (he : P.haveExtent = false) {L : Nat} {r : State}
    (h : buildLevels P = .ok (L, r)) : AllSplit (L + 1) r ∧ LastOK P (L + 1) r := by
  unfold buildLevels at h
  split at h
  · rename_i hw
    obtain ⟨level, final, s, hl, ⟨hE, hU, hfin⟩, hend⟩ := loop_ends (P := P)
      (fun level final s => Entry P level s ∧ AllSplit level s ∧ final = false)
      (fun level s hJ _ _ ho => by
        obtain ⟨hE, hU, _⟩ := hJ
        have hpre := hE.pre hP.mort
        refine ⟨hE.trip hP.mort false, ?_, rfl⟩
        have : AllSplit (level + 1) (after P level (writeBins P s)) := allSplit_after ha hpre hU
        unfold trip
        split <;> exact this)
      (fun level s hJ _ _ ho h1 _ => by rw [hr] at h1; cases h1)
      P.nlevelsMax 1 false (init P) (le_refl 1) hn (by omega)
      ⟨Entry.init P, fun l k hk hl => by omega, rfl⟩
    rw [h] at hend
    subst hfin
    have hpre := hE.pre hP.mort
    have hF := hE.inv.writeBins_pwt hP.mort hP.weight
    cases hend with
    | noNew hmax hu he' => rw [he] at he'; cases he'
    | done hmax hu ho hd =>
      have h1 : AllSplit (L + 1) (after P L (writeBins P s)) := allSplit_after ha hpre hU
      have h2 := lastOK_after hP hpre hF ho
      unfold trip
      rw [if_neg (by simp [hr])]
      exact ⟨h1, h2⟩
  · rename_i hw
    obtain ⟨rfl, rfl⟩ := Prod.mk.inj (Except.ok.inj h)
    refine ⟨fun l k hk hl => by omega, fun l k hk hl => ?_⟩
    obtain rfl : l = 0 := by omega
    have : load P (Build.init P).parent 0 k P.weight = totalWeight P := by
      unfold load totalWeight
      simp only [PathOK]
      exact (list_sum_range _ _).symm
    rw [this]
    omega

end
end Boxtree.Build
