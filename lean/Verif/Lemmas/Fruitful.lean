import Verif.Lemmas.Occupied
import Verif.Lemmas.FinishTree
import Verif.Spec.AreaQuery

/-! In an adaptive tree a box that is marked as split has a child with particles. -/

namespace Boxtree.Build

/-- A box that is marked as split has a child with particles. -/
def Fruitful (s : State) : Prop :=
  ∀ l k, s.hasCh l k = true → ∃ m c, s.child m l k = some c ∧ 0 < s.count (l + 1) c

section
variable {P : Params} {level : Nat} {s : State}

/-- A box is only split if one of its children gets particles. -/
theorem want_pcnt (ha : P.adaptive = true) (hf : ∀ l k, s.force l k = false) (hb : BinsOK s)
    {l k : Nat} (hW : want P level s l k = true) :
    l + 1 = level ∧ ∃ m < P.nch, 0 < (s.bins l k).pcnt m := by
  unfold want at hW
  simp only [ha, if_true, hf, Bool.and_false, Bool.or_false, Bool.and_eq_true,
    decide_eq_true_eq] at hW
  exact ⟨hW.1, hb.pcnt_pos hW.2⟩

theorem Pre.fruitful (h : Pre P level s) (ha : P.adaptive = true)
    (hf : ∀ l k, s.force l k = false) (hb : BinsOK s) (hs : Fruitful s) :
    Fruitful (after P level s) := by
  intro l k hc
  by_cases hW : k < s.used l ∧ want P level s l k = true
  · obtain ⟨m, hm, hp⟩ := (want_pcnt ha hf hb hW.2).2
    exact ⟨m, _, h.child_want hW.1 hW.2 hm, by rw [h.count_new hW.1 hW.2 hm]; exact hp⟩
  · rw [hasCh_old hW] at hc
    obtain ⟨m, c, h1, h2⟩ := hs l k hc
    refine ⟨m, c, by rw [h.child_old (Or.inl hW)]; exact h1, ?_⟩
    have hu : c < s.used (l + 1) := by
      by_contra hn
      have := h.inv.unused_count (l + 1) c (by omega)
      omega
    rw [h.count_old (Or.inl hu)]
    exact h2

/-- At the end of the level loop, every box that is marked as split has a child with particles. -/
theorem buildLevels_fruitful (hM : P.MortOK) (ha : P.adaptive = true)
    (hr : P.levelRestrict = false) {L : Nat} {r : State}
    (hb : buildLevels P = .ok (L, r)) : Fruitful r := by
  have h0 : Fruitful (init P) := fun l k h => by cases h
  unfold buildLevels at hb
  split at hb
  · have hfuel : 1 ≤ P.nlevelsMax ∨ P.nlevelsMax = 0 := by omega
    rcases hfuel with hfuel | hfuel
    swap
    · rw [hfuel] at hb; cases hb
    have htrip : ∀ level s, trip P level s = after P level (writeBins P s) := by
      intro level s; unfold trip; rw [hr]; rfl
    have body : ∀ level s, Entry P level s ∧ BinsOK s ∧ Fruitful s →
        Fruitful (after P level (writeBins P s)) := by
      rintro level s ⟨hE, hB, hS⟩
      exact (hE.pre hM).fruitful ha (hE.noForce hr) hB.writeBins hS
    have step : ∀ level s, Entry P level s ∧ BinsOK s ∧ Fruitful s → ∀ o,
        Entry P (level + 1) { trip P level s with oversize := o } ∧
          BinsOK { trip P level s with oversize := o } ∧
          Fruitful { trip P level s with oversize := o } := by
      intro level s hJ o
      refine ⟨hJ.1.trip hM o, ?_, ?_⟩
      · have : BinsOK (after P level (writeBins P s)) := hJ.2.1.writeBins
        rw [htrip]
        exact this
      · rw [htrip]
        exact body level s hJ
    obtain ⟨level, final, s, hl, hJ, hend⟩ := loop_ends (P := P)
      (fun level _ s => Entry P level s ∧ BinsOK s ∧ Fruitful s)
      (fun level s hJ _ _ _ => step level s hJ false)
      (fun level s hJ _ _ _ _ _ => step level s hJ (trip P level s).oversize)
      P.nlevelsMax 1 false (init P) (le_refl 1) hfuel (by omega)
      ⟨Entry.init P, fun _ _ _ _ => rfl, h0⟩
    rw [hb] at hend
    cases hend with
    | noNew h1 hu he =>
      have hpre := hJ.1.pre hM
      have hforce : ∀ l k, (writeBins P s).force l k = false := hJ.1.noForce hr
      intro l k hc
      have hno : ¬ (k < (writeBins P s).used l ∧ want P level (writeBins P s) l k = true) := by
        rintro ⟨hk, hW⟩
        have hlev := (want_pcnt (s := writeBins P s) ha hforce hJ.2.1.writeBins hW).1
        have h2 := hpre.newBase_le hk hW
        have h3 := nch_pos P
        rw [hlev, hu] at h2
        omega
      have hc' : (after P level (writeBins P s)).hasCh l k = true := hc
      rw [Pre.hasCh_old hno] at hc'
      exact hJ.2.2 l k hc'
    | final h1 ho hu => exact body _ _ hJ
    | done h1 hu ho hd => rw [htrip]; exact body _ _ hJ
  · obtain ⟨rfl, rfl⟩ := Prod.mk.inj (Except.ok.inj hb)
    exact h0

variable {skip : Bool} {len : Nat → Nat} {L : Nat} {C : Cloud}

/-- A box is marked as split exactly if it has children. -/
theorem FinOK.leaf_iff (h : FinOK P skip len L s)
    (hs : skip = true ∨ P.haveExtent = false ∨ Fruitful s) {b : Nat}
    (hb : b < (FinOK.fin P skip len L s).nboxes) :
    (FinOK.fin P skip len L s).hasCh b = true ↔
      ∃ m < P.nch, (FinOK.fin P skip len L s).child m b ≠ 0 := by
  have hF := h.flatOK
  constructor
  · intro hc
    obtain ⟨l, k, hk, rfl⟩ := h.exists_nid hb
    have hc' : s.hasCh l k = true := by rw [← h.fin_hasCh hk]; exact hc
    have found : ∀ m c, s.child m l k = some c → Kept skip s (l + 1) c →
        ∃ m < P.nch, (FinOK.fin P skip len L s).child m (nid skip len L s l k) ≠ 0 := by
      intro m c h1 h2
      refine ⟨m, (h.child_used h1).1, ?_⟩
      rw [h.fin_child_kept hk h1 h2]
      exact h.nid_ne_zero h2
    cases hskip : skip with
    | true =>
      obtain ⟨-, base, -, hbase, hall⟩ := h.inv.children l k hc'
      have := nch_pos P
      rw [← hskip]
      exact found 0 (base + 0) (hall 0 this).1 ⟨by omega, Or.inl hskip⟩
    | false =>
      rw [← hskip]
      rcases hs with hs | hs | hs
      · rw [hskip] at hs; cases hs
      · have htot := hF.total _ hb hc
        have hown : fown (FinOK.fin P skip len L s) (nid skip len L s l k) = 0 := by
          unfold fown
          rw [if_pos hc, fin_nonchild_zero hs]
        have hcnt : 0 < (FinOK.fin P skip len L s).count (nid skip len L s l k) := by
          subst hskip
          exact fin_count_pos h hb
        obtain ⟨m, hm, hp⟩ := sum_pos (f := childCount (FinOK.fin P skip len L s)
          (nid skip len L s l k)) (n := P.nch) (by omega)
        refine ⟨m, hm, fun h0 => ?_⟩
        unfold childCount at hp
        rw [if_pos h0] at hp
        omega
      · obtain ⟨m, c, h1, h2⟩ := hs l k hc'
        exact found m c h1 ⟨(h.child_used h1).2.2.1, Or.inr (by omega)⟩
  · rintro ⟨m, _, hm⟩
    exact (hF.child_parent m b hb hm).2.2

theorem FinOK.childFlags (h : FinOK P skip len L s)
    (hs : skip = true ∨ P.haveExtent = false ∨ Fruitful s) :
    (finish P C skip len L s).tree.ChildFlagsOK := by
  intro b hb
  rw [finish_sourceChild, finish_targetChild, or_self, h.leaf_iff hs hb]
  unfold BoxTree.IsLeaf
  push Not
  rfl

end
end Boxtree.Build
