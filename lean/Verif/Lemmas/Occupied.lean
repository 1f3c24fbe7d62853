import Verif.Lemmas.LoopInd
import Verif.Lemmas.Build

/-! Every level of a built tree has boxes, and particles unless they can all be held back. -/

namespace Boxtree.Build

/-- New levels cannot be empty. -/
def Params.Filling (P : Params) : Prop :=
  P.adaptive = true ∨ ∀ p l, P.mort p l ≠ none

/-- Bins without particles have no weight. -/
def BinsOK (s : State) : Prop := ∀ l k m, (s.bins l k).pcnt m = 0 → (s.bins l k).pwt m = 0

/-- There is a box on level `l`, with particles unless they can all be held back. -/
def Occ (P : Params) (s : State) (l : Nat) : Prop :=
  ∃ k < s.used l, P.Filling → 0 < s.count l k

section
variable {P : Params} {level : Nat} {s : State}

theorem scanItem_pwt (i m : Nat) (h : (scanItem P s i).pcnt m = 0) :
    (scanItem P s i).pwt m = 0 := by
  have hp : ∀ p l, (fromParticle P p l).pcnt m = 0 → (fromParticle P p l).pwt m = 0 := by
    intro p l h
    simp only [fromParticle] at h ⊢
    split at h
    · cases h
    · rename_i hm; rw [if_neg hm]
  induction i with
  | zero => exact hp _ _ h
  | succ i ih =>
    simp only [scanItem] at h ⊢
    split at h
    · rename_i hf; rw [if_pos hf]; exact hp _ _ h
    · rename_i hf
      rw [if_neg hf]
      simp only [Bins.add] at h ⊢
      rw [ih (by omega), hp _ _ (by omega)]
      simp [addSat]

theorem BinsOK.writeBins (h : BinsOK s) : BinsOK (writeBins P s) := by
  intro l k m
  unfold Build.writeBins
  simp only
  split
  · exact scanItem_pwt _ m
  · exact h l k m

theorem foldl_addSat_zero (f : Nat → Nat) (n : Nat) (h : ∀ m < n, f m = 0) :
    (List.range n).foldl (fun w m => addSat w (f m)) 0 = 0 := by
  induction n with
  | zero => rfl
  | succ n ih =>
    rw [List.range_succ, List.foldl_append, ih fun m hm => h m (by omega)]
    simp [addSat, h n (by omega)]

theorem BinsOK.pcnt_pos (h : BinsOK s) {l k n w : Nat} (hw : w < (s.bins l k).weight n) :
    ∃ m < n, 0 < (s.bins l k).pcnt m := by
  by_contra hc
  push Not at hc
  have := foldl_addSat_zero (s.bins l k).pwt n fun m hm => h l k m (by have := hc m hm; omega)
  unfold Bins.weight at hw
  omega

theorem sum_pos {f : Nat → Nat} {n : Nat} (h : 0 < ((List.range n).map f).sum) :
    ∃ m < n, 0 < f m := by
  by_contra hc
  push Not at hc
  have : ((List.range n).map f).sum = 0 := by
    rw [List.sum_eq_zero]
    intro x hx
    obtain ⟨m, hm, rfl⟩ := List.mem_map.1 hx
    have := hc m (List.mem_range.1 hm)
    omega
  omega

/-- A trip that makes boxes on the new level puts particles into one of them. -/
theorem Pre.occ_new (h : Pre P (level + 1) s) (hb : BinsOK s) (hocc : Occ P s level)
    (hu : (after P (level + 1) s).used (level + 1) ≠ 0) :
    Occ P (after P (level + 1) s) (level + 1) := by
  by_cases hfill : P.Filling
  swap
  · exact ⟨0, by omega, fun hc => absurd hc hfill⟩
  have key : ∃ k m, k < s.used level ∧ want P (level + 1) s level k = true ∧ m < P.nch ∧
      0 < (s.bins level k).pcnt m := by
    by_cases ha : P.adaptive = true
    · obtain ⟨k, _, hk, hW, _, _⟩ := h.new_box (l := level) (c := 0)
        (by rw [h.inv.used_deep _ (le_refl _)]) (by omega)
      have hW' := hW
      unfold want at hW
      simp only [ha, if_true, Bool.or_eq_true, Bool.and_eq_true, decide_eq_true_eq] at hW
      rcases hW with hW | hW
      · obtain ⟨m, hm, hp⟩ := hb.pcnt_pos hW.2
        exact ⟨k, m, hk, hW', hm, hp⟩
      · have := (h.force level k hW.2).2.1; omega
    · have hm : ∀ p l, P.mort p l ≠ none := hfill.resolve_left ha
      obtain ⟨k, hk, hc⟩ := hocc
      have hc := hc hfill
      have hl : s.hasCh level k = false := by
        by_contra hne
        have := (h.inv.hasCh_used level k (by simpa using hne)).2
        omega
      have hF := h.full level k hk hl
      have ht := hF.total h.mort
      have hn : (s.bins level k).nonchild = 0 := by
        rw [hF.nonchild, count_eq_zero]
        intro i _ hi
        exact hm _ _ (keyOf_zero.1 hi)
      have hsum : 0 < ((List.range P.nch).map (s.bins level k).pcnt).sum := by
        unfold Bins.total at ht; omega
      obtain ⟨m, hm, hp⟩ := sum_pos hsum
      refine ⟨k, m, hk, ?_, hm, hp⟩
      unfold want
      simp [ha, hn]
  obtain ⟨k, m, hk, hW, hm, hp⟩ := key
  refine ⟨newBase P (level + 1) s level k + m, ?_, fun _ => ?_⟩
  · have := h.newBase_le hk hW; omega
  · rw [h.count_new hk hW hm]; exact hp

theorem Pre.occ_old (h : Pre P level s) {l : Nat} (hocc : Occ P s l) :
    Occ P (after P level s) l := by
  obtain ⟨k, hk, hc⟩ := hocc
  refine ⟨k, lt_of_lt_of_le hk (h.used_le l), fun hf => ?_⟩
  rw [h.count_old (Or.inl hk)]
  exact hc hf

/-- At the end of the level loop the deepest level has boxes. -/
theorem buildLevels_occ (hM : P.MortOK) (hn : 0 < P.n) {L : Nat} {r : State}
    (hb : buildLevels P = .ok (L, r)) : Occ P r L := by
  unfold buildLevels at hb
  split at hb
  · have hfuel : 1 ≤ P.nlevelsMax ∨ P.nlevelsMax = 0 := by omega
    rcases hfuel with hfuel | hfuel
    swap
    · rw [hfuel] at hb; cases hb
    have step : ∀ level s, Entry P level s ∧ BinsOK s ∧ Occ P s (level - 1) →
        (after P level (writeBins P s)).used level ≠ 0 → ∀ o,
        Entry P (level + 1) { trip P level s with oversize := o } ∧
          BinsOK { trip P level s with oversize := o } ∧
          Occ P { trip P level s with oversize := o } (level + 1 - 1) := by
      rintro level s ⟨hE, hB, hO⟩ hu o
      refine ⟨hE.trip hM o, ?_, ?_⟩
      · have : BinsOK (after P level (writeBins P s)) := hB.writeBins
        unfold trip
        split <;> exact this
      · obtain ⟨l, rfl⟩ : ∃ l, level = l + 1 := ⟨level - 1, by have := hE.pos; omega⟩
        have := (hE.pre hM).occ_new hB.writeBins (level := l) hO hu
        unfold trip
        split <;> exact this
    obtain ⟨level, final, s, hl, hJ, hend⟩ := loop_ends (P := P)
      (fun level _ s => Entry P level s ∧ BinsOK s ∧ Occ P s (level - 1))
      (fun level s hJ _ hu _ => step level s hJ hu false)
      (fun level s hJ _ hu _ _ _ => step level s hJ hu (trip P level s).oversize)
      P.nlevelsMax 1 false (init P) (le_refl 1) hfuel (by omega)
      ⟨Entry.init P, fun _ _ _ _ => rfl, 0, by simp [init], fun _ => by simpa [init] using hn⟩
    rw [hb] at hend
    cases hend with
    | noNew h1 hu he => exact hJ.2.2
    | final h1 ho hu => exact (hJ.1.pre hM).occ_old hJ.2.2
    | done h1 hu ho hd => exact (step _ _ hJ hu (trip P L s).oversize).2.2
  · obtain ⟨rfl, rfl⟩ := Prod.mk.inj (Except.ok.inj hb)
    exact ⟨0, by simp [init], fun _ => by simpa [init] using hn⟩

/-- The level starts end with the number of boxes. -/
theorem FinOK.levelStart_last {skip : Bool} {len : Nat → Nat} {L : Nat} {s : State}
    (h : FinOK P skip len L s) (hocc : Occ P s L) (hs : skip = true ∨ P.Filling) :
    levelStart (levelCounts s.used (FinOK.fin P skip len L s)) (L + 1)
      = (FinOK.fin P skip len L s).nboxes := by
  have hF := h.flatOK
  obtain ⟨k, hk, hc⟩ := hocc
  have hkept : Kept skip s L k := ⟨hk, hs.imp_right fun hf => by have := hc hf; omega⟩
  have hb := h.nid_lt hkept
  have hl := h.fin_level hkept
  rw [hF.levelStart_eq s.used fun l' hl' => hF.exists_level hb (by rw [hl]; omega)]
  exact count_all fun i hi => hF.level_lt i hi

end
end Boxtree.Build
