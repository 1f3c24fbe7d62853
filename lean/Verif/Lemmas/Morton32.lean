import Verif.Model.Morton32

/-!
# The level loop reads the Morton numbers of the levels that exist only
-/

namespace Boxtree.Build

/-- The parameters with other Morton numbers and another limit of the number of levels. -/
def Params.withMort (P : Params) (m : Nat → Nat → Option Nat) (M : Nat) : Params :=
  { P with mort := m, nlevelsMax := M }

section
variable {P : Params} {m : Nat → Nat → Option Nat} {D M : Nat}

theorem fromParticle_cong {p l : Nat} (h : m p l = P.mort p l) :
    fromParticle (P.withMort m M) p l = fromParticle P p l := by
  unfold fromParticle
  show (⟨if m p l = none then 1 else 0, fun k => if m p l = some k then 1 else 0,
    fun k => if m p l = some k then P.weight p else 0⟩ : Bins) = _
  rw [h]

theorem scanItem_cong {s : State} (h : ∀ i, m (s.ids i) (s.box i).1 = P.mort (s.ids i) (s.box i).1)
    (i : Nat) : scanItem (P.withMort m M) s i = scanItem P s i := by
  induction i with
  | zero => exact fromParticle_cong (h 0)
  | succ i ih => simp only [scanItem, fromParticle_cong (h (i + 1)), ih]

theorem writeBins_cong {s : State}
    (h : ∀ i, m (s.ids i) (s.box i).1 = P.mort (s.ids i) (s.box i).1) :
    writeBins (P.withMort m M) s = writeBins P s := by
  unfold writeBins
  simp only [scanItem_cong h]
  rfl

theorem markSplit_cong (level : Nat) (s : State) :
    markSplit (P.withMort m M) level s = markSplit P level s := rfl

theorem newUsed_cong (level : Nat) (s : State) :
    newUsed (P.withMort m M) level s = newUsed P level s := rfl

theorem target_cong {s : State} (level : Nat)
    (h : ∀ i, m (s.ids i) (s.box i).1 = P.mort (s.ids i) (s.box i).1) (i : Nat) :
    target (P.withMort m M) level s i = target P level s i := by
  unfold target
  rw [show mortonNr (P.withMort m M) s i = mortonNr P s i from h i, scanItem_cong h]
  rfl

theorem newBox_cong {s : State} (level : Nat)
    (h : ∀ i, m (s.ids i) (s.box i).1 = P.mort (s.ids i) (s.box i).1) (i : Nat) :
    newBox (P.withMort m M) level s i = newBox P level s i := by
  unfold newBox
  rw [show mortonNr (P.withMort m M) s i = mortonNr P s i from h i]
  rfl

theorem splitStep_cong {s : State} (level : Nat)
    (h : ∀ i, m (s.ids i) (s.box i).1 = P.mort (s.ids i) (s.box i).1) :
    splitStep (P.withMort m M) level s = splitStep P level s := by
  have hr : renumber (P.withMort m M) level s = renumber P level s := by
    unfold renumber mover
    simp only [target_cong level h, newBox_cong level h]
    rfl
  unfold splitStep
  rw [hr]
  rfl

theorem restrict_cong (level : Nat) (s : State) :
    restrict (P.withMort m M) level s = restrict P level s := by
  unfold restrict
  congr 1
  generalize (fun _ _ => false : Nat → Nat → Bool) = f
  show upward (P.withMort m M) (toTree P (level + 1) s) s (level - 2) f = _
  induction level - 2 generalizing f with
  | zero => rfl
  | succ u ih =>
    simp only [upward, ih]
    rfl

/-- Boxes of the particles are on levels up to `d`. -/
def Shallow (d : Nat) (s : State) : Prop := ∀ i, (s.box i).1 ≤ d

theorem Shallow.splitStep {d level : Nat} {s : State} (h : Shallow d s) :
    Shallow (d + 1) (splitStep P level s) := by
  intro j
  show ((renumber P level s).box j).1 ≤ d + 1
  unfold renumber
  show (match mover P level s j with
      | some i => newBox P level s i
      | none => (0, 0)).1 ≤ d + 1
  cases mover P level s j with
  | none => exact Nat.zero_le _
  | some i =>
    show (newBox P level s i).1 ≤ d + 1
    have := h i
    unfold newBox
    dsimp only
    split
    · split
      · exact Nat.le_succ_of_le this
      · exact Nat.succ_le_succ this
    · exact Nat.le_succ_of_le this

/-- If the loop ends above level `D`, Morton numbers that agree up to level `D` and a higher limit
give the same.  In the plain mode the level below `D` is included. -/
theorem loop_cong (hm : ∀ p l, l ≤ D → m p l = P.mort p l) (hM : P.nlevelsMax ≤ M) :
    ∀ fuel fuel' level final s L s', fuel ≤ fuel' → Shallow (level - 1) s → 1 ≤ level →
      (L ≤ D ∨ (L ≤ D + 1 ∧ P.haveExtent = false ∧ P.levelRestrict = false ∧ final = false)) →
      loop P fuel level final s = .ok (L, s') →
      loop (P.withMort m M) fuel' level final s = .ok (L, s') := by
  intro fuel
  induction fuel with
  | zero => intro fuel' level final s L s' _ _ _ _ h; cases h
  | succ fuel ih =>
    intro fuel' level final s L s' hfu hs hl hL h
    obtain ⟨fuel', rfl⟩ : ∃ k, fuel' = k + 1 := ⟨fuel' - 1, by omega⟩
    by_cases hlev : level - 1 ≤ D
    · have hag : ∀ i, m (s.ids i) (s.box i).1 = P.mort (s.ids i) (s.box i).1 :=
        fun i => hm _ _ (le_trans (hs i) hlev)
      have hw := writeBins_cong (P := P) (m := m) (M := M) hag
      have hsp := splitStep_cong (P := P) (m := m) (M := M)
        (s := markSplit P level (writeBins P s)) level hag
      have hsh : Shallow level (splitStep P level (markSplit P level (writeBins P s))) := by
        have : Shallow (level - 1) (markSplit P level (writeBins P s)) := hs
        have := this.splitStep (P := P) (level := level)
        rwa [Nat.sub_add_cancel hl] at this
      unfold loop at h ⊢
      dsimp only at h ⊢
      rw [hw, markSplit_cong, newUsed_cong, hsp, restrict_cong]
      change (if M ≤ level + 1 then _ else _) = _
      split at h
      · cases h
      · rename_i h1
        rw [if_neg (by omega)]
        split at h
        · rename_i h2
          rw [if_pos h2]
          exact h
        · rename_i h2
          rw [if_neg h2]
          split at h
          · rename_i h3
            rw [if_pos h3]
            exact h
          · rename_i h3
            rw [if_neg h3]
            simp only [show (P.withMort m M).levelRestrict = P.levelRestrict from rfl]
            have hsh' : Shallow level (if P.levelRestrict = true then
                restrict P level (splitStep P level (markSplit P level (writeBins P s)))
              else splitStep P level (markSplit P level (writeBins P s))) := by
              split
              · exact hsh
              · exact hsh
            generalize (if P.levelRestrict = true then
                restrict P level (splitStep P level (markSplit P level (writeBins P s)))
              else splitStep P level (markSplit P level (writeBins P s))) = s1 at h hsh' ⊢
            split at h
            · rename_i h4
              rw [if_pos h4]
              split at h
              · rename_i h5
                rw [if_pos h5]
                refine ih _ _ _ _ _ _ (by omega) (by simpa using hsh') (by omega) ?_ h
                rcases hL with hL | ⟨_, _, h6, _⟩
                · exact .inl hL
                · rw [h6] at h5; cases h5.1
              · rename_i h5
                rw [if_neg h5]
                exact h
            · rename_i h4
              rw [if_neg h4]
              refine ih _ _ _ _ _ _ (by omega) (by simpa [Shallow] using hsh') (by omega) ?_ h
              rcases hL with hL | ⟨h6, h7, h8, _⟩
              · exact .inl hL
              · exact .inr ⟨h6, h7, h8, rfl⟩
    · exfalso
      have key : ∀ fuel level final s, 1 ≤ level → D < level - 1 →
          (L ≤ D ∨ (L ≤ D + 1 ∧ P.haveExtent = false ∧ P.levelRestrict = false ∧ final = false)) →
          loop P fuel level final s ≠ .ok (L, s') := by
        clear h ih hs hl hlev hL
        intro fuel
        induction fuel with
        | zero => intro _ _ _ _ _ _ h; cases h
        | succ fuel ih =>
          intro level final s hl hd hL h
          unfold loop at h
          dsimp only at h
          split at h
          · cases h
          · split at h
            · split at h
              · rename_i he
                have := congrArg Prod.fst (Except.ok.inj h)
                dsimp only at this
                rcases hL with hL | ⟨_, h7, _, _⟩
                · omega
                · rw [h7] at he; cases he
              · cases h
            · split at h
              · rename_i hfin
                split at h
                · cases h
                · have := congrArg Prod.fst (Except.ok.inj h)
                  dsimp only at this
                  rcases hL with hL | ⟨_, _, _, h7⟩
                  · omega
                  · rw [h7] at hfin; cases hfin
              · generalize (if P.levelRestrict = true then
                    restrict P level (splitStep P level (markSplit P level (writeBins P s)))
                  else splitStep P level (markSplit P level (writeBins P s))) = s1 at h
                split at h
                · split at h
                  · rename_i h5
                    refine ih _ _ _ (by omega) (by omega) ?_ h
                    rcases hL with hL | ⟨_, _, h6, _⟩
                    · exact .inl hL
                    · rw [h6] at h5; cases h5.1
                  · have := congrArg Prod.fst (Except.ok.inj h)
                    dsimp only at this
                    rcases hL with hL | ⟨h6, _, _, _⟩ <;> omega
                · refine ih _ _ _ (by omega) (by omega) ?_ h
                  rcases hL with hL | ⟨h6, h7, h8, _⟩
                  · exact .inl hL
                  · exact .inr ⟨h6, h7, h8, rfl⟩
      exact key _ _ _ _ hl (by omega) hL h

/-- The same for the whole level loop. -/
theorem buildLevels_cong (hm : ∀ p l, l ≤ D → m p l = P.mort p l) (hM : P.nlevelsMax ≤ M) {L : Nat}
    {s : State} (hL : L ≤ D ∨ (L ≤ D + 1 ∧ P.haveExtent = false ∧ P.levelRestrict = false))
    (h : buildLevels P = .ok (L, s)) : buildLevels (P.withMort m M) = .ok (L, s) := by
  unfold buildLevels at h ⊢
  change (if P.maxWeight < totalWeight P then loop (P.withMort m M) M 1 false (init P)
    else .ok (0, init P)) = _
  split at h
  · rename_i hw
    rw [if_pos hw]
    refine loop_cong hm hM _ _ _ _ _ _ _ hM (fun _ => le_refl _) (le_refl _) ?_ h
    rcases hL with hL | ⟨h6, h7, h8⟩
    · exact .inl hL
    · exact .inr ⟨h6, h7, h8, rfl⟩
  · rename_i hw
    rw [if_neg hw]
    exact h

end
end Boxtree.Build
