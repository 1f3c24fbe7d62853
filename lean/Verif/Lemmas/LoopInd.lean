import Verif.Lemmas.TreeLoop

/-! Induction over the level loop. -/

namespace Boxtree.Build

section
variable {P : Params}

/-- State at the end of the loop body. -/
def trip (P : Params) (level : Nat) (s : State) : State :=
  if P.levelRestrict then restrict P level (after P level (writeBins P s))
  else after P level (writeBins P s)

/-- How the loop can end in a trip that begins in state `s`. -/
inductive LoopEnd (P : Params) (level : Nat) (s : State) : Bool → Except String (Nat × State) → Prop
  | maxLevels {final : Bool} (h : P.nlevelsMax ≤ level + 1) :
      LoopEnd P level s final (.error "MaxLevelsExceeded")
  | noNew (h : level + 1 < P.nlevelsMax) (hu : (after P level (writeBins P s)).used level = 0)
      (he : P.haveExtent = true) :
      LoopEnd P level s false (.ok (level - 1, markSplit P level (writeBins P s)))
  | noNewError (h : level + 1 < P.nlevelsMax) (hu : (after P level (writeBins P s)).used level = 0)
      (he : P.haveExtent = false) : LoopEnd P level s false (.error "AssertionError")
  | finalError (h : level + 1 < P.nlevelsMax)
      (hu : (after P level (writeBins P s)).oversize = true ∨
        (after P level (writeBins P s)).used level ≠ 0) :
      LoopEnd P level s true (.error "AssertionError")
  | final (h : level + 1 < P.nlevelsMax) (ho : (after P level (writeBins P s)).oversize = false)
      (hu : (after P level (writeBins P s)).used level = 0) :
      LoopEnd P level s true (.ok (level - 1, after P level (writeBins P s)))
  | done (h : level + 1 < P.nlevelsMax) (hu : (after P level (writeBins P s)).used level ≠ 0)
      (ho : (after P level (writeBins P s)).oversize = false)
      (hd : P.levelRestrict = true → didSplit level (trip P level s) = false) :
      LoopEnd P level s false (.ok (level, trip P level s))

theorem trip_oversize (level : Nat) (s : State) :
    (trip P level s).oversize = (after P level (writeBins P s)).oversize := by
  unfold trip; split <;> rfl

/-- If a property of the loop's state holds on entry and is preserved from trip to trip, it holds at
the beginning of the last trip. -/
theorem loop_ends (J : Nat → Bool → State → Prop)
    (next : ∀ level s, J level false s → level + 1 < P.nlevelsMax →
      (after P level (writeBins P s)).used level ≠ 0 →
      (after P level (writeBins P s)).oversize = true →
      J (level + 1) false { trip P level s with oversize := false })
    (last : ∀ level s, J level false s → level + 1 < P.nlevelsMax →
      (after P level (writeBins P s)).used level ≠ 0 →
      (after P level (writeBins P s)).oversize = false → P.levelRestrict = true →
      didSplit level (trip P level s) = true → J (level + 1) true (trip P level s)) :
    ∀ (fuel level : Nat) (final : Bool) (s : State), 1 ≤ level → level ≤ P.nlevelsMax →
      P.nlevelsMax + 1 ≤ fuel + level → J level final s →
      ∃ level' final' s', 1 ≤ level' ∧ J level' final' s' ∧
        LoopEnd P level' s' final' (loop P fuel level final s) := by
  intro fuel
  induction fuel with
  | zero => intro level _ _ _ h1 h2 _; omega
  | succ fuel ih =>
    intro level final s hl h1 h2 hJ
    by_cases hmax : P.nlevelsMax ≤ level + 1
    · refine ⟨level, final, s, hl, hJ, ?_⟩
      rw [loop, if_pos hmax]
      exact .maxLevels hmax
    have hmax' : level + 1 < P.nlevelsMax := by omega
    have hA : splitStep P level (markSplit P level (writeBins P s))
        = after P level (writeBins P s) := rfl
    rw [loop, if_neg hmax]
    simp only [hA]
    split
    · rename_i hn
      obtain ⟨hn, rfl⟩ := hn
      refine ⟨level, false, s, hl, hJ, ?_⟩
      split
      · rename_i he; exact .noNew hmax' hn he
      · rename_i he; exact .noNewError hmax' hn (by simpa using he)
    · rename_i hn
      split
      · rename_i hf
        subst hf
        refine ⟨level, true, s, hl, hJ, ?_⟩
        split
        · rename_i ho; exact .finalError hmax' ho
        · rename_i ho
          rw [not_or, not_not] at ho
          exact .final hmax' (by simpa using ho.1) ho.2
      · rename_i hf
        obtain rfl : final = false := by simpa using hf
        have hu : (after P level (writeBins P s)).used level ≠ 0 := fun hc => hn ⟨hc, rfl⟩
        have ht : (if P.levelRestrict = true then restrict P level (after P level (writeBins P s))
            else after P level (writeBins P s)) = trip P level s := rfl
        rw [ht, trip_oversize]
        split
        · rename_i ho
          split
          · rename_i hd
            exact ih (level + 1) true _ (by omega) (by omega) (by omega)
              (last level s hJ hmax' hu ho hd.1 hd.2)
          · rename_i hd
            refine ⟨level, false, s, hl, hJ, .done hmax' hu ho ?_⟩
            intro hr
            by_contra hc
            exact hd ⟨hr, by simpa using hc⟩
        · rename_i ho
          exact ih (level + 1) false _ (by omega) (by omega) (by omega)
            (next level s hJ hmax' hu (by simpa using ho))

/-- What holds at the beginning of every trip. -/
structure Entry (P : Params) (level : Nat) (s : State) : Prop where
  pos : 1 ≤ level
  inv : Inv P level s
  force : ForceOK level s
  noForce : P.levelRestrict = false → ∀ l k, s.force l k = false

theorem Entry.init (P : Params) : Entry P 1 (init P) :=
  ⟨le_refl _, init_inv P, (fun _ _ h => by cases h), fun _ _ _ => rfl⟩

theorem Entry.pre {level : Nat} {s : State} (h : Entry P level s) (hM : P.MortOK) :
    Pre P level (writeBins P s) :=
  { inv := (h.inv.writeBins hM).1, full := (h.inv.writeBins hM).2, force := h.force, mort := hM }

theorem Entry.trip {level : Nat} {s : State} (h : Entry P level s) (hM : P.MortOK) (o : Bool) :
    Entry P (level + 1) { trip P level s with oversize := o } := by
  have ha := (h.pre hM).after_inv
  unfold Build.trip
  split
  · rename_i hr
    exact ⟨by omega, ha.congr _ o, restrict_force level _, by simp [hr]⟩
  · rename_i hr
    have hf := h.noForce (by simpa using hr)
    refine ⟨by omega, ha.congr _ o, ?_, fun _ => hf⟩
    intro l k hk
    have : s.force l k = true := hk
    rw [hf] at this
    cases this

end
end Boxtree.Build
