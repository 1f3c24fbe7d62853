import Verif.Lemmas.LoopInd
import Verif.Lemmas.Weights
import Verif.Spec.TreeBuild

/-! The level loop does not depend on the order of the particles. -/

namespace Boxtree.Build

open Finset

/-- The parameters for the particles in another order: particle `p` is particle `f p` of before. -/
def Params.reorder (P : Params) (f : Nat → Nat) : Params :=
  { P with mort := fun p l => P.mort (f p) l, weight := fun p => P.weight (f p) }

/-- The states agree except for the particles in the boxes. -/
def SameBoxes (s s' : State) : Prop := s' = { s with ids := s'.ids, box := s'.box }

section
variable {P : Params} {f : Nat → Nat} {level : Nat} {s s' : State}

theorem pathOK_reorder (par : Nat → Nat → Nat) (p : Nat) : ∀ l k,
    PathOK (P.reorder f) par p l k ↔ PathOK P par (f p) l k := by
  intro l
  induction l with
  | zero => intro k; exact Iff.rfl
  | succ l ih => intro k; exact and_congr Iff.rfl (ih _)

theorem load_reorder (hf : IsPerm P.n f) (par : Nat → Nat → Nat) (l k : Nat) (g : Nat → Nat) :
    load (P.reorder f) par l k (fun p => g (f p)) = load P par l k g := by
  unfold load
  have hm : ∀ i ∈ range P.n, f i ∈ range P.n := by
    intro i hi; rw [mem_range] at *; exact hf.1 i hi
  have hinj : Set.InjOn f (range P.n : Set Nat) := by
    intro i hi j hj he
    simp only [coe_range, Set.mem_Iio] at hi hj
    exact hf.2.1 i hi j hj he
  refine sum_nbij f hm hinj (surjOn_of_injOn_of_card_le f hm hinj (le_refl _)) ?_
  intro p _
  simp only [pathOK_reorder]

theorem count_eq_sum (p : Nat → Prop) [DecidablePred p] (n : Nat) :
    Nat.count p n = ∑ j ∈ range n, if p j then 1 else 0 := by
  induction n with
  | zero => simp
  | succ n ih => rw [Nat.count_succ, Finset.sum_range_succ, ih]

theorem SameBoxes.own (h : SameBoxes s s') (l k : Nat) : own s' l k = own s l k := by
  rw [h]; rfl

theorem bins_ext {b c : Bins} (h1 : b.nonchild = c.nonchild) (h2 : ∀ m, b.pcnt m = c.pcnt m)
    (h3 : ∀ m, b.pwt m = c.pwt m) : b = c := by
  obtain ⟨_, _, _⟩ := b
  obtain ⟨_, _, _⟩ := c
  simp only at *
  subst h1
  rw [funext h2, funext h3]

/-- If all particles of a split box are its own, none of them goes to a child. -/
theorem Inv.stuck (h : Inv P level s) {l k : Nat} (hk : k < s.used l)
    (ho : Build.own s l k = s.count l k) (hc : s.hasCh l k = true) {j : Nat} (hj : j < s.count l k) :
    P.mort (s.ids (s.start l k + j)) l = none := by
  obtain ⟨h7, h8⟩ := h.own_mem (i := j) hk (by omega)
  have := h.stay _ h7 (by rw [h8]; exact hc)
  unfold mortonNr at this
  rw [h8] at this
  exact this

/-- The bins are the same. -/
theorem SameBoxes.writeBins (hM : P.MortOK) (hw : ∀ p < P.n, P.weight p ≤ intMax)
    (hf : IsPerm P.n f) (h : Inv P level s) (h' : Inv (P.reorder f) level s')
    (hs : SameBoxes s s') : SameBoxes (writeBins P s) (writeBins (P.reorder f) s') := by
  have hM' : (P.reorder f).MortOK := fun p l m hm => hM (f p) l m hm
  have hw' : ∀ p < (P.reorder f).n, (P.reorder f).weight p ≤ intMax :=
    fun p hp => hw _ (hf.1 p hp)
  have e1 : s'.used = s.used := by rw [hs]
  have e2 : s'.count = s.count := by rw [hs]
  have e3 : s'.hasCh = s.hasCh := by rw [hs]
  have e4 : s'.start = s.start := by rw [hs]
  have e5 : s'.parent = s.parent := by rw [hs]
  have e6 : s'.bins = s.bins := by rw [hs]
  have key : (Build.writeBins (P.reorder f) s').bins = (Build.writeBins P s).bins := by
    funext l k
    rcases h.writeBins_bins hM l k with ⟨a1, a2, a3, a4⟩ | ⟨a1, a4⟩
    · rcases h'.writeBins_bins hM' l k with ⟨b1, b2, b3, b4⟩ | ⟨b1, b4⟩
      · have c1 := h.scan a1 (s.count l k - 1) (by omega)
        have c2 := h'.scan b1 (s'.count l k - 1) (by omega)
        have w1 := fun m => h.scan_pwt hw a1 m (s.count l k - 1) (by omega)
        have w2 := fun m => h'.scan_pwt hw' b1 m (s'.count l k - 1) (by omega)
        rw [← a4] at c1 w1
        rw [← b4] at c2 w2
        rw [show s.count l k - 1 + 1 = s.count l k from by omega] at c1 w1
        rw [show s'.count l k - 1 + 1 = s'.count l k from by omega] at c2 w2
        cases hc : s.hasCh l k with
        | false =>
          have hc' : s'.hasCh l k = false := by rw [e3]; exact hc
          have leaf : ∀ g : Nat → Nat, ∑ j ∈ range (s'.count l k), g (f (s'.ids (s'.start l k + j)))
              = ∑ j ∈ range (s.count l k), g (s.ids (s.start l k + j)) := by
            intro g
            rw [h.sum_leaf a1 hc g, h'.sum_leaf b1 hc' (fun p => g (f p)), e5, load_reorder hf]
          apply bins_ext
          · rw [c1.nonchild, c2.nonchild, count_eq_sum, count_eq_sum]
            exact leaf fun p => if keyOf (P.mort p l) = 0 then 1 else 0
          · intro m
            rw [c1.pcnt, c2.pcnt, count_eq_sum, count_eq_sum]
            exact leaf fun p => if keyOf (P.mort p l) = m + 1 then 1 else 0
          · intro m
            rw [w1, w2]
            exact congrArg (min · intMax) (leaf fun p => wChild P l m p)
        | true =>
          have hc' : s'.hasCh l k = true := by rw [e3]; exact hc
          have z1 := fun j hj => h.stuck a1 a3 hc (j := j) hj
          have z2 := fun j hj => h'.stuck b1 b3 hc' (j := j) hj
          have k1 : ∀ j < s.count l k, boxKey P s l k j = 0 := fun j hj => by
            unfold boxKey; rw [z1 j hj]; rfl
          have k2 : ∀ j < s'.count l k, boxKey (P.reorder f) s' l k j = 0 := fun j hj => by
            unfold boxKey; rw [z2 j hj]; rfl
          apply bins_ext
          · rw [c1.nonchild, c2.nonchild,
              count_congr (q := fun _ => True) fun j hj => iff_of_true (k2 j hj) trivial, e2]
            exact (count_congr fun j hj => iff_of_true (k1 j hj) trivial).symm
          · intro m
            rw [c1.pcnt, c2.pcnt, count_congr (q := fun _ => False) fun j hj =>
              iff_of_false (by rw [k2 j hj]; omega) id, e2]
            exact (count_congr fun j hj => iff_of_false (by rw [k1 j hj]; omega) id).symm
          · intro m
            rw [w1, w2]
            congr 1
            have y1 : ∀ j ∈ range (s.count l k), wChild P l m (s.ids (s.start l k + j)) = 0 := by
              intro j hj; unfold wChild; rw [z1 j (mem_range.1 hj)]; simp
            have y2 : ∀ j ∈ range (s'.count l k),
                wChild (P.reorder f) l m (s'.ids (s'.start l k + j)) = 0 := by
              intro j hj; unfold wChild; rw [z2 j (mem_range.1 hj)]; simp
            rw [sum_eq_zero y1, sum_eq_zero y2]
      · exact absurd ⟨by rw [e1]; exact a1, by rw [e2]; exact a2, by rw [hs.own, e2]; exact a3⟩ b1
    · rcases h'.writeBins_bins hM' l k with ⟨b1, b2, b3, b4⟩ | ⟨b1, b4⟩
      · exact absurd ⟨by rw [← e1]; exact b1, by rw [← e2]; exact b2, by rw [← hs.own, ← e2]; exact b3⟩ a1
      · rw [a4, b4, e6]
  unfold SameBoxes
  rw [show Build.writeBins (P.reorder f) s' = { s' with bins := (Build.writeBins (P.reorder f) s').bins } from rfl, key]
  rw [hs]
  rfl

theorem upward_reorder (t : BoxTree) (i : Nat → Nat) (b : Nat → Nat × Nat) : ∀ u force,
    upward (P.reorder f) t { s with ids := i, box := b } u force = upward P t s u force := by
  intro u
  induction u with
  | zero => intro _; rfl
  | succ u ih =>
    intro force
    unfold upward
    simp only [ih]
    rfl

/-- One trip. -/
theorem SameBoxes.after (hM : P.MortOK) (hw : ∀ p < P.n, P.weight p ≤ intMax)
    (hf : IsPerm P.n f) (h : Inv P level s) (h' : Inv (P.reorder f) level s')
    (hs : SameBoxes s s') :
    SameBoxes (markSplit P level (Build.writeBins P s))
      (markSplit (P.reorder f) level (Build.writeBins (P.reorder f) s')) ∧
    SameBoxes (Build.after P level (Build.writeBins P s))
      (Build.after (P.reorder f) level (Build.writeBins (P.reorder f) s')) ∧
    SameBoxes (trip P level s) (trip (P.reorder f) level s') := by
  have hb := hs.writeBins hM hw hf h h'
  have e1 : SameBoxes (markSplit P level (Build.writeBins P s))
      (markSplit (P.reorder f) level (Build.writeBins (P.reorder f) s')) := by
    rw [hb]; rfl
  have e2 : SameBoxes (Build.after P level (Build.writeBins P s))
      (Build.after (P.reorder f) level (Build.writeBins (P.reorder f) s')) := by
    rw [hb]; rfl
  refine ⟨e1, e2, ?_⟩
  unfold trip
  change SameBoxes (if P.levelRestrict = true then _ else _) (if P.levelRestrict = true then _ else _)
  split
  · rw [e2]
    unfold restrict SameBoxes
    rw [upward_reorder]
    rfl
  · exact e2

/-- Two results of the level loop. -/
def SameResult : Except String (Nat × State) → Except String (Nat × State) → Prop
  | .ok (L, s), .ok (L', s') => L' = L ∧ SameBoxes s s'
  | .error e, .error e' => e' = e
  | _, _ => False

theorem SameBoxes.loop (hM : P.MortOK) (hw : ∀ p < P.n, P.weight p ≤ intMax)
    (hf : IsPerm P.n f) : ∀ (fuel level : Nat) (final : Bool) (s s' : State),
    Entry P level s → Entry (P.reorder f) level s' → SameBoxes s s' →
    SameResult (Build.loop P fuel level final s) (Build.loop (P.reorder f) fuel level final s') := by
  have hM' : (P.reorder f).MortOK := fun p l m hm => hM (f p) l m hm
  intro fuel
  induction fuel with
  | zero => intro _ _ _ _ _ _ _; rfl
  | succ fuel ih =>
    intro level final s s' h h' hs
    obtain ⟨e1, e2, e3⟩ := hs.after hM hw hf h.inv h'.inv
    have t1 : ∀ o, Entry P (level + 1) { trip P level s with oversize := o } := h.trip hM
    have t2 : ∀ o, Entry (P.reorder f) (level + 1) { trip (P.reorder f) level s' with oversize := o } :=
      h'.trip hM'
    have t3 : Entry P (level + 1) (trip P level s) := t1 (trip P level s).oversize
    have t4 : Entry (P.reorder f) (level + 1) (trip (P.reorder f) level s') :=
      t2 (trip (P.reorder f) level s').oversize
    have u1 : (Build.after (P.reorder f) level (Build.writeBins (P.reorder f) s')).used
        = (Build.after P level (Build.writeBins P s)).used := by rw [e2]
    have u2 : (Build.after (P.reorder f) level (Build.writeBins (P.reorder f) s')).oversize
        = (Build.after P level (Build.writeBins P s)).oversize := by rw [e2]
    have u3 : (trip (P.reorder f) level s').oversize = (trip P level s).oversize := by rw [e3]
    have u4 : didSplit level (trip (P.reorder f) level s') = didSplit level (trip P level s) := by
      rw [e3]; rfl
    have x1 : ∀ (P : Params) (s : State), Build.loop P (fuel + 1) level final s =
        if P.nlevelsMax ≤ level + 1 then .error "MaxLevelsExceeded"
        else if (Build.after P level (Build.writeBins P s)).used level = 0 ∧ final = false then
          if P.haveExtent then .ok (level - 1, markSplit P level (Build.writeBins P s))
          else .error "AssertionError"
        else if final then
          if (Build.after P level (Build.writeBins P s)).oversize ∨
            (Build.after P level (Build.writeBins P s)).used level ≠ 0 then .error "AssertionError"
          else .ok (level - 1, Build.after P level (Build.writeBins P s))
        else if (trip P level s).oversize = false then
          if P.levelRestrict ∧ didSplit level (trip P level s) = true then
            Build.loop P fuel (level + 1) true (trip P level s)
          else .ok (level, trip P level s)
        else Build.loop P fuel (level + 1) false { trip P level s with oversize := false } :=
      fun _ _ => rfl
    rw [x1, x1, u1, u2, u3, u4]
    change SameResult (if P.nlevelsMax ≤ level + 1 then _ else _)
      (if P.nlevelsMax ≤ level + 1 then _ else _)
    split
    · rfl
    split
    · change SameResult (if P.haveExtent = true then _ else _) (if P.haveExtent = true then _ else _)
      split
      · exact ⟨rfl, e1⟩
      · rfl
    split
    · split
      · rfl
      · exact ⟨rfl, e2⟩
    split
    · by_cases hd : P.levelRestrict = true ∧ didSplit level (trip P level s) = true
      · rw [if_pos hd, if_pos (c := (P.reorder f).levelRestrict = true ∧ _) hd]
        exact ih _ _ _ _ t3 t4 e3
      · rw [if_neg hd, if_neg (c := (P.reorder f).levelRestrict = true ∧ _) hd]
        exact ⟨rfl, e3⟩
    · refine ih _ _ _ _ (t1 _) (t2 _) ?_
      unfold SameBoxes
      rw [e3]

theorem totalWeight_reorder (hf : IsPerm P.n f) : totalWeight (P.reorder f) = totalWeight P := by
  have h := load_reorder hf (fun _ _ => 0) 0 0 P.weight
  unfold load at h
  simp only [PathOK] at h
  have key : ∀ g : Nat → Nat, ((List.range P.n).map g).sum = ∑ p ∈ range P.n, g p := by
    intro g
    induction P.n with
    | zero => rfl
    | succ n ih => rw [Build.sum_range_succ, Finset.sum_range_succ, ih]
  unfold totalWeight
  rw [key]
  exact (key _).trans h

/-- The level loop does the same for the particles in another order. -/
theorem buildLevels_reorder (hM : P.MortOK) (hw : ∀ p < P.n, P.weight p ≤ intMax)
    (hf : IsPerm P.n f) : SameResult (buildLevels P) (buildLevels (P.reorder f)) := by
  unfold buildLevels
  rw [totalWeight_reorder hf]
  change SameResult (if P.maxWeight < totalWeight P then _ else _)
    (if P.maxWeight < totalWeight P then _ else _)
  split
  · exact SameBoxes.loop hM hw hf _ _ _ _ _ (Entry.init P) (Entry.init _) rfl
  · exact ⟨rfl, rfl⟩

end
end Boxtree.Build
