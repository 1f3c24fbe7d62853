import Verif.Lemmas.Kinds
import Verif.Spec.LocalTree
import Verif.Spec.Fmm
import Mathlib.Data.Finset.Card
import Mathlib.Data.Finset.Image
import Mathlib.Order.Interval.Finset.Nat

/-! The arrays that the tree builder returns. -/

namespace Boxtree.Build

/-- Whether the particle at position `i` is a source (`src = true`) or target. -/
def Cloud.kind (C : Cloud) (ids : Nat → Nat) (src : Bool) (i : Nat) : Prop :=
  C.sourcesAreTargets = true ∨ IsKind C.nsources ids src i

instance (C : Cloud) (ids : Nat → Nat) (src : Bool) : DecidablePred (C.kind ids src) :=
  fun _ => inferInstanceAs (Decidable (_ ∨ _))

theorem Cloud.kind_both {C : Cloud} (h : C.sourcesAreTargets = true) (ids : Nat → Nat) (src : Bool)
    (n : Nat) : Nat.count (C.kind ids src) n = n := by
  rw [count_congr (q := fun _ => True) fun i _ => ⟨fun _ => trivial, fun _ => .inl h⟩, count_true]

theorem Cloud.kind_sep {C : Cloud} (h : C.sourcesAreTargets = false) (ids : Nat → Nat) (src : Bool)
    (n : Nat) : Nat.count (C.kind ids src) n = Nat.count (IsKind C.nsources ids src) n :=
  count_congr fun i _ => by unfold Cloud.kind; rw [h]; simp

section
variable {P : Params} {C : Cloud} {skip : Bool} {len : Nat → Nat} {L : Nat} {s : State}

theorem fin_nonchild_zero (he : P.haveExtent = false) (b : Nat) :
    (FinOK.fin P skip len L s).nonchild b = 0 := by
  show (if P.haveExtent then _ else 0) = 0
  rw [he]; rfl

theorem srcKind (h : FinOK P skip len L s) :
    KindOK (FinOK.fin P skip len L s) (C.kind s.ids true)
      (finish P C skip len L s).particles.srcStart
      (finish P C skip len L s).particles.srcCount
      (finish P C skip len L s).particles.srcCumul := by
  have hF := h.flatOK
  cases hb : C.sourcesAreTargets with
  | true =>
    have est : (finish P C skip len L s).particles.srcStart = (FinOK.fin P skip len L s).start := by
      show (if C.sourcesAreTargets then _ else _) = _
      rw [hb]; rfl
    have ecu : (finish P C skip len L s).particles.srcCumul = (FinOK.fin P skip len L s).count := by
      show (if C.sourcesAreTargets then _ else _) = _
      rw [hb]; rfl
    have enon : ∀ b, (finish P C skip len L s).particles.srcCount b
        = fown (FinOK.fin P skip len L s) b := by
      intro b
      show (boxInfo C.sourcesAreTargets ((FinOK.fin P skip len L s).hasCh b) _ _ _
        ((if P.haveExtent then (if C.sourcesAreTargets then _ else _) else fun _ => 0) b) _).2.1 = _
      rw [hb]
      unfold boxInfo fown
      cases hc : (FinOK.fin P skip len L s).hasCh b with
      | true =>
        cases he : P.haveExtent with
        | true => rfl
        | false => exact (fin_nonchild_zero he b).symm
      | false => rfl
    rw [est, ecu]
    constructor
    · intro b _ _; rw [C.kind_both hb]
    · intro b _ _; rw [C.kind_both hb, C.kind_both hb, enon]; omega
    · intro b _ _; rw [C.kind_both hb, C.kind_both hb]; omega
    · intro b hbn h0
      have := hF.own_le hbn
      rw [enon]; omega
  | false =>
    have est : (finish P C skip len L s).particles.srcStart
        = boxStarts (FinOK.fin P skip len L s) P.n C.nsources s.ids true := by
      show (if C.sourcesAreTargets then _ else _) = _
      rw [hb]; rfl
    have ecu : (finish P C skip len L s).particles.srcCumul
        = boxCounts (FinOK.fin P skip len L s) P.n C.nsources s.ids true := by
      show (if C.sourcesAreTargets then _ else _) = _
      rw [hb]; rfl
    have enon : ∀ b, (finish P C skip len L s).particles.srcCount b =
        if (FinOK.fin P skip len L s).hasCh b then
          (if P.haveExtent then boxNonchild (FinOK.fin P skip len L s) P.n C.nsources s.ids true b
            else 0)
        else boxCounts (FinOK.fin P skip len L s) P.n C.nsources s.ids true b := by
      intro b
      show (boxInfo C.sourcesAreTargets ((FinOK.fin P skip len L s).hasCh b) _
        ((if C.sourcesAreTargets then (_ : Nat → Nat) else _) b) _
        ((if P.haveExtent then (if C.sourcesAreTargets then _ else _) else fun _ => 0) b) _).2.1 = _
      rw [hb]
      unfold boxInfo
      cases hc : (FinOK.fin P skip len L s).hasCh b <;> cases he : P.haveExtent <;> rfl
    rw [est, ecu]
    constructor
    · intro b hbn hc; rw [C.kind_sep hb, hF.boxStarts_eq hbn hc]
    · intro b hbn hc
      rw [C.kind_sep hb, C.kind_sep hb, enon]
      cases hh : (FinOK.fin P skip len L s).hasCh b with
      | true =>
        rw [if_pos rfl]
        cases he : P.haveExtent with
        | true => rw [if_pos rfl, hF.boxNonchild_eq hbn hh]
        | false =>
          have : fown (FinOK.fin P skip len L s) b = 0 := by
            unfold fown; rw [if_pos hh, fin_nonchild_zero he]
          rw [this, if_neg (by simp), Nat.add_zero, Nat.sub_self]
      | false =>
        rw [if_neg (by simp), hF.boxCounts_eq hbn hc]
        unfold fown
        rw [hh]; rfl
    · intro b hbn hc; rw [C.kind_sep hb, C.kind_sep hb, hF.boxCounts_eq hbn hc]
    · intro b hbn h0
      have hown := hF.own_le hbn
      refine ⟨?_, hF.boxCounts_empty h0⟩
      rw [enon]
      cases hh : (FinOK.fin P skip len L s).hasCh b with
      | true =>
        rw [if_pos rfl]
        cases he : P.haveExtent with
        | true =>
          rw [if_pos rfl, hF.boxNonchild_eq hbn hh,
            show fown (FinOK.fin P skip len L s) b = 0 by omega, Nat.add_zero, Nat.sub_self]
        | false => rfl
      | false => rw [if_neg (by simp)]; exact hF.boxCounts_empty h0

theorem tgtKind (h : FinOK P skip len L s) :
    KindOK (FinOK.fin P skip len L s) (C.kind s.ids false)
      (finish P C skip len L s).particles.tgtStart
      (finish P C skip len L s).particles.tgtCount
      (finish P C skip len L s).particles.tgtCumul := by
  have hF := h.flatOK
  cases hb : C.sourcesAreTargets with
  | true =>
    have est : (finish P C skip len L s).particles.tgtStart = (FinOK.fin P skip len L s).start := by
      show (if C.sourcesAreTargets then _ else _) = _
      rw [hb]; rfl
    have ecu : (finish P C skip len L s).particles.tgtCumul = (FinOK.fin P skip len L s).count := by
      show (if C.sourcesAreTargets then _ else _) = _
      rw [hb]; rfl
    have enon : ∀ b, (finish P C skip len L s).particles.tgtCount b
        = fown (FinOK.fin P skip len L s) b := by
      intro b
      show (boxInfo C.sourcesAreTargets ((FinOK.fin P skip len L s).hasCh b) _ _ _ _
        ((if P.haveExtent then (if C.sourcesAreTargets then _ else _) else fun _ => 0) b)).2.2 = _
      rw [hb]
      unfold boxInfo fown
      cases hc : (FinOK.fin P skip len L s).hasCh b with
      | true =>
        cases he : P.haveExtent with
        | true => rfl
        | false => exact (fin_nonchild_zero he b).symm
      | false => rfl
    rw [est, ecu]
    constructor
    · intro b _ _; rw [C.kind_both hb]
    · intro b _ _; rw [C.kind_both hb, C.kind_both hb, enon]; omega
    · intro b _ _; rw [C.kind_both hb, C.kind_both hb]; omega
    · intro b hbn h0
      have := hF.own_le hbn
      rw [enon]; omega
  | false =>
    have est : (finish P C skip len L s).particles.tgtStart
        = boxStarts (FinOK.fin P skip len L s) P.n C.nsources s.ids false := by
      show (if C.sourcesAreTargets then _ else _) = _
      rw [hb]; rfl
    have ecu : (finish P C skip len L s).particles.tgtCumul
        = boxCounts (FinOK.fin P skip len L s) P.n C.nsources s.ids false := by
      show (if C.sourcesAreTargets then _ else _) = _
      rw [hb]; rfl
    have enon : ∀ b, (finish P C skip len L s).particles.tgtCount b =
        if (FinOK.fin P skip len L s).hasCh b then
          (if P.haveExtent then boxNonchild (FinOK.fin P skip len L s) P.n C.nsources s.ids false b
            else 0)
        else (FinOK.fin P skip len L s).count b
          - boxCounts (FinOK.fin P skip len L s) P.n C.nsources s.ids true b := by
      intro b
      show (boxInfo C.sourcesAreTargets ((FinOK.fin P skip len L s).hasCh b) _
        ((if C.sourcesAreTargets then (_ : Nat → Nat) else _) b) _ _
        ((if P.haveExtent then (if C.sourcesAreTargets then _ else _) else fun _ => 0) b)).2.2 = _
      rw [hb]
      unfold boxInfo
      cases hc : (FinOK.fin P skip len L s).hasCh b <;> cases he : P.haveExtent <;> rfl
    rw [est, ecu]
    constructor
    · intro b hbn hc; rw [C.kind_sep hb, hF.boxStarts_eq hbn hc]
    · intro b hbn hc
      rw [C.kind_sep hb, C.kind_sep hb, enon]
      cases hh : (FinOK.fin P skip len L s).hasCh b with
      | true =>
        rw [if_pos rfl]
        cases he : P.haveExtent with
        | true => rw [if_pos rfl, hF.boxNonchild_eq hbn hh]
        | false =>
          have : fown (FinOK.fin P skip len L s) b = 0 := by
            unfold fown; rw [if_pos hh, fin_nonchild_zero he]
          rw [this, if_neg (by simp), Nat.add_zero, Nat.sub_self]
      | false =>
        rw [if_neg (by simp), hF.boxCounts_eq hbn hc]
        unfold fown
        rw [hh, if_neg (by simp)]
        have h1 := source_add_target C.nsources s.ids
          ((FinOK.fin P skip len L s).start b + (FinOK.fin P skip len L s).count b)
        have h2 := source_add_target C.nsources s.ids ((FinOK.fin P skip len L s).start b)
        have h3 := count_mono (kind := IsKind C.nsources s.ids true)
          (show (FinOK.fin P skip len L s).start b
            ≤ (FinOK.fin P skip len L s).start b + (FinOK.fin P skip len L s).count b by omega)
        have h4 := count_mono (kind := IsKind C.nsources s.ids false)
          (show (FinOK.fin P skip len L s).start b
            ≤ (FinOK.fin P skip len L s).start b + (FinOK.fin P skip len L s).count b by omega)
        omega
    · intro b hbn hc; rw [C.kind_sep hb, C.kind_sep hb, hF.boxCounts_eq hbn hc]
    · intro b hbn h0
      have hown := hF.own_le hbn
      refine ⟨?_, hF.boxCounts_empty h0⟩
      rw [enon]
      cases hh : (FinOK.fin P skip len L s).hasCh b with
      | true =>
        rw [if_pos rfl]
        cases he : P.haveExtent with
        | true =>
          rw [if_pos rfl, hF.boxNonchild_eq hbn hh,
            show fown (FinOK.fin P skip len L s) b = 0 by omega, Nat.add_zero, Nat.sub_self]
        | false => rfl
      | false => rw [if_neg (by simp), h0, Nat.zero_sub]

/-! ### Permutations -/

/-- A permutation has as many positions with small values as there are small values. -/
theorem count_perm {n ns : Nat} {ids : Nat → Nat} (hlt : ∀ i < n, ids i < n)
    (hinj : ∀ i < n, ∀ j < n, ids i = ids j → i = j) (hns : ns ≤ n) :
    Nat.count (IsKind ns ids true) n = ns := by
  have hsurj : (Finset.range n).image ids = Finset.range n := by
    apply Finset.eq_of_subset_of_card_le
    · intro x hx
      obtain ⟨i, hi, rfl⟩ := Finset.mem_image.1 hx
      exact Finset.mem_range.2 (hlt i (Finset.mem_range.1 hi))
    · rw [Finset.card_image_of_injOn]
      intro i hi j hj h
      exact hinj i (Finset.mem_range.1 hi) j (Finset.mem_range.1 hj) h
  rw [Nat.count_eq_card_filter_range]
  have himg : ((Finset.range n).filter (IsKind ns ids true)).image ids = Finset.range ns := by
    ext x
    rw [Finset.mem_image, Finset.mem_range]
    constructor
    · rintro ⟨i, hi, rfl⟩
      exact isKind_true.1 (Finset.mem_filter.1 hi).2
    · intro hx
      have : x ∈ (Finset.range n).image ids := by rw [hsurj, Finset.mem_range]; omega
      obtain ⟨i, hi, rfl⟩ := Finset.mem_image.1 this
      exact ⟨i, Finset.mem_filter.2 ⟨hi, isKind_true.2 hx⟩, rfl⟩
  have hcard := congrArg Finset.card himg
  rw [Finset.card_range] at hcard
  rw [Finset.card_image_of_injOn] at hcard
  · exact hcard
  intro i hi j hj h
  have hi' := (Finset.mem_filter.1 hi).1
  have hj' := (Finset.mem_filter.1 hj).1
  exact hinj i (Finset.mem_range.1 hi') j (Finset.mem_range.1 hj') h

theorem perm_surj {n : Nat} {ids : Nat → Nat} (hlt : ∀ i < n, ids i < n)
    (hinj : ∀ i < n, ∀ j < n, ids i = ids j → i = j) {x : Nat} (hx : x < n) :
    ∃ i < n, ids i = x := by
  have hsurj : (Finset.range n).image ids = Finset.range n := by
    apply Finset.eq_of_subset_of_card_le
    · intro x hx
      obtain ⟨i, hi, rfl⟩ := Finset.mem_image.1 hx
      exact Finset.mem_range.2 (hlt i (Finset.mem_range.1 hi))
    · rw [Finset.card_image_of_injOn]
      intro i hi j hj h
      exact hinj i (Finset.mem_range.1 hi) j (Finset.mem_range.1 hj) h
  have : x ∈ (Finset.range n).image ids := by rw [hsurj, Finset.mem_range]; exact hx
  obtain ⟨i, hi, rfl⟩ := Finset.mem_image.1 this
  exact ⟨i, Finset.mem_range.1 hi, rfl⟩

theorem nsources_eq (h : FinOK P skip len L s)
    (hns : C.sourcesAreTargets = false → C.nsources ≤ P.n) :
    (finish P C skip len L s).particles.nsources = Nat.count (C.kind s.ids true) P.n := by
  show (if C.sourcesAreTargets then P.n else C.nsources) = _
  cases hb : C.sourcesAreTargets with
  | true => rw [C.kind_both hb]; rfl
  | false => rw [C.kind_sep hb, count_perm h.inv.ids_lt h.inv.ids_inj (hns hb)]; rfl

theorem ntargets_eq (h : FinOK P skip len L s)
    (hns : C.sourcesAreTargets = false → C.nsources ≤ P.n) :
    (finish P C skip len L s).particles.ntargets = Nat.count (C.kind s.ids false) P.n := by
  show (if C.sourcesAreTargets then P.n else P.n - C.nsources) = _
  cases hb : C.sourcesAreTargets with
  | true => rw [C.kind_both hb]; rfl
  | false =>
    rw [C.kind_sep hb]
    have h1 := count_perm h.inv.ids_lt h.inv.ids_inj (hns hb)
    have h2 := source_add_target C.nsources s.ids P.n
    show P.n - C.nsources = _
    omega

/-! ### Flags -/

theorem boxInfo_isSource (both hasCh : Bool) (count sc tc sn tn : Nat) :
    hasFlag (boxInfo both hasCh count sc tc sn tn).1 flagIsSource
      = decide (0 < (boxInfo both hasCh count sc tc sn tn).2.1) := by
  unfold boxInfo
  cases hasCh <;> cases both <;> simp only [Bool.false_eq_true, if_true, if_false]
  · by_cases h1 : sc = 0 <;> by_cases h2 : count - sc = 0 <;>
      simp [h1, h2, Nat.pos_iff_ne_zero, hasFlag, flagIsSource, flagIsTarget]
    · have : count = 0 := by omega
      simp [this]
    · have : count ≠ 0 := by omega
      simp [this]
  · by_cases h1 : count = 0 <;>
      simp [h1, Nat.pos_iff_ne_zero, hasFlag, flagIsSource, flagIsTarget]
  · cases differ sc sn <;> cases differ tc tn <;> by_cases h1 : sn = 0 <;> by_cases h2 : tn = 0 <;>
      simp [h1, h2, Nat.pos_iff_ne_zero, hasFlag, flagIsSource, flagIsTarget, flagHasSourceChild,
        flagHasTargetChild]
  · cases differ count (sn + tn) <;> by_cases h1 : sn = 0 <;> by_cases h2 : tn = 0 <;>
      simp [h1, h2, Nat.pos_iff_ne_zero, hasFlag, flagIsSource, flagIsTarget, flagHasSourceChild,
        flagHasTargetChild]

end
end Boxtree.Build
