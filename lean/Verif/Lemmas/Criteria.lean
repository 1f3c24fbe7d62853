import Verif.Spec.Lists
import Verif.Lemmas.Traversal
import Verif.Lemmas.Grid

set_option linter.unusedSimpArgs false
set_option linter.unusedVariables false

namespace Boxtree
open BoxTree

theorem le_foldl_max {ι : Type} (f : ι → ℚ) (l : List ι) (a x : ℚ) :
    x ≤ l.foldl (fun acc i => max acc (f i)) a ↔ x ≤ a ∨ ∃ i ∈ l, x ≤ f i := by
  induction l generalizing a with
  | nil => simp
  | cons y l ih =>
    simp only [List.foldl_cons, ih, le_max_iff, List.mem_cons]
    constructor
    · rintro ((h | h) | ⟨i, hi, h⟩)
      · exact Or.inl h
      · exact Or.inr ⟨y, Or.inl rfl, h⟩
      · exact Or.inr ⟨i, Or.inr hi, h⟩
    · rintro (h | ⟨i, (rfl | hi), h⟩)
      · exact Or.inl (Or.inl h)
      · exact Or.inl (Or.inr h)
      · exact Or.inr ⟨i, hi, h⟩

section
variable {inp : TravInput}

/-- the adjacency tests are decided as in exact arithmetic -/
theorem TravInput.OK.adjOK (ok : inp.OK) : AdjOK inp.tree inp.params where
  pos := ok.nAway_pos
  adj := by
    intro n hn a b ha hb
    have hT := ok.tests
    have hn1 : 1 ≤ n := by
      rcases hn with h | h
      · exact h.ge
      · rw [h]; exact ok.nAway_pos
    unfold TravInput.TestsOK at hT
    cases h : inp.tests with
    | exact =>
      rw [show inp.params.tests = Tests.exact from h]
      exact adjNbhd_iff _ _ _ _
    | device D =>
      rw [h] at hT
      rw [show inp.params.tests = Tests.device D from h, ok.wf.nws_iff_touch hn1 ha hb]
      exact hT.1 n hn a b ha hb

/-- the list-4 test is inherited by the children of the target box -/
theorem TravInput.OK.sepMono (ok : inp.OK) : SepMono inp.tree inp.params := by
  intro he a s ha hs h0
  have hT := ok.tests
  unfold TravInput.TestsOK at hT
  cases h : inp.tests with
  | exact =>
    rw [show inp.params.tests = Tests.exact from h]
    exact meetsSepBigger_of_parent ok.wf ok.stickOut_nonneg ok.eps_small ha h0
  | device D =>
    rw [h] at hT
    rw [show inp.params.tests = Tests.device D from h]
    exact hT.2 he a s ha hs h0

theorem sep3_iff (ok : inp.OK) (tgt s : Nat) :
    Sep3 inp.tree inp.params tgt s ↔ SepSmaller inp tgt s := by
  unfold Sep3 SepSmaller meetsSepSmaller forceClose
  cases he : inp.targetsHaveExtent with
  | false => simp [TravInput.params, he]
  | true =>
    have hpos : 0 < (2 - 8 * inp.eps) * inp.tree.rad (inp.tree.level s) :=
      mul_pos (by have := ok.eps_small; linarith) (ok.wf.rad_pos _)
    simp only [TravInput.params, he, Bool.not_true, Bool.false_eq_true, if_false, Bool.true_and,
      decide_eq_false_iff_not, not_lt, forall_const]
    apply and_congr _ Iff.rfl
    unfold FarSmaller
    cases hte : inp.tests with
    | device D => rfl
    | exact =>
    simp only
    cases hc : inp.crit.getD .preciseLinf with
    | staticLinf =>
      simp only [critStaticLinf, decide_eq_true_eq]
      rw [le_foldl_max]
      constructor
      · rintro (h | ⟨i, hi, h⟩)
        · exact absurd h (not_le.2 hpos)
        · exact ⟨i, List.mem_range.1 hi, h⟩
      · rintro ⟨i, hi, h⟩; exact Or.inr ⟨i, List.mem_range.2 hi, h⟩
    | preciseLinf =>
      simp only [critPreciseLinf, decide_eq_true_eq]
      rw [le_foldl_max]
      have e : ∀ i, (1:ℚ) / 2 * (inp.tree.tgtMin tgt i + inp.tree.tgtMax tgt i) =
          (inp.tree.tgtMin tgt i + inp.tree.tgtMax tgt i) / 2 := fun i => by ring
      have e' : ∀ i, (1:ℚ) / 2 * (inp.tree.tgtMax tgt i - inp.tree.tgtMin tgt i) =
          (inp.tree.tgtMax tgt i - inp.tree.tgtMin tgt i) / 2 := fun i => by ring
      simp only [e, e']
      constructor
      · rintro (h | ⟨i, hi, h⟩)
        · exact absurd h (not_le.2 hpos)
        · exact ⟨i, List.mem_range.1 hi, h⟩
      · rintro ⟨i, hi, h⟩; exact Or.inr ⟨i, List.mem_range.2 hi, h⟩
    | staticL2 =>
      simp only [critStaticL2, decide_eq_true_eq]
      rw [pow_two]
      apply and_congr _ Iff.rfl
      constructor <;> intro h <;> linarith

theorem crit4_iff (ok : inp.OK) (b s : Nat) :
    Crit4 inp.tree inp.params b s ↔ SepBigger inp b s := by
  unfold Crit4 SepBigger
  cases he : inp.targetsHaveExtent with
  | false => simp [TravInput.params, he]
  | true =>
    cases hte : inp.tests with
    | device D => simp [TravInput.params, he, hte, Tests.sepBigger]
    | exact =>
    simp only [TravInput.params, he, hte, Tests.sepBigger, Bool.true_eq_false, false_or, forall_const,
      BoxTree.meetsSepBigger, decide_eq_true_eq, BoxTree.linf]
    rw [le_foldl_max]
    have hpos : 0 < (3 * (1 + inp.stickOut) * inp.tree.rad (inp.tree.level b) +
        inp.tree.rad (inp.tree.level s)) * (1 - 8 * inp.eps) := by
      have h1 := ok.wf.rad_pos (inp.tree.level b)
      have h2 := ok.wf.rad_pos (inp.tree.level s)
      have h3 := ok.stickOut_nonneg
      have h4 := ok.eps_small
      apply mul_pos
      · have : 0 < 3 * (1 + inp.stickOut) * inp.tree.rad (inp.tree.level b) :=
          mul_pos (by linarith) h1
        linarith
      · linarith
    constructor
    · rintro (h | ⟨i, hi, h⟩)
      · exact absurd h (not_le.2 hpos)
      · exact ⟨i, List.mem_range.1 hi, h⟩
    · rintro ⟨i, hi, h⟩; exact Or.inr ⟨i, List.mem_range.2 hi, h⟩

end

variable {t : BoxTree} {p : TravParams}

theorem list3_lt (hw : t.WF) {slnws : Nat → List Nat}
    (hsl : ∀ b, b < t.nboxes → slnws b = slnwsKernel t p b) {sl : Int} {tgt : Nat} {e : Out}
    (ht : tgt < t.nboxes) (h : e ∈ list3Kernel t p slnws sl tgt) : e.box < t.nboxes := by
  unfold list3Kernel at h
  obtain ⟨x, hx, he⟩ := List.mem_flatMap.1 h
  rw [hsl tgt ht] at hx
  have hxlt := slnws_lt hw hx
  split at he
  · simp at he
  · obtain ⟨k, c, hc, _, he'⟩ := mem_walk _ hw e hxlt he
    rw [← list3Visit_own he']; exact hc

theorem list4Loop_lt (hw : t.WF) {slnws : Nat → List Nat}
    (hsl : ∀ b, b < t.nboxes → slnws b = slnwsKernel t p b) {b : Nat} {e : Out} :
    ∀ (wl cur : Nat), cur < t.nboxes → e ∈ list4Loop t p slnws b wl cur → e.box < t.nboxes := by
  intro wl
  induction wl with
  | zero => intro cur _ h; simp [list4Loop] at h
  | succ wl ih =>
    intro cur hcur h
    simp only [list4Loop, List.mem_append] at h
    rcases h with h | h
    · obtain ⟨x, hx, he⟩ := List.mem_flatMap.1 h
      rw [hsl cur hcur] at hx
      rw [← list4Body_own he]; exact slnws_lt hw hx
    · exact ih _ (hw.parent_lt _ hcur) h

theorem list4_lt (hw : t.WF) {slnws : Nat → List Nat}
    (hsl : ∀ b, b < t.nboxes → slnws b = slnwsKernel t p b) {b : Nat} {e : Out}
    (hb : b < t.nboxes) (h : e ∈ list4Kernel t p slnws b) : e.box < t.nboxes := by
  unfold list4Kernel at h
  split at h
  · simp at h
  · split at h
    · exact list4Loop_lt hw hsl _ _ (hw.parent_lt _ hb) h
    · exact list4Loop_lt hw hsl _ _ hb h

/-- membership and duplicate-freeness from a 0/1 count -/
theorem list_of_count {l : List Nat} {n : Nat} (hlt : ∀ s ∈ l, s < n) {P : Nat → Prop}
    (hc : ∀ s, s < n → (P s → l.count s = 1) ∧ (¬ P s → l.count s = 0)) :
    l.Nodup ∧ ∀ s, s ∈ l ↔ s < n ∧ P s := by
  constructor
  · rw [List.nodup_iff_count_le_one]
    intro a
    by_cases ha : a ∈ l
    · by_cases hp : P a
      · rw [((hc a (hlt a ha)).1 hp)]
      · rw [((hc a (hlt a ha)).2 hp)]; omega
    · rw [List.count_eq_zero.2 ha]; omega
  · intro s
    constructor
    · intro h
      refine ⟨hlt s h, ?_⟩
      by_contra hp
      have := (hc s (hlt s h)).2 hp
      have h1 := List.count_pos_iff.2 h
      omega
    · rintro ⟨h1, h2⟩
      apply List.count_pos_iff.1
      rw [(hc s h1).1 h2]; omega

theorem list_of_count_ite {l : List Nat} {n : Nat} (hlt : ∀ s ∈ l, s < n) {P Q : Nat → Prop}
    [DecidablePred P] (hc : ∀ s, s < n → l.count s = if P s then 1 else 0)
    (hq : ∀ s, s < n → (P s ↔ Q s)) :
    l.Nodup ∧ ∀ s, s ∈ l ↔ s < n ∧ Q s := by
  apply list_of_count hlt
  intro s hs
  rw [hc s hs]
  constructor
  · intro h; rw [if_pos ((hq s hs).2 h)]
  · intro h; rw [if_neg (fun h' => h ((hq s hs).1 h'))]

theorem mem_sepPart {l : List Out} {s : Nat} : s ∈ sepPart l ↔ Out.sep s ∈ l := by
  rw [← List.count_pos_iff, count_sepPart, List.count_pos_iff]

theorem mem_closePart {l : List Out} {s : Nat} : s ∈ closePart l ↔ Out.close s ∈ l := by
  rw [← List.count_pos_iff, count_closePart, List.count_pos_iff]

end Boxtree
