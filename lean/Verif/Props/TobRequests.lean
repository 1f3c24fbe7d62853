import Verif.Props.TreeOfBoxes

set_option linter.unusedSimpArgs false
set_option linter.unusedVariables false

/-!
# C16-C18: what a refinement/coarsening call does, and when it is rejected
-/

namespace Boxtree
open Tob

namespace Tob

theorem RefineFacts.isLeaf_iff' {t tr : Tob} {rf : Nat → Bool}
    (hf : RefineFacts t ((List.range t.nboxes).filter rf) tr) (h0 : 0 < t.nboxes) {b : Nat}
    (hb : b < t.nboxes) : tr.isLeaf b = true ↔ t.NoChildren b ∧ rf b = false := by
  rw [isLeaf_iff]
  rw [hf.nch]
  by_cases hr : rf b = true
  · have hmem : b ∈ (List.range t.nboxes).filter rf := by simp [hb, hr]
    simp only [hr, Bool.true_eq_false, and_false, iff_false]
    intro h
    have := h 0 (nch_pos t)
    rw [hf.child_ps b hmem] at this
    omega
  · have hmem : b ∉ (List.range t.nboxes).filter rf := by simp [hr]
    have hr' : rf b = false := by simpa using hr
    simp only [hr', and_true]
    unfold NoChildren
    apply forall_congr'; intro m
    rw [hf.child_old b hb hmem]

theorem RefineFacts.canCoarsen_iff {t tr : Tob} {rf : Nat → Bool} (hc : t.Core (· < t.nboxes))
    (hf : RefineFacts t ((List.range t.nboxes).filter rf) tr)
    (hleaf : ∀ b, b < t.nboxes → rf b = true → t.isLeaf b = true) {b : Nat}
    (hb : b < t.nboxes) (h0 : b ≠ 0) : tr.canCoarsen b = true ↔ t.Effective rf b := by
  obtain ⟨hp, hpe, _, m0, hm0, hcm0⟩ := hc.parent_nat hb h0
  have hpps : (t.parent b).toNat ∉ (List.range t.nboxes).filter rf := by
    intro hmem
    simp only [List.mem_filter] at hmem
    have := (isLeaf_iff t _).1 (hleaf _ hp hmem.2) m0 hm0
    omega
  have hne : ∀ m, m < t.nch → t.child m (t.parent b).toNat ≠ 0 := by
    rcases hc.all_or_none _ hp with h | h
    · have := h m0 hm0; omega
    · exact h
  unfold canCoarsen Effective
  rw [List.all_eq_true, hf.nch, hf.parent b hb]
  constructor
  · rintro h c ⟨hc1, hc2, _, hc3⟩
    obtain ⟨_, _, _, m, hm, hcm⟩ := hc.parent_nat hc1 hc2
    have := h m (by simpa using hm)
    rw [hf.child_old _ hp hpps, ← hc3, hcm, hf.isLeaf_iff' hc.root hc1] at this
    exact this
  · intro h m hm
    have hm' : m < t.nch := by simpa using hm
    obtain ⟨h1, h2⟩ := hc.child_alive _ hp m hm' (hne m hm')
    rw [hf.child_old _ hp hpps, hf.isLeaf_iff' hc.root h1]
    exact h _ ⟨h1, hne m hm', h0, by rw [h2, hpe]; simp⟩

end Tob

/-! ## C17: rejected requests -/

/-- **C17.** Which requests `refine_and_coarsen_tree_of_boxes` rejects, and with which error: a box
flagged for both; else a flagged non-leaf to refine; else a flagged non-leaf to coarsen; else the
root flagged for coarsening; else, if `error_on_ignored_flags`, a coarsening flag with a sibling that
has children or is being refined.  In every other case the call returns. -/
theorem C17_rejected_requests (argsort : List Nat → List Nat) (t : Tob) (hv : t.Valid)
    (rf cf : Nat → Bool) (e : Bool) :
    let both := ∃ b, b < t.nboxes ∧ rf b = true ∧ cf b = true
    let splitBad := ∃ b, b < t.nboxes ∧ rf b = true ∧ ¬ t.NoChildren b
    let coarsenBad := ∃ b, b < t.nboxes ∧ cf b = true ∧ ¬ t.NoChildren b
    let rootBad := cf 0 = true
    let ignored := e = true ∧ ∃ b, b < t.nboxes ∧ cf b = true ∧ ¬ t.Effective rf b
    (t.refineAndCoarsen argsort rf cf e = .error .bothFlags ↔ both) ∧
    (t.refineAndCoarsen argsort rf cf e = .error .splitNonLeaf ↔ ¬ both ∧ splitBad) ∧
    (t.refineAndCoarsen argsort rf cf e = .error .coarsenNonLeaf ↔
      ¬ both ∧ ¬ splitBad ∧ coarsenBad) ∧
    (t.refineAndCoarsen argsort rf cf e = .error .coarsenRoot ↔
      ¬ both ∧ ¬ splitBad ∧ ¬ coarsenBad ∧ rootBad) ∧
    (t.refineAndCoarsen argsort rf cf e = .error .flagsIgnored ↔
      ¬ both ∧ ¬ splitBad ∧ ¬ coarsenBad ∧ ¬ rootBad ∧ ignored) ∧
    ((∃ u, t.refineAndCoarsen argsort rf cf e = .ok u) ↔
      ¬ both ∧ ¬ splitBad ∧ ¬ coarsenBad ∧ ¬ rootBad ∧ ¬ ignored) := by
  intro both splitBad coarsenBad rootBad ignored
  have hc := hv.toCore
  have h0 : (0 : Nat) < t.nboxes := hc.root
  by_cases h1 : both
  · have hr : t.refineAndCoarsen argsort rf cf e = .error .bothFlags := by
      obtain ⟨b, hb, hr, hcf⟩ := h1
      unfold refineAndCoarsen
      rw [if_pos]
      rw [List.any_eq_true]
      exact ⟨b, by simpa using hb, by simp [hr, hcf]⟩
    simp [hr, h1]
  have e1 : t.refineAndCoarsen argsort rf cf e = (do
      let t1 ← t.refine rf
      let t2 ← t1.coarsen (resizeFlags t.nboxes cf) e
      return t2.sortAndPrune argsort) := by
    unfold refineAndCoarsen
    rw [if_neg]
    rw [List.any_eq_true]
    rintro ⟨b, hb, hh⟩
    simp only [Bool.and_eq_true] at hh
    exact h1 ⟨b, by simpa using hb, hh.1, hh.2⟩
  by_cases h2 : splitBad
  · have hr : t.refineAndCoarsen argsort rf cf e = .error .splitNonLeaf := by
      obtain ⟨b, hb, hr, hl⟩ := h2
      rw [e1]
      have : t.refine rf = .error .splitNonLeaf := by
        unfold refine
        rw [if_pos]
        rw [List.any_eq_true]
        have : t.isLeaf b = false := by
          rw [← Bool.not_eq_true, isLeaf_iff]; exact hl
        exact ⟨b, by simpa using hb, by simp [hr, this]⟩
      rw [this]; rfl
    simp [hr, h1, h2]
  obtain ⟨tr, htr⟩ : ∃ tr, t.refine rf = .ok tr := by
    unfold refine
    rw [if_neg]
    · simp only []
      split <;> exact ⟨_, rfl⟩
    · rw [List.any_eq_true]
      rintro ⟨b, hb, hh⟩
      simp only [Bool.and_eq_true, Bool.not_eq_true'] at hh
      apply h2
      refine ⟨b, by simpa using hb, hh.1, ?_⟩
      intro hl
      rw [NoChildren, ← isLeaf_iff, hh.2] at hl
      simp at hl
  obtain ⟨hf, hleaf⟩ := refine_ok htr
  have hnle : t.nboxes ≤ tr.nboxes := by rw [hf.nboxes]; omega
  have e2 : t.refineAndCoarsen argsort rf cf e = (do
      let t2 ← tr.coarsen (resizeFlags t.nboxes cf) e
      return t2.sortAndPrune argsort) := by
    rw [e1, htr]; rfl
  have hrfcf : ∀ b, b < t.nboxes → cf b = true → rf b = false := by
    intro b hb hcf
    by_contra hr
    exact h1 ⟨b, hb, by simpa using hr, hcf⟩
  by_cases h3 : coarsenBad
  · have hr : t.refineAndCoarsen argsort rf cf e = .error .coarsenNonLeaf := by
      obtain ⟨b, hb, hcf, hl⟩ := h3
      rw [e2]
      have : tr.coarsen (resizeFlags t.nboxes cf) e = .error .coarsenNonLeaf := by
        unfold coarsen
        rw [if_pos]
        rw [List.any_eq_true]
        have : tr.isLeaf b = false := by
          rw [← Bool.not_eq_true, hf.isLeaf_iff' h0 hb]
          exact fun h => hl h.1
        exact ⟨b, by simp; omega, by
          rw [this, resize_true.2 ⟨hb, hcf⟩]; rfl⟩
      rw [this]; rfl
    simp [hr, h1, h2, h3]
  have hnl : ∀ b, b < t.nboxes → cf b = true → t.NoChildren b := by
    intro b hb hcf
    by_contra hl
    exact h3 ⟨b, hb, hcf, hl⟩
  have g3 : ¬ ((List.range tr.nboxes).any
      fun b => resizeFlags t.nboxes cf b && !tr.isLeaf b) = true := by
    rw [List.any_eq_true]
    rintro ⟨b, hb, hh⟩
    simp only [Bool.and_eq_true, Bool.not_eq_true'] at hh
    obtain ⟨hb', hcf⟩ := resize_true.1 hh.1
    have := (hf.isLeaf_iff' h0 hb').2 ⟨hnl b hb' hcf, hrfcf b hb' hcf⟩
    rw [this] at hh; simp at hh
  by_cases h4 : rootBad
  · have hr : t.refineAndCoarsen argsort rf cf e = .error .coarsenRoot := by
      rw [e2]
      have : tr.coarsen (resizeFlags t.nboxes cf) e = .error .coarsenRoot := by
        unfold coarsen
        rw [if_neg g3]
        simp only []
        rw [if_pos]
        rw [List.any_eq_true]
        refine ⟨0, ?_, ?_⟩
        · rw [List.mem_filter]
          exact ⟨by simp; omega, resize_true.2 ⟨h0, h4⟩⟩
        · rw [hf.parent 0 h0, hc.parent_root]; rfl
      rw [this]; rfl
    simp [hr, h1, h2, h3, h4]
  have hb0 : ∀ b, cf b = true → b ≠ 0 := by
    rintro b hcf rfl; exact h4 hcf
  have g4 : ¬ (((List.range tr.nboxes).filter (resizeFlags t.nboxes cf)).any
      fun s => decide (tr.parent s < 0)) = true := by
    rw [List.any_eq_true]
    rintro ⟨b, hb, hh⟩
    rw [List.mem_filter] at hb
    obtain ⟨hb', hcf⟩ := resize_true.1 hb.2
    rw [hf.parent b hb', (hc.parent_nat hb' (hb0 b hcf)).2.1] at hh
    simp at hh
  have hcan : ∀ b, b < t.nboxes → cf b = true → (tr.canCoarsen b = true ↔ t.Effective rf b) :=
    fun b hb hcf => hf.canCoarsen_iff hc hleaf hb (hb0 b hcf)
  by_cases h5 : ignored
  · have hr : t.refineAndCoarsen argsort rf cf e = .error .flagsIgnored := by
      obtain ⟨he, b, hb, hcf, heff⟩ := h5
      rw [e2]
      have hmem : b ∈ (List.range tr.nboxes).filter (resizeFlags t.nboxes cf) := by
        rw [List.mem_filter]
        exact ⟨by simp; omega, resize_true.2 ⟨hb, hcf⟩⟩
      have : tr.coarsen (resizeFlags t.nboxes cf) e = .error .flagsIgnored := by
        unfold coarsen
        rw [if_neg g3]
        simp only []
        rw [if_neg g4, if_neg, if_pos]
        · rw [he, Bool.and_true, List.any_eq_true]
          refine ⟨b, hmem, ?_⟩
          have : tr.canCoarsen b = false := by
            rw [← Bool.not_eq_true, hcan b hb hcf]; exact heff
          rw [this]; rfl
        · intro hemp
          have : (List.range tr.nboxes).filter (resizeFlags t.nboxes cf) = [] := by simpa using hemp
          rw [this] at hmem; simp at hmem
      rw [this]; rfl
    have hno : ¬ ∃ u, t.refineAndCoarsen argsort rf cf e = .ok u := by
      rw [hr]; rintro ⟨u, hu⟩; simp at hu
    simp [hr, h1, h2, h3, h4, h5]
  · obtain ⟨u, hu⟩ : ∃ u, tr.coarsen (resizeFlags t.nboxes cf) e = .ok u := by
      unfold coarsen
      rw [if_neg g3]
      simp only []
      rw [if_neg g4]
      split
      · exact ⟨_, rfl⟩
      · rw [if_neg]
        · exact ⟨_, rfl⟩
        · intro hh
          rw [Bool.and_eq_true, List.any_eq_true] at hh
          obtain ⟨⟨b, hb, hnc⟩, he⟩ := hh
          rw [List.mem_filter] at hb
          obtain ⟨hb', hcf⟩ := resize_true.1 hb.2
          apply h5
          refine ⟨he, b, hb', hcf, ?_⟩
          rw [← hcan b hb' hcf]
          simpa using hnc
    have hr : t.refineAndCoarsen argsort rf cf e = .ok (u.sortAndPrune argsort) := by
      rw [e2, hu]; rfl
    simp [hr, h1, h2, h3, h4, h5]

/-- **C17.** Uniform refinement of a valid tree is never rejected. -/
theorem C17_uniform_refinement_returns (argsort : List Nat → List Nat) (t : Tob) (hv : t.Valid) :
    ∃ u, t.uniformlyRefine argsort = .ok u := by
  refine (C17_rejected_requests argsort t hv _ (fun _ => false) true).2.2.2.2.2.2
    ⟨by simp, ?_, by simp, by simp, by simp⟩
  rintro ⟨b, hb, hr, hn⟩
  exact hn ((leafFlag_iff t b).1 hr)

/-! ## C18: ignored flags -/

/-- **C18.** With `error_on_ignored_flags=False`, a coarsening flag with a sibling that has children
or is being refined has no effect: the call returns exactly what it returns when these flags are not
given. -/
theorem C18_ignored_flags_have_no_effect (argsort : List Nat → List Nat) (t : Tob) (hv : t.Valid)
    (rf cf cf' : Nat → Bool)
    (hcf' : ∀ b, b < t.nboxes → (cf' b = true ↔ cf b = true ∧ t.Effective rf b)) (u : Tob)
    (h : t.refineAndCoarsen argsort rf cf false = .ok u) :
    t.refineAndCoarsen argsort rf cf' false = .ok u := by
  have hc := hv.toCore
  have h0 : (0 : Nat) < t.nboxes := hc.root
  have hok := (C17_rejected_requests argsort t hv rf cf false).2.2.2.2.2.1 ⟨u, h⟩
  obtain ⟨n1, n2, n3, n4, _⟩ := hok
  have hok' : ∃ u', t.refineAndCoarsen argsort rf cf' false = .ok u' := by
    refine (C17_rejected_requests argsort t hv rf cf' false).2.2.2.2.2.2 ⟨?_, n2, ?_, ?_, by simp⟩
    · rintro ⟨b, hb, h1, h2⟩; exact n1 ⟨b, hb, h1, ((hcf' b hb).1 h2).1⟩
    · rintro ⟨b, hb, h1, h2⟩; exact n3 ⟨b, hb, ((hcf' b hb).1 h1).1, h2⟩
    · intro h1; exact n4 ((hcf' 0 h0).1 h1).1
  obtain ⟨u', hu'⟩ := hok'
  have hex : ∀ {w : Nat → Bool} {v : Tob}, t.refineAndCoarsen argsort rf w false = .ok v →
      ∃ tr tc, t.refine rf = .ok tr ∧ tr.coarsen (resizeFlags t.nboxes w) false = .ok tc ∧
        tc.sortAndPrune argsort = v := by
    intro w v hw
    unfold refineAndCoarsen at hw
    split at hw
    · simp at hw
    · cases hr : t.refine rf with
      | error er => rw [hr] at hw; simp [bind, Except.bind] at hw
      | ok tr =>
        rw [hr] at hw
        simp only [bind, Except.bind] at hw
        cases hcr : tr.coarsen (resizeFlags t.nboxes w) false with
        | error er => rw [hcr] at hw; simp at hw
        | ok tc =>
          rw [hcr] at hw
          exact ⟨tr, tc, rfl, hcr, by simpa [pure, Except.pure] using hw⟩
  obtain ⟨tr, tc, hr1, hc1, hs1⟩ := hex h
  obtain ⟨tr', tc', hr2, hc2, hs2⟩ := hex hu'
  rw [hr1] at hr2
  have hrr : tr = tr' := by simpa using hr2
  subst hrr
  obtain ⟨hf, hleaf⟩ := refine_ok hr1
  have hnle : t.nboxes ≤ tr.nboxes := by rw [hf.nboxes]; omega
  have hexe : tr.executed (resizeFlags t.nboxes cf) = tr.executed (resizeFlags t.nboxes cf') := by
    unfold executed
    rw [List.filter_filter, List.filter_filter]
    apply List.filter_congr
    intro b hb
    rw [Bool.eq_iff_iff, Bool.and_eq_true, Bool.and_eq_true, resize_true, resize_true]
    constructor
    · rintro ⟨h1, h2, h3⟩
      have hb0 : b ≠ 0 := by rintro rfl; exact n4 h3
      exact ⟨h1, h2, (hcf' b h2).2 ⟨h3, (hf.canCoarsen_iff hc hleaf h2 hb0).1 h1⟩⟩
    · rintro ⟨h1, h2, h3⟩
      exact ⟨h1, h2, ((hcf' b h2).1 h3).1⟩
  have hcc : ∀ {w : Nat → Bool} {v : Tob}, tr.coarsen w false = .ok v →
      v = tr.coarsened (tr.executed w) := by
    intro w v hw
    obtain ⟨hcf, _⟩ := coarsen_ok hw
    have e1 : v.level = (tr.coarsened (tr.executed w)).level := funext hcf.level
    have e2 : v.parent = (tr.coarsened (tr.executed w)).parent := funext hcf.parent
    have e3 : v.child = (tr.coarsened (tr.executed w)).child :=
      funext fun m => funext fun b => hcf.child m b
    have e4 := hcf.center
    have e5 := hcf.dims
    have e6 := hcf.bits
    have e7 := hcf.signed
    have e8 := hcf.ext
    have e9 := hcf.nboxes
    obtain ⟨_, _, _, _, _, _, _, _, _⟩ := v
    simp only at e1 e2 e3 e4 e5 e6 e7 e8 e9
    subst e4 e5 e6 e7 e8 e9
    rw [e1, e2, e3]
    rfl
  rw [hu', ← hs2, ← hs1, hcc hc1, hcc hc2, hexe]

/-- **C18.** The boxes after a call: the old boxes without the sibling groups named by the effective
coarsening flags, and the sub-boxes of the refined boxes; nothing else. -/
theorem C18_resulting_boxes (argsort : List Nat → List Nat) (hs : IsArgsort argsort) (t : Tob)
    (hv : t.Valid) (hsig : t.lvSigned = true)
    (hL : ∀ b, b < t.nboxes → t.level b + 2 < t.lvBits) (rf cf : Nat → Bool)
    (hdeep : ∀ b, b < t.nboxes → rf b = true → t.level b + 3 < t.lvBits) (e : Bool) (u : Tob)
    (h : t.refineAndCoarsen argsort rf cf e = .ok u) (l : Nat) (c : Nat → ℚ) :
    u.HasBox l c ↔
      (∃ b, b < t.nboxes ∧ t.level b = l ∧ (∀ i, i < t.dims → t.center b i = c i) ∧
        ¬ ∃ s, s < t.nboxes ∧ cf s = true ∧ t.Effective rf s ∧ t.Sibling s b) ∨
      (∃ p, p < t.nboxes ∧ rf p = true ∧ t.level p + 1 = l ∧ ∃ m, m < t.nch ∧
        ∀ i, i < t.dims → t.center p i + mortonSign t.dims m i * t.rad (t.level p + 1) = c i) := by
  obtain ⟨tr, tc, σ, τ, _, _, _, hf⟩ := step_facts hs hv hsig hL hdeep h
  have hRf := hf.refineFacts
  have hCf := hf.coarsenFacts
  have hRe := hf.relabel
  have hc := hv.toCore
  have h0 : (0 : Nat) < t.nboxes := hc.root
  have hnle : t.nboxes ≤ tr.nboxes := by rw [hRf.nboxes]; omega
  have hdims : u.dims = t.dims := by rw [hRe.dims, hCf.dims, hRf.dims]
  -- membership in the removed set, for old boxes
  have hcfne : ∀ s, s < t.nboxes → cf s = true → s ≠ 0 := by
    rintro s hs1 hcf rfl
    have := (hf.coarsenLeaf 0 hs1 hcf).2
    rw [hRf.parent 0 hs1, hc.parent_root] at this
    omega
  have hexlt : ∀ s ∈ tr.executed (resizeFlags t.nboxes cf), s < tr.nboxes ∧ 0 ≤ tr.parent s := by
    intro s hs1
    obtain ⟨h1, h2, _⟩ := mem_executed.1 hs1
    obtain ⟨h3, h4⟩ := resize_true.1 h2
    exact ⟨h1, (hf.coarsenLeaf s h3 h4).2⟩
  have hpeer := hf.coreR.cpeers_iff hexlt
  have hexe : ∀ s, s ∈ tr.executed (resizeFlags t.nboxes cf) ↔
      s < t.nboxes ∧ cf s = true ∧ t.Effective rf s := by
    intro s
    rw [mem_executed, resize_true]
    constructor
    · rintro ⟨h1, ⟨h2, h3⟩, h4⟩
      exact ⟨h2, h3, (hRf.canCoarsen_iff hc hf.refineLeaf h2 (hcfne s h2 h3)).1 h4⟩
    · rintro ⟨h1, h2, h3⟩
      exact ⟨by omega, ⟨h1, h2⟩, (hRf.canCoarsen_iff hc hf.refineLeaf h1 (hcfne s h1 h2)).2 h3⟩
  have hold : ∀ b, b < t.nboxes → (b ∈ tr.cpeers (tr.executed (resizeFlags t.nboxes cf)) ↔
      ∃ s, s < t.nboxes ∧ cf s = true ∧ t.Effective rf s ∧ t.Sibling s b) := by
    intro b hb
    rw [hpeer]
    constructor
    · rintro ⟨_, hb0, s, hs1, hs2⟩
      obtain ⟨h1, h2, h3⟩ := (hexe s).1 hs1
      rw [hRf.parent b hb, hRf.parent s h1] at hs2
      exact ⟨s, h1, h2, h3, hb, hb0, hcfne s h1 h2, hs2⟩
    · rintro ⟨s, h1, h2, h3, h4, h5, h6, h7⟩
      refine ⟨by omega, h5, s, (hexe s).2 ⟨h1, h2, h3⟩, ?_⟩
      rw [hRf.parent b hb, hRf.parent s h1, h7]
  have hnew : ∀ b, t.nboxes ≤ b → b < tr.nboxes →
      b ∉ tr.cpeers (tr.executed (resizeFlags t.nboxes cf)) := by
    intro b hb1 hb2 hmem
    rw [hpeer] at hmem
    obtain ⟨_, hb0, s, hs1, hs2⟩ := hmem
    obtain ⟨h1, h2, h3⟩ := (hexe s).1 hs1
    obtain ⟨k, m, hk, hm, rfl⟩ := new_index (nch_pos t) hb1 (by rw [← hRf.nboxes]; exact hb2)
    rw [hRf.parent_new k m hk hm, hRf.parent s h1] at hs2
    obtain ⟨hp, hpe, _, m', hm', hcm⟩ := hc.parent_nat h1 (hcfne s h1 h2)
    have hmem := getD_mem hk
    simp only [List.mem_filter, List.mem_range] at hmem
    have := (isLeaf_iff t _).1 (hf.refineLeaf _ hmem.1 hmem.2) m' hm'
    rw [show ((List.range t.nboxes).filter rf).getD k 0 = (t.parent s).toNat by omega, hcm] at this
    exact hcfne s h1 h2 this
  have hkey : ∀ k m, k < ((List.range t.nboxes).filter rf).length → m < t.nch → ∀ i, i < t.dims →
      tr.center (t.nboxes + t.nch * k + m) i =
        t.center (((List.range t.nboxes).filter rf).getD k 0) i + mortonSign t.dims m i *
          t.rad (t.level (((List.range t.nboxes).filter rf).getD k 0) + 1) := by
    intro k m hk hm i hi
    have hmem := getD_mem hk
    have hcc := hf.coreR.center_child (((List.range t.nboxes).filter rf).getD k 0)
      (by have := hmem; simp only [List.mem_filter, List.mem_range] at this; omega) m
      (by rw [hRf.nch]; exact hm)
    rw [hRf.child_ps _ hmem, idxOf_getD (List.nodup_range.filter _) hk] at hcc
    have hm2 := hmem
    simp only [List.mem_filter, List.mem_range] at hm2
    have := hcc (by omega) i (by rw [hRf.dims]; exact hi)
    rw [this, hRf.center _ hm2.1, hRf.level _ hm2.1, hRf.dims, hRf.rad]
  unfold HasBox
  rw [hdims]
  constructor
  · rintro ⟨b, hb, hl, hcen⟩
    obtain ⟨⟨h1, h2⟩, _⟩ := hRe.fwd b hb
    rw [hRe.level b hb, hCf.level, if_neg h2] at hl
    rw [hRe.center b hb, hCf.center] at hcen
    by_cases hbo : σ b < t.nboxes
    · left
      refine ⟨σ b, hbo, by rw [← hRf.level _ hbo]; exact hl, ?_, ?_⟩
      · intro i hi; rw [← hRf.center _ hbo]; exact hcen i hi
      · rw [← hold _ hbo]; exact h2
    · right
      obtain ⟨k, m, hk, hm, he⟩ := new_index (nch_pos t) (Nat.not_lt.1 hbo)
        (by rw [← hRf.nboxes]; exact h1)
      have hmem := getD_mem hk
      simp only [List.mem_filter, List.mem_range] at hmem
      rw [he] at hl hcen
      rw [hRf.level_new k m hk hm] at hl
      refine ⟨_, hmem.1, hmem.2, hl, m, hm, ?_⟩
      intro i hi
      rw [← hkey k m hk hm i hi]; exact hcen i hi
  · rintro (⟨b, hb, hl, hcen, hrem⟩ | ⟨p, hp, hr, hl, m, hm, hcen⟩)
    · rw [← hold b hb] at hrem
      obtain ⟨h1, h2⟩ := hRe.bwd b ⟨by omega, hrem⟩
      refine ⟨τ b, h1, ?_, ?_⟩
      · rw [hRe.level _ h1, h2, hCf.level, if_neg hrem, hRf.level b hb, hl]
      · intro i hi
        rw [hRe.center _ h1, h2, hCf.center, hRf.center b hb]; exact hcen i hi
    · have hmem : p ∈ (List.range t.nboxes).filter rf := by simp [hp, hr]
      have hk := List.idxOf_lt_length_of_mem hmem
      have hlt : t.nboxes + t.nch * ((List.range t.nboxes).filter rf).idxOf p + m < tr.nboxes := by
        have := (hf.coreR.child_alive p (by omega) m (by rw [hRf.nch]; exact hm)
          (by rw [hRf.child_ps p hmem]; omega)).1
        rwa [hRf.child_ps p hmem] at this
      have hnr := hnew _ (by omega) hlt
      obtain ⟨h1, h2⟩ := hRe.bwd _ ⟨hlt, hnr⟩
      refine ⟨_, h1, ?_, ?_⟩
      · rw [hRe.level _ h1, h2, hCf.level, if_neg hnr, hRf.level_new _ m hk hm, getD_idxOf hmem, hl]
      · intro i hi
        rw [hRe.center _ h1, h2, hCf.center, hkey _ m hk hm i hi, getD_idxOf hmem]
        exact hcen i hi

end Boxtree
