import Verif.Lemmas.Build

/-! Bounding boxes of boxes. -/

namespace Boxtree.Build

theorem le_foldl_min {g : Nat → ℚ} {c : Nat → Bool} (l : List Nat) (v z : ℚ) :
    z ≤ l.foldl (fun v j => if c j then v else min v (g j)) v ↔
      z ≤ v ∧ ∀ j ∈ l, c j = false → z ≤ g j := by
  induction l generalizing v with
  | nil => simp
  | cons j l ih =>
    rw [List.foldl_cons, ih]
    cases hc : c j with
    | true =>
      simp only [if_true]
      constructor
      · rintro ⟨h1, h2⟩
        refine ⟨h1, fun j' hj' hc' => ?_⟩
        rcases List.mem_cons.1 hj' with rfl | hj'
        · rw [hc] at hc'; cases hc'
        · exact h2 j' hj' hc'
      · rintro ⟨h1, h2⟩
        exact ⟨h1, fun j' hj' => h2 j' (List.mem_cons_of_mem _ hj')⟩
    | false =>
      simp only [Bool.false_eq_true, if_false, le_min_iff]
      constructor
      · rintro ⟨⟨h1, h3⟩, h2⟩
        refine ⟨h1, fun j' hj' hc' => ?_⟩
        rcases List.mem_cons.1 hj' with rfl | hj'
        · exact h3
        · exact h2 j' hj' hc'
      · rintro ⟨h1, h2⟩
        exact ⟨⟨h1, h2 j List.mem_cons_self hc⟩, fun j' hj' => h2 j' (List.mem_cons_of_mem _ hj')⟩

theorem foldl_max_le {g : Nat → ℚ} {c : Nat → Bool} (l : List Nat) (v z : ℚ) :
    l.foldl (fun v j => if c j then v else max v (g j)) v ≤ z ↔
      v ≤ z ∧ ∀ j ∈ l, c j = false → g j ≤ z := by
  induction l generalizing v with
  | nil => simp
  | cons j l ih =>
    rw [List.foldl_cons, ih]
    cases hc : c j with
    | true =>
      simp only [if_true]
      constructor
      · rintro ⟨h1, h2⟩
        refine ⟨h1, fun j' hj' hc' => ?_⟩
        rcases List.mem_cons.1 hj' with rfl | hj'
        · rw [hc] at hc'; cases hc'
        · exact h2 j' hj' hc'
      · rintro ⟨h1, h2⟩
        exact ⟨h1, fun j' hj' => h2 j' (List.mem_cons_of_mem _ hj')⟩
    | false =>
      simp only [Bool.false_eq_true, if_false, max_le_iff]
      constructor
      · rintro ⟨⟨h1, h3⟩, h2⟩
        refine ⟨h1, fun j' hj' hc' => ?_⟩
        rcases List.mem_cons.1 hj' with rfl | hj'
        · exact h3
        · exact h2 j' hj' hc'
      · rintro ⟨h1, h2⟩
        exact ⟨⟨h1, h2 j List.mem_cons_self hc⟩, fun j' hj' => h2 j' (List.mem_cons_of_mem _ hj')⟩

theorem le_boxLower {fl : ℚ → ℚ} {nch : Nat} {child : Nat → Nat → Nat} {center : ℚ} {start count : Nat}
    {x r lower : Nat → ℚ} {b : Nat} {z : ℚ} :
    z ≤ boxLower fl nch child center start count x r lower b ↔
      z ≤ center ∧ (∀ i ∈ List.range' start count, z ≤ fl (x i - r i)) ∧
        ∀ m < nch, child m b ≠ 0 → z ≤ lower (child m b) := by
  unfold boxLower
  have h1 := le_foldl_min (g := fun j => fl (x (start + j) - r (start + j))) (c := fun _ => false)
    (List.range count) center z
  have h2 := fun own => le_foldl_min (g := fun m => lower (child m b))
    (c := fun m => decide (child m b = 0)) (List.range nch) own z
  simp only [Bool.false_eq_true, if_false, forall_const, List.mem_range] at h1
  simp only [decide_eq_true_eq, decide_eq_false_iff_not, List.mem_range] at h2
  rw [h2, h1, and_assoc]
  apply and_congr_right
  intro _
  apply and_congr_left
  intro _
  constructor
  · intro h i hi
    rw [List.mem_range'_1] at hi
    have := h (i - start) (by omega)
    rwa [show start + (i - start) = i by omega] at this
  · intro h j hj
    exact h (start + j) (by rw [List.mem_range'_1]; omega)

theorem boxUpper_le {fl : ℚ → ℚ} {nch : Nat} {child : Nat → Nat → Nat} {center : ℚ} {start count : Nat}
    {x r upper : Nat → ℚ} {b : Nat} {z : ℚ} :
    boxUpper fl nch child center start count x r upper b ≤ z ↔
      center ≤ z ∧ (∀ i ∈ List.range' start count, fl (x i + r i) ≤ z) ∧
        ∀ m < nch, child m b ≠ 0 → upper (child m b) ≤ z := by
  unfold boxUpper
  have h1 := foldl_max_le (g := fun j => fl (x (start + j) + r (start + j))) (c := fun _ => false)
    (List.range count) center z
  have h2 := fun own => foldl_max_le (g := fun m => upper (child m b))
    (c := fun m => decide (child m b = 0)) (List.range nch) own z
  simp only [Bool.false_eq_true, if_false, forall_const, List.mem_range] at h1
  simp only [decide_eq_true_eq, decide_eq_false_iff_not, List.mem_range] at h2
  rw [h2, h1, and_assoc]
  apply and_congr_right
  intro _
  apply and_congr_left
  intro _
  constructor
  · intro h i hi
    rw [List.mem_range'_1] at hi
    have := h (i - start) (by omega)
    rwa [show start + (i - start) = i by omega] at this
  · intro h j hj
    exact h (start + j) (by rw [List.mem_range'_1]; omega)

/-- The upward sweep computes each box from its children. -/
theorem sweepUp_fix {n L : Nat} {level lstart : Nat → Nat} {f : (Nat → ℚ) → Nat → ℚ}
    (hlev : ∀ b < n, ∀ l, (lstart l ≤ b ∧ b < lstart (l + 1)) ↔ level b = l)
    (hlt : ∀ b < n, level b < L)
    (hf : ∀ b < n, ∀ v w : Nat → ℚ, (∀ c < n, level b < level c → v c = w c) → f v b = f w b)
    (arr : Nat → ℚ) (b : Nat) (hb : b < n) :
    sweepUp lstart f L arr b = f (sweepUp lstart f L arr) b := by
  have key : ∀ l arr, (∀ b < n, l ≤ level b → arr b = f arr b) →
      (∀ b < n, sweepUp lstart f l arr b = f (sweepUp lstart f l arr) b) := by
    intro l
    induction l with
    | zero => intro arr h b hb; exact h b hb (Nat.zero_le _)
    | succ l ih =>
      intro arr h
      unfold sweepUp
      apply ih
      intro b hb hl
      have hsame : f (fun b => if lstart l ≤ b ∧ b < lstart (l + 1) then f arr b else arr b) b
          = f arr b := by
        apply hf b hb
        intro c hc hlc
        rw [if_neg]
        rw [hlev c hc]
        omega
      rw [hsame]
      by_cases he : level b = l
      · rw [if_pos ((hlev b hb l).2 he)]
      · rw [if_neg (by rw [hlev b hb]; exact he)]
        exact h b hb (by omega)
  exact key L arr (fun b hb h => absurd (hlt b hb) (by omega)) b hb

section
variable {t : BoxTree}

/-- The subtree of a box is the box and the subtrees of its children. -/
theorem subtree_iff (hw : t.WF) {b c : Nat} (hb : b < t.nboxes) (hc : c < t.nboxes) :
    t.IsAncOrSelf b c ↔ c = b ∨ ∃ m < t.nch, t.child m b ≠ 0 ∧ t.IsAncOrSelf (t.child m b) c := by
  constructor
  · rintro ⟨h1, h2⟩
    rcases Nat.eq_or_lt_of_le h1 with h | h
    · left
      rw [h, t.ancAt_self] at h2
      exact h2
    · right
      have hl := hw.ancAt_lt hc (t.level b + 1)
      have hp := t.ancAt_parent h
      have h0 := hw.ancAt_ne_zero hc h (Nat.succ_pos _)
      obtain ⟨m, hm, he⟩ := hw.parent_child _ hl h0
      rw [hp, h2] at he
      refine ⟨m, hm, by rw [he]; exact h0, ?_⟩
      rw [he]
      have hlev := hw.level_ancAt hc h
      exact ⟨by rw [hlev]; exact h, by rw [hlev]⟩
  · rintro (rfl | ⟨m, hm, h0, h1, h2⟩)
    · exact ⟨le_refl _, t.ancAt_self _⟩
    · have hcl := hw.child_lt m hm b hb
      have hlev := hw.level_parent _ hcl h0
      have hp := hw.child_parent m hm b hb h0
      rw [hp] at hlev
      refine ⟨by omega, ?_⟩
      rw [← t.ancAt_parent (show t.level b < t.level c by omega), ← hlev, h2, hp]

/-- Lower and upper bounds that satisfy the recursion over the tree are tight. -/
theorem tight_of_rec (hw : t.WF) {fl : ℚ → ℚ} {ctr : Nat → Nat → ℚ} {n : Nat}
    {start own cumul : Nat → Nat} {x : Nat → Nat → ℚ} {r : Nat → ℚ}
    (hN : NestedRanges t n start own cumul) {lo hi : Nat → Nat → ℚ}
    (hlo : ∀ a, ∀ b < t.nboxes, lo b a =
      boxLower fl t.nch t.child (ctr b a) (start b) (own b) (x a) r (fun c => lo c a) b)
    (hhi : ∀ a, ∀ b < t.nboxes, hi b a =
      boxUpper fl t.nch t.child (ctr b a) (start b) (own b) (x a) r (fun c => hi c a) b) :
    TightAround t ctr start cumul (fun a i => fl (x a i - r i)) (fun a i => fl (x a i + r i))
      lo hi := by
  have hmem : ∀ b < t.nboxes, ∀ i, i ∈ span start cumul b ↔ i ∈ span start own b ∨
      ∃ m < t.nch, t.child m b ≠ 0 ∧ i ∈ span start cumul (t.child m b) := by
    intro b hb i
    rw [hN.nested b hb, List.mem_append, List.mem_flatMap]
    apply or_congr_right
    constructor
    · rintro ⟨m, hm, h⟩
      split at h
      · cases h
      · rename_i h0; exact ⟨m, List.mem_range.1 hm, h0, h⟩
    · rintro ⟨m, hm, h0, h⟩
      exact ⟨m, List.mem_range.2 hm, by rw [if_neg h0]; exact h⟩
  have hclev : ∀ b < t.nboxes, ∀ m < t.nch, t.child m b ≠ 0 →
      t.child m b < t.nboxes ∧ t.level (t.child m b) = t.level b + 1 := by
    intro b hb m hm h0
    have hcl := hw.child_lt m hm b hb
    refine ⟨hcl, ?_⟩
    rw [hw.level_parent _ hcl h0, hw.child_parent m hm b hb h0]
  have hL : ∀ (d b : Nat), b < t.nboxes → t.nlevels ≤ t.level b + d → ∀ a z, z ≤ lo b a ↔
      (∀ i ∈ span start cumul b, z ≤ fl (x a i - r i)) ∧
      (∀ c < t.nboxes, t.IsAncOrSelf b c → z ≤ ctr c a) := by
    intro d
    induction d with
    | zero => intro b hb hd; have := hw.level_lt b hb; omega
    | succ d ih =>
      intro b hb hd a z
      rw [hlo a b hb, le_boxLower]
      constructor
      · rintro ⟨h1, h2, h3⟩
        constructor
        · intro i hi'
          rcases (hmem b hb i).1 hi' with h | ⟨m, hm, h0, h⟩
          · exact h2 i h
          · obtain ⟨hcl, hlev⟩ := hclev b hb m hm h0
            exact ((ih _ hcl (by omega) a z).1 (h3 m hm h0)).1 i h
        · intro c hc hanc
          rcases (subtree_iff hw hb hc).1 hanc with rfl | ⟨m, hm, h0, h⟩
          · exact h1
          · obtain ⟨hcl, hlev⟩ := hclev b hb m hm h0
            exact ((ih _ hcl (by omega) a z).1 (h3 m hm h0)).2 c hc h
      · rintro ⟨h1, h2⟩
        refine ⟨h2 b hb ((subtree_iff hw hb hb).2 (.inl rfl)),
          fun i hi' => h1 i ((hmem b hb i).2 (.inl hi')), fun m hm h0 => ?_⟩
        obtain ⟨hcl, hlev⟩ := hclev b hb m hm h0
        exact (ih _ hcl (by omega) a z).2
          ⟨fun i hi' => h1 i ((hmem b hb i).2 (.inr ⟨m, hm, h0, hi'⟩)),
            fun c hc h => h2 c hc ((subtree_iff hw hb hc).2 (.inr ⟨m, hm, h0, h⟩))⟩
  have hU : ∀ (d b : Nat), b < t.nboxes → t.nlevels ≤ t.level b + d → ∀ a z, hi b a ≤ z ↔
      (∀ i ∈ span start cumul b, fl (x a i + r i) ≤ z) ∧
      (∀ c < t.nboxes, t.IsAncOrSelf b c → ctr c a ≤ z) := by
    intro d
    induction d with
    | zero => intro b hb hd; have := hw.level_lt b hb; omega
    | succ d ih =>
      intro b hb hd a z
      rw [hhi a b hb, boxUpper_le]
      constructor
      · rintro ⟨h1, h2, h3⟩
        constructor
        · intro i hi'
          rcases (hmem b hb i).1 hi' with h | ⟨m, hm, h0, h⟩
          · exact h2 i h
          · obtain ⟨hcl, hlev⟩ := hclev b hb m hm h0
            exact ((ih _ hcl (by omega) a z).1 (h3 m hm h0)).1 i h
        · intro c hc hanc
          rcases (subtree_iff hw hb hc).1 hanc with rfl | ⟨m, hm, h0, h⟩
          · exact h1
          · obtain ⟨hcl, hlev⟩ := hclev b hb m hm h0
            exact ((ih _ hcl (by omega) a z).1 (h3 m hm h0)).2 c hc h
      · rintro ⟨h1, h2⟩
        refine ⟨h2 b hb ((subtree_iff hw hb hb).2 (.inl rfl)),
          fun i hi' => h1 i ((hmem b hb i).2 (.inl hi')), fun m hm h0 => ?_⟩
        obtain ⟨hcl, hlev⟩ := hclev b hb m hm h0
        exact (ih _ hcl (by omega) a z).2
          ⟨fun i hi' => h1 i ((hmem b hb i).2 (.inr ⟨m, hm, h0, hi'⟩)),
            fun c hc h => h2 c hc ((subtree_iff hw hb hc).2 (.inr ⟨m, hm, h0, h⟩))⟩
  have hL' := fun b hb => hL t.nlevels b hb (by omega)
  have hU' := fun b hb => hU t.nlevels b hb (by omega)
  exact
  { contains := fun b hb a i hi' => ⟨((hL' b hb a _).1 (le_refl _)).1 i hi',
      ((hU' b hb a _).1 (le_refl _)).1 i hi'⟩
    centers := fun b hb a c hc h => ⟨((hL' b hb a _).1 (le_refl _)).2 c hc h,
      ((hU' b hb a _).1 (le_refl _)).2 c hc h⟩
    greatest := fun b hb a z h1 h2 => (hL' b hb a z).2 ⟨h1, h2⟩
    least := fun b hb a z h1 h2 => (hU' b hb a z).2 ⟨h1, h2⟩ }

end

section
variable {P : Params} {C : Cloud} {skip : Bool} {len : Nat → Nat} {L : Nat} {s : State}

theorem finish_nested (h : FinOK P skip len L s) (hpos : 0 < P.n)
    (hns : C.sourcesAreTargets = false → C.nsources ≤ P.n) :
    NestedRanges (finish P C skip len L s).tree (finish P C skip len L s).particles.nsources
      (finish P C skip len L s).particles.srcStart (finish P C skip len L s).particles.srcCount
      (finish P C skip len L s).particles.srcCumul ∧
    NestedRanges (finish P C skip len L s).tree (finish P C skip len L s).particles.ntargets
      (finish P C skip len L s).particles.tgtStart (finish P C skip len L s).particles.tgtCount
      (finish P C skip len L s).particles.tgtCumul := by
  rw [nsources_eq h hns, ntargets_eq h hns]
  exact ⟨(srcKind h).nested h.flatOK rfl rfl rfl hpos, (tgtKind h).nested h.flatOK rfl rfl rfl hpos⟩

theorem sweep_rec (h : FinOK P skip len L s) {g : Nat → ℚ → (Nat → ℚ) → Nat → ℚ} {ctr : Nat → ℚ}
    {b : Nat}
    (hg : ∀ b c v w, (∀ m < P.nch, (FinOK.fin P skip len L s).child m b ≠ 0 →
      v ((FinOK.fin P skip len L s).child m b) = w ((FinOK.fin P skip len L s).child m b)) →
      g b c v b = g b c w b)
    (hb : b < (FinOK.fin P skip len L s).nboxes) :
    let v := sweepUp (levelStart (levelCounts s.used (FinOK.fin P skip len L s)))
      (fun arr b => g b (ctr b) arr b) (L + 1) fun _ => 0
    v b = g b (ctr b) v b := by
  intro v
  apply sweepUp_fix (n := (FinOK.fin P skip len L s).nboxes) (level := (FinOK.fin P skip len L s).level)
  · exact fun b hb l => h.flatOK.mem_level s.used hb l
  · exact fun b hb => h.flatOK.level_lt b hb
  · intro b hb v w hvw
    apply hg
    intro m hm h0
    have hcl := h.flatOK.child_lt m b hb
    apply hvw _ hcl
    rw [h.flatOK.level_parent _ hcl h0, (h.flatOK.child_parent m b hb h0).1]
    omega
  · exact hb

theorem boxLower_congr {fl : ℚ → ℚ} {nch : Nat} {child : Nat → Nat → Nat} {center : ℚ} {start count : Nat}
    {x r v w : Nat → ℚ} {b : Nat} (h : ∀ m < nch, child m b ≠ 0 → v (child m b) = w (child m b)) :
    boxLower fl nch child center start count x r v b = boxLower fl nch child center start count x r w b := by
  apply eq_of_forall_le_iff
  intro z
  rw [le_boxLower, le_boxLower]
  refine and_congr_right fun _ => and_congr_right fun _ => ?_
  exact forall_congr' fun m => forall_congr' fun hm => forall_congr' fun h0 => by rw [h m hm h0]

theorem boxUpper_congr {fl : ℚ → ℚ} {nch : Nat} {child : Nat → Nat → Nat} {center : ℚ} {start count : Nat}
    {x r v w : Nat → ℚ} {b : Nat} (h : ∀ m < nch, child m b ≠ 0 → v (child m b) = w (child m b)) :
    boxUpper fl nch child center start count x r v b = boxUpper fl nch child center start count x r w b := by
  apply eq_of_forall_ge_iff
  intro z
  rw [boxUpper_le, boxUpper_le]
  refine and_congr_right fun _ => and_congr_right fun _ => ?_
  exact forall_congr' fun m => forall_congr' fun hm => forall_congr' fun h0 => by rw [h m hm h0]

/-- The level sweep for the sources, with rounding `fl` and box centers `ctr`. -/
theorem finish_tight_src_of (h : FinOK P skip len L s) (hw : (finish P C skip len L s).tree.WF)
    (hpos : 0 < P.n) (hns : C.sourcesAreTargets = false → C.nsources ≤ P.n) (fl : ℚ → ℚ)
    (ctr : Nat → Nat → ℚ) :
    TightAround (finish P C skip len L s).tree ctr (finish P C skip len L s).particles.srcStart
      (finish P C skip len L s).particles.srcCumul
      (fun a i => fl ((finish P C skip len L s).sources a i
        - (finish P C skip len L s).sourceRadii i))
      (fun a i => fl ((finish P C skip len L s).sources a i
        + (finish P C skip len L s).sourceRadii i))
      (fun b a => sweepUp (levelStart (levelCounts s.used (FinOK.fin P skip len L s)))
        (fun arr b => boxLower fl P.nch (FinOK.fin P skip len L s).child (ctr b a)
          ((finish P C skip len L s).particles.srcStart b)
          ((finish P C skip len L s).particles.srcCount b) ((finish P C skip len L s).sources a)
          (finish P C skip len L s).sourceRadii arr b) (L + 1) (fun _ => 0) b)
      (fun b a => sweepUp (levelStart (levelCounts s.used (FinOK.fin P skip len L s)))
        (fun arr b => boxUpper fl P.nch (FinOK.fin P skip len L s).child (ctr b a)
          ((finish P C skip len L s).particles.srcStart b)
          ((finish P C skip len L s).particles.srcCount b) ((finish P C skip len L s).sources a)
          (finish P C skip len L s).sourceRadii arr b) (L + 1) (fun _ => 0) b) := by
  apply tight_of_rec hw (finish_nested h hpos hns).1
  · intro a b hb
    exact sweep_rec h (ctr := fun b => ctr b a)
      (g := fun b c v => boxLower fl P.nch (FinOK.fin P skip len L s).child c
        ((finish P C skip len L s).particles.srcStart b)
        ((finish P C skip len L s).particles.srcCount b) ((finish P C skip len L s).sources a)
        (finish P C skip len L s).sourceRadii v) (fun b c v w hvw => boxLower_congr hvw) hb
  · intro a b hb
    exact sweep_rec h (ctr := fun b => ctr b a)
      (g := fun b c v => boxUpper fl P.nch (FinOK.fin P skip len L s).child c
        ((finish P C skip len L s).particles.srcStart b)
        ((finish P C skip len L s).particles.srcCount b) ((finish P C skip len L s).sources a)
        (finish P C skip len L s).sourceRadii v) (fun b c v w hvw => boxUpper_congr hvw) hb

/-- The level sweep for the targets, with rounding `fl` and box centers `ctr`. -/
theorem finish_tight_tgt_of (h : FinOK P skip len L s) (hw : (finish P C skip len L s).tree.WF)
    (hpos : 0 < P.n) (hns : C.sourcesAreTargets = false → C.nsources ≤ P.n) (fl : ℚ → ℚ)
    (ctr : Nat → Nat → ℚ) :
    TightAround (finish P C skip len L s).tree ctr (finish P C skip len L s).particles.tgtStart
      (finish P C skip len L s).particles.tgtCumul
      (fun a i => fl ((finish P C skip len L s).targets a i
        - (finish P C skip len L s).targetRadii i))
      (fun a i => fl ((finish P C skip len L s).targets a i
        + (finish P C skip len L s).targetRadii i))
      (fun b a => sweepUp (levelStart (levelCounts s.used (FinOK.fin P skip len L s)))
        (fun arr b => boxLower fl P.nch (FinOK.fin P skip len L s).child (ctr b a)
          ((finish P C skip len L s).particles.tgtStart b)
          ((finish P C skip len L s).particles.tgtCount b) ((finish P C skip len L s).targets a)
          (finish P C skip len L s).targetRadii arr b) (L + 1) (fun _ => 0) b)
      (fun b a => sweepUp (levelStart (levelCounts s.used (FinOK.fin P skip len L s)))
        (fun arr b => boxUpper fl P.nch (FinOK.fin P skip len L s).child (ctr b a)
          ((finish P C skip len L s).particles.tgtStart b)
          ((finish P C skip len L s).particles.tgtCount b) ((finish P C skip len L s).targets a)
          (finish P C skip len L s).targetRadii arr b) (L + 1) (fun _ => 0) b) := by
  apply tight_of_rec hw (finish_nested h hpos hns).2
  · intro a b hb
    exact sweep_rec h (ctr := fun b => ctr b a)
      (g := fun b c v => boxLower fl P.nch (FinOK.fin P skip len L s).child c
        ((finish P C skip len L s).particles.tgtStart b)
        ((finish P C skip len L s).particles.tgtCount b) ((finish P C skip len L s).targets a)
        (finish P C skip len L s).targetRadii v) (fun b c v w hvw => boxLower_congr hvw) hb
  · intro a b hb
    exact sweep_rec h (ctr := fun b => ctr b a)
      (g := fun b c v => boxUpper fl P.nch (FinOK.fin P skip len L s).child c
        ((finish P C skip len L s).particles.tgtStart b)
        ((finish P C skip len L s).particles.tgtCount b) ((finish P C skip len L s).targets a)
        (finish P C skip len L s).targetRadii v) (fun b c v w hvw => boxUpper_congr hvw) hb

theorem finish_tight_src (h : FinOK P skip len L s) (hw : (finish P C skip len L s).tree.WF)
    (hpos : 0 < P.n) (hns : C.sourcesAreTargets = false → C.nsources ≤ P.n) :
    TightBoxes (finish P C skip len L s).tree (finish P C skip len L s).particles.srcStart
      (finish P C skip len L s).particles.srcCumul (finish P C skip len L s).sources
      (finish P C skip len L s).sourceRadii (finish P C skip len L s).srcMin
      (finish P C skip len L s).srcMax :=
  finish_tight_src_of h hw hpos hns id _

theorem finish_tight_srcF (h : FinOK P skip len L s) (hw : (finish P C skip len L s).tree.WF)
    (hpos : 0 < P.n) (hns : C.sourcesAreTargets = false → C.nsources ≤ P.n) :
    TightAround (finish P C skip len L s).tree (finish P C skip len L s).stored
      (finish P C skip len L s).particles.srcStart (finish P C skip len L s).particles.srcCumul
      (fun a i => P.fl ((finish P C skip len L s).sources a i
        - (finish P C skip len L s).sourceRadii i))
      (fun a i => P.fl ((finish P C skip len L s).sources a i
        + (finish P C skip len L s).sourceRadii i))
      (finish P C skip len L s).srcMinF (finish P C skip len L s).srcMaxF :=
  finish_tight_src_of h hw hpos hns P.fl _

theorem finish_targets_eq (hb : C.sourcesAreTargets = true)
    (hrad : C.sourcesAreTargets = true → C.sourcesHaveExtent = C.targetsHaveExtent) :
    (finish P C skip len L s).particles.tgtStart = (finish P C skip len L s).particles.srcStart ∧
    (finish P C skip len L s).particles.tgtCumul = (finish P C skip len L s).particles.srcCumul ∧
    (finish P C skip len L s).targets = (finish P C skip len L s).sources ∧
    (finish P C skip len L s).targetRadii = (finish P C skip len L s).sourceRadii := by
  refine ⟨?_, ?_, ?_, ?_⟩
  · show (if C.sourcesAreTargets then _ else _) = if C.sourcesAreTargets then _ else _
    rw [hb]; rfl
  · show (if C.sourcesAreTargets then _ else _) = if C.sourcesAreTargets then _ else _
    rw [hb]; rfl
  · show (fun a i => C.x a ((if C.sourcesAreTargets then (_ : Nat → Nat) else _) i))
      = fun a i => C.x a ((if C.sourcesAreTargets then (_ : Nat → Nat) else _) i)
    rw [hb]; rfl
  · show (fun i => if C.targetsHaveExtent then
        C.radius ((if C.sourcesAreTargets then (_ : Nat → Nat) else _) i) else 0)
      = fun i => if C.sourcesHaveExtent then
        C.radius ((if C.sourcesAreTargets then (_ : Nat → Nat) else _) i) else 0
    rw [hrad hb, hb]; rfl

theorem finish_tight_tgt (h : FinOK P skip len L s) (hw : (finish P C skip len L s).tree.WF)
    (hpos : 0 < P.n) (hns : C.sourcesAreTargets = false → C.nsources ≤ P.n)
    (hrad : C.sourcesAreTargets = true → C.sourcesHaveExtent = C.targetsHaveExtent) :
    TightBoxes (finish P C skip len L s).tree (finish P C skip len L s).particles.tgtStart
      (finish P C skip len L s).particles.tgtCumul (finish P C skip len L s).targets
      (finish P C skip len L s).targetRadii (finish P C skip len L s).tree.tgtMin
      (finish P C skip len L s).tree.tgtMax := by
  cases hb : C.sourcesAreTargets with
  | true =>
    have hS := finish_tight_src (C := C) h hw hpos hns
    obtain ⟨e1, e2, e3, e4⟩ := finish_targets_eq (P := P) (skip := skip) (len := len) (L := L)
      (s := s) hb hrad
    have e5 : (finish P C skip len L s).tree.tgtMin = (finish P C skip len L s).srcMin := by
      funext b a
      show (if C.sourcesAreTargets then (finish P C skip len L s).srcMin b a else _) = _
      rw [hb]; rfl
    have e6 : (finish P C skip len L s).tree.tgtMax = (finish P C skip len L s).srcMax := by
      funext b a
      show (if C.sourcesAreTargets then (finish P C skip len L s).srcMax b a else _) = _
      rw [hb]; rfl
    rw [e1, e2, e3, e4, e5, e6]
    exact hS
  | false =>
    have e := finish_tight_tgt_of (C := C) h hw hpos hns id (finish P C skip len L s).tree.center
    simp only [id] at e
    convert e using 1
    · funext b a
      exact if_neg (c := C.sourcesAreTargets = true) (by rw [hb]; simp)
    · funext b a
      exact if_neg (c := C.sourcesAreTargets = true) (by rw [hb]; simp)

theorem finish_tight_tgtF (h : FinOK P skip len L s) (hw : (finish P C skip len L s).tree.WF)
    (hpos : 0 < P.n) (hns : C.sourcesAreTargets = false → C.nsources ≤ P.n)
    (hrad : C.sourcesAreTargets = true → C.sourcesHaveExtent = C.targetsHaveExtent) :
    TightAround (finish P C skip len L s).tree (finish P C skip len L s).stored
      (finish P C skip len L s).particles.tgtStart (finish P C skip len L s).particles.tgtCumul
      (fun a i => P.fl ((finish P C skip len L s).targets a i
        - (finish P C skip len L s).targetRadii i))
      (fun a i => P.fl ((finish P C skip len L s).targets a i
        + (finish P C skip len L s).targetRadii i))
      (finish P C skip len L s).tgtMinF (finish P C skip len L s).tgtMaxF := by
  cases hb : C.sourcesAreTargets with
  | true =>
    have hS := finish_tight_srcF (C := C) h hw hpos hns
    obtain ⟨e1, e2, e3, e4⟩ := finish_targets_eq (P := P) (skip := skip) (len := len) (L := L)
      (s := s) hb hrad
    have e5 : (finish P C skip len L s).tgtMinF = (finish P C skip len L s).srcMinF := by
      funext b a
      show (if C.sourcesAreTargets then (finish P C skip len L s).srcMinF b a else _) = _
      rw [hb]; rfl
    have e6 : (finish P C skip len L s).tgtMaxF = (finish P C skip len L s).srcMaxF := by
      funext b a
      show (if C.sourcesAreTargets then (finish P C skip len L s).srcMaxF b a else _) = _
      rw [hb]; rfl
    rw [e1, e2, e3, e4, e5, e6]
    exact hS
  | false =>
    have e := finish_tight_tgt_of (C := C) h hw hpos hns P.fl (finish P C skip len L s).stored
    convert e using 1
    · funext b a
      exact if_neg (c := C.sourcesAreTargets = true) (by rw [hb]; simp)
    · funext b a
      exact if_neg (c := C.sourcesAreTargets = true) (by rw [hb]; simp)

end
end Boxtree.Build
