import Verif.Spec.BuildArgs
import Mathlib.Tactic.Linarith
import Mathlib.Tactic.NormNum

/-!
# C50: arguments of the tree builder
-/

namespace Boxtree.Build

theorem singleValued_ok {A : Type} [DecidableEq A] (l : List A) (v : A) :
    singleValued l = .ok v ↔ l ≠ [] ∧ ∀ x ∈ l, x = v := by
  cases l with
  | nil => simp [singleValued]
  | cons a l =>
    change (if _ then _ else _) = _ ↔ _
    split
    · next h =>
      rw [List.all_eq_true] at h
      simp only [Except.ok.injEq]
      constructor
      · rintro rfl
        refine ⟨by simp, ?_⟩
        intro x hx
        rcases List.mem_cons.1 hx with rfl | hx
        · rfl
        · simpa using h x hx
      · rintro ⟨-, h⟩; exact h a (by simp)
    · next h =>
      simp only [reduceCtorEq, false_iff, not_and]
      intro _ h'
      apply h
      rw [List.all_eq_true]
      intro x hx
      rw [decide_eq_true_iff, h' x (by simp [hx]), h' a (by simp)]

theorem uniform_iff (l : List Arr) (dtype : String) (n : Nat) :
    Uniform l dtype n ↔
      singleValued (l.map Arr.dtype) = .ok dtype ∧ singleValued (l.map Arr.len) = .ok n := by
  rw [singleValued_ok, singleValued_ok]
  unfold Uniform
  simp only [ne_eq, List.map_eq_nil_iff, List.forall_mem_map]
  constructor
  · rintro ⟨h1, h2⟩; exact ⟨⟨h1, fun a ha => (h2 a ha).1⟩, h1, fun a ha => (h2 a ha).2⟩
  · rintro ⟨⟨h1, h2⟩, -, h3⟩; exact ⟨h1, fun a ha => ⟨h2 a ha, h3 a ha⟩⟩

theorem checkRadii_ok (r : Option (String × List Nat)) (n : Nat) (dtype : String) :
    checkRadii r n dtype = .ok () ↔ r = none ∨ r = some (dtype, [n]) := by
  unfold checkRadii
  match r with
  | none => simp
  | some (dt, shape) =>
    by_cases h1 : shape = [n] <;> by_cases h2 : dt = dtype <;> simp [h1, h2]

theorem bind_ok {A B : Type} (x : Except String A) (f : A → Except String B) (b : B) :
    (x >>= f) = .ok b ↔ ∃ a, x = .ok a ∧ f a = .ok b := by
  cases x <;> simp [bind, Except.bind]

theorem pure_ok {A : Type} (a b : A) : (pure a : Except String A) = .ok b ↔ a = b := by
  simp [pure, Except.pure]

/-- **C50.** The checks of kind, norm, dtypes, shapes, radii and targets pass exactly if the
documented conditions hold. -/
theorem C50_shapes_checked (a : Args) (ns nt : Nat) (dtype : String) :
    (∃ norm sof, checkShapes a = .ok (norm, ns, nt, dtype, sof) ∧
      checkTargets a (if a.targets.isNone then ns else ns + nt) dtype = .ok ()) ↔
    a.Shapes ns nt dtype := by
  unfold checkShapes checkTargets
  constructor
  · rintro ⟨norm, sof, h1, h2⟩
    split at h1
    · simp at h1
    next hk =>
    dsimp only at h1
    split at h1
    · simp at h1
    next hn =>
    split at h1
    · simp at h1
    next hr =>
    simp only [bind_ok, pure_ok] at h1
    obtain ⟨dt, hdt, ns', hns, nt', hnt, ⟨⟩, hsr, ⟨⟩, htr, s, hs, heq⟩ := h1
    simp only [Prod.mk.injEq] at heq
    obtain ⟨-, rfl, rfl, rfl, -⟩ := heq
    have hpart : Uniform a.particles dt ns' := (uniform_iff _ _ _).2 ⟨hdt, hns⟩
    have htg : (match a.targets with
        | none => nt' = 0
        | some t => Uniform t dt nt' ∧ t.length = a.particles.length) ∧ ns' + nt' ≠ 0 := by
      cases ht : a.targets with
      | none =>
        rw [countTargets, ht] at hnt
        rw [ht] at h2
        simp only [Except.ok.injEq] at hnt
        subst hnt
        simp only [Option.isNone_none, if_true] at h2
        refine ⟨rfl, ?_⟩
        intro h0
        simp only [Nat.add_zero] at h0
        simp [h0] at h2
      | some t =>
        rw [countTargets, ht] at hnt
        rw [ht] at h2
        simp only [bind_ok] at h2
        obtain ⟨td, htd, h2⟩ := h2
        simp only [Option.isNone_some, Bool.false_eq_true, if_false] at h2
        split at h2
        · simp at h2
        next h3 =>
        split at h2
        · simp at h2
        next h4 =>
        split at h2
        · simp at h2
        next h5 =>
        push Not at h3 h4
        subst h3
        refine ⟨⟨(uniform_iff _ _ _).2 ⟨htd, hnt⟩, h4⟩, ?_⟩
        simpa using h5
    refine ⟨by simpa using not_not.1 hk, ?_, hpart, htg.1, ?_, (checkRadii_ok _ _ _).1 hsr,
      (checkRadii_ok _ _ _).1 htr, htg.2⟩
    · cases he : a.extentNorm with
      | none => simp
      | some v => rw [he] at hn; simpa using not_not.1 hn
    · intro hrad
      have hsome : (a.sourceRadii.isSome || a.targetRadii.isSome) = true := by
        simpa [Option.isSome_iff_ne_none] using hrad
      rw [hsome] at hr
      rw [stickOut, if_pos hsome] at hs
      refine ⟨?_, ?_⟩
      · intro h0; rw [h0] at hr; simp at hr
      · intro h0; rw [h0] at hs; simp at hs
  · intro h
    have hp := (uniform_iff _ _ _).1 h.particles
    have hk : ¬ (a.kind ∉ ["adaptive", "adaptive-level-restricted", "non-adaptive"]) := by
      rw [not_not]; simpa using h.kind
    have hn : ¬ (a.extentNorm.getD "linf" ∉ ["linf", "l2"]) := by
      rcases h.norm with h | h | h <;> simp [h]
    have hr : ¬ ((a.sourceRadii.isSome || a.targetRadii.isSome) && a.targets.isNone) = true := by
      intro h0
      simp only [Bool.and_eq_true, Bool.or_eq_true, Option.isSome_iff_ne_none,
        Option.isNone_iff_eq_none] at h0
      exact (h.radii h0.1).1 h0.2
    have hs : ∃ s, stickOut a (a.sourceRadii.isSome || a.targetRadii.isSome) = .ok s := by
      unfold stickOut
      split
      · next h0 =>
        simp only [Bool.or_eq_true, Option.isSome_iff_ne_none] at h0
        obtain ⟨s, hs⟩ := Option.ne_none_iff_exists'.1 (h.radii h0).2
        rw [hs]; exact ⟨s, rfl⟩
      · exact ⟨0, rfl⟩
    obtain ⟨s, hs⟩ := hs
    have htg := h.targets
    have h0 := h.nonempty
    refine ⟨if (a.sourceRadii.isSome || a.targetRadii.isSome) = true then
      some (a.extentNorm.getD "linf") else none, s, ?_, ?_⟩
    · rw [if_neg hk]
      dsimp only
      rw [if_neg hn, if_neg hr]
      simp only [bind_ok, pure_ok]
      refine ⟨dtype, hp.1, ns, hp.2, nt, ?_, (), (checkRadii_ok _ _ _).2 h.sourceRadii, (),
        (checkRadii_ok _ _ _).2 h.targetRadii, s, hs, rfl⟩
      unfold countTargets
      cases ht : a.targets with
      | none => rw [ht] at htg; simp only at htg; simp [htg]
      | some t => rw [ht] at htg; exact ((uniform_iff _ _ _).1 htg.1).2
    · cases ht : a.targets with
      | none =>
        rw [ht] at htg
        simp only at htg
        subst htg
        simp only [Option.isNone_none, if_true]
        rw [if_neg (by simpa using h0)]
      | some t =>
        rw [ht] at htg
        simp only [bind_ok]
        refine ⟨dtype, ((uniform_iff _ _ _).1 htg.1).1, ?_⟩
        rw [if_neg (by simp), if_neg (by simpa using htg.2), if_neg (by simpa using h0)]

/-- The checks of the weights pass exactly if the limit is given by `max_particles_in_box` alone
or accompanied by only one of `refine_weights` and `max_leaf_refine_weight`, or by the latter two
alone. -/
theorem checkWeights_ok (a : Args) (n : Nat) (hn : n ≠ 0) (w : List ℤ) (m : ℚ) :
    checkWeights a n = .ok (w, m) ↔
      (a.maxParticlesInBox = some m ∧ (a.refineWeights = none ∨ a.maxLeafRefineWeight = none) ∧
        w = List.replicate n 1 ∧ 1 ≤ m) ∨
      (a.maxParticlesInBox = none ∧ a.refineWeights = some ("int32", w) ∧
        a.maxLeafRefineWeight = some m ∧ w ≠ [] ∧ 0 < m ∧ ∀ x ∈ w, 0 ≤ x ∧ (x : ℚ) ≤ m) := by
  have tail : ∀ (w' : List ℤ) (m' : ℚ),
      ((if m' ≤ 0 then .error "ValueError"
        else if w' = [] then .error "ValueError"
        else if w'.any (fun x => decide (m' < x)) then .error "ValueError"
        else if w'.any (fun x => decide (x < 0)) then .error "ValueError"
        else pure (w', m') : Except String (List ℤ × ℚ)) = .ok (w, m)) ↔
      w' = w ∧ m' = m ∧ w' ≠ [] ∧ 0 < m' ∧ ∀ x ∈ w', 0 ≤ x ∧ (x : ℚ) ≤ m' := by
    intro w' m'
    by_cases h1 : m' ≤ 0
    · simp [h1]
    · by_cases h2 : w' = []
      · simp [h2]
      · by_cases h3 : w'.any (fun x => decide (m' < x)) = true
        · rw [if_neg h1, if_neg h2, if_pos h3]
          simp only [reduceCtorEq, false_iff]
          rintro ⟨-, -, -, -, h⟩
          rw [List.any_eq_true] at h3
          obtain ⟨x, hx, hlt⟩ := h3
          exact absurd (h x hx).2 (not_le.2 (by simpa using hlt))
        · by_cases h4 : w'.any (fun x => decide (x < 0)) = true
          · rw [if_neg h1, if_neg h2, if_neg h3, if_pos h4]
            simp only [reduceCtorEq, false_iff]
            rintro ⟨-, -, -, -, h⟩
            rw [List.any_eq_true] at h4
            obtain ⟨x, hx, hlt⟩ := h4
            exact absurd (h x hx).1 (not_le.2 (by simpa using hlt))
          · rw [if_neg h1, if_neg h2, if_neg h3, if_neg h4, pure_ok]
            simp only [Prod.mk.injEq]
            constructor
            · rintro ⟨rfl, rfl⟩
              refine ⟨rfl, rfl, h2, lt_of_not_ge h1, ?_⟩
              intro x hx
              refine ⟨?_, ?_⟩
              · by_contra hc
                exact h4 (List.any_eq_true.2 ⟨x, hx, by simpa using hc⟩)
              · by_contra hc
                exact h3 (List.any_eq_true.2 ⟨x, hx, by simpa using hc⟩)
            · rintro ⟨rfl, rfl, -⟩; exact ⟨rfl, rfl⟩
  have hrep : ∀ m' : ℚ, (List.replicate n (1 : ℤ) ≠ [] ∧ 0 < m' ∧
      ∀ x ∈ List.replicate n (1 : ℤ), 0 ≤ x ∧ (x : ℚ) ≤ m') ↔ 1 ≤ m' := by
    intro m'
    simp only [ne_eq, List.replicate_eq_nil_iff, hn, not_false_eq_true, true_and,
      List.mem_replicate]
    constructor
    · rintro ⟨-, h⟩
      have := (h 1 rfl).2
      simpa using this
    · intro h
      refine ⟨lt_of_lt_of_le one_pos h, ?_⟩
      rintro x rfl
      exact ⟨by decide, by simpa using h⟩
  unfold checkWeights
  cases hmp : a.maxParticlesInBox with
  | some m₀ =>
    have key : (a.refineWeights = none ∨ a.maxLeafRefineWeight = none) →
        (((Except.ok (List.replicate n (1 : ℤ), m₀) : Except String (List ℤ × ℚ)) >>= fun p =>
          (if p.2 ≤ 0 then .error "ValueError"
          else if p.1 = [] then .error "ValueError"
          else if p.1.any (fun x => decide (p.2 < x)) then .error "ValueError"
          else if p.1.any (fun x => decide (x < 0)) then .error "ValueError"
          else pure (p.1, p.2) : Except String (List ℤ × ℚ))) = .ok (w, m) ↔
        (some m₀ = some m ∧ (a.refineWeights = none ∨ a.maxLeafRefineWeight = none) ∧
          w = List.replicate n 1 ∧ 1 ≤ m)) := by
      intro hor
      rw [bind_ok]
      constructor
      · rintro ⟨p, hp, hv⟩
        simp only [Except.ok.injEq] at hp
        subst hp
        obtain ⟨h1, h2, h3⟩ := (tail _ _).1 hv
        subst h2
        exact ⟨rfl, hor, h1.symm, (hrep _).1 h3⟩
      · rintro ⟨hm, -, hw, h1⟩
        have hm := Option.some.inj hm
        subst hm
        exact ⟨_, rfl, (tail _ _).2 ⟨hw.symm, rfl, (hrep _).2 h1⟩⟩
    cases hrw : a.refineWeights with
    | some v =>
      cases hml : a.maxLeafRefineWeight with
      | some v' => simp [bind, Except.bind]
      | none =>
        rw [hrw, hml] at key
        simpa using key (Or.inr rfl)
    | none =>
      rw [hrw] at key
      simpa using key (Or.inl rfl)
  | none =>
    cases hrw : a.refineWeights with
    | none => simp [bind, Except.bind]
    | some v =>
      obtain ⟨dt, w'⟩ := v
      cases hml : a.maxLeafRefineWeight with
      | none => simp [bind, Except.bind]
      | some m₀ =>
        by_cases hdt : dt = "int32"
        · subst hdt
          simp only [ne_eq, not_true_eq_false, if_false, reduceCtorEq, false_and, false_or,
            true_and, Option.some.injEq, Prod.mk.injEq]
          rw [bind_ok]
          constructor
          · rintro ⟨p, hp, hv⟩
            simp only [Except.ok.injEq] at hp
            subst hp
            obtain ⟨h1, h2, h3⟩ := (tail _ _).1 hv
            subst h1; subst h2
            exact ⟨rfl, rfl, h3⟩
          · rintro ⟨rfl, rfl, h3⟩
            exact ⟨_, rfl, (tail _ _).2 ⟨rfl, rfl, h3⟩⟩
        · simp [bind, Except.bind, hdt]

/-- **C50.** Arguments that meet the documented conditions are accepted, with the given limit; with
`max_particles_in_box` every particle has weight one. -/
theorem C50_documented_accepted (a : Args) (ns nt : Nat) (dtype : String)
    (h : a.Shapes ns nt dtype) (hl : a.Limit (ns + nt)) :
    ∃ c, check a = .ok c ∧ c.nsources = ns ∧ c.ntargets = nt ∧ c.coordDtype = dtype ∧
      ((a.maxParticlesInBox = some c.maxLeafRefineWeight ∧
          c.refineWeights = List.replicate (ns + nt) 1) ∨
        (a.maxLeafRefineWeight = some c.maxLeafRefineWeight ∧
          a.refineWeights = some ("int32", c.refineWeights))) := by
  obtain ⟨norm, sof, h1, h2⟩ := (C50_shapes_checked a ns nt dtype).2 h
  have hn : (if a.targets.isNone then ns else ns + nt) = ns + nt := by
    have := h.targets
    cases ht : a.targets with
    | none => rw [ht] at this; simp only at this; simp [this]
    | some t => simp
  rw [hn] at h2
  have h0 := h.nonempty
  rcases hl with ⟨m, hm, hw, hml, h1m⟩ | ⟨w, m, hm, hw, hml, hlen, hpos, hall⟩
  · refine ⟨⟨norm, ns, nt, dtype, sof, List.replicate (ns + nt) 1, m⟩, ?_, rfl, rfl, rfl,
      Or.inl ⟨hm, rfl⟩⟩
    unfold check
    simp only [bind_ok, pure_ok]
    refine ⟨_, h1, ?_⟩
    simp only [hn]
    exact ⟨(), h2, (_, _), (checkWeights_ok a _ h0 _ _).2
      (Or.inl ⟨hm, Or.inl hw, rfl, h1m⟩), rfl⟩
  · refine ⟨⟨norm, ns, nt, dtype, sof, w, m⟩, ?_, rfl, rfl, rfl, Or.inr ⟨hml, hw⟩⟩
    unfold check
    simp only [bind_ok, pure_ok]
    refine ⟨_, h1, ?_⟩
    simp only [hn]
    refine ⟨(), h2, (_, _), (checkWeights_ok a _ h0 _ _).2
      (Or.inr ⟨hm, hw, hml, ?_, hpos, hall⟩), rfl⟩
    rintro rfl
    exact h0 (by simpa using hlen.symm)

/-- Norm and stick-out factor after the checks. -/
theorem check_extent {a : Args} {k : Checked} (h : check a = .ok k) :
    ((a.sourceRadii.isSome || a.targetRadii.isSome) = true →
      k.extentNorm = some (a.extentNorm.getD "linf") ∧ a.stickOutFactor = some k.stickOutFactor) := by
  intro he
  unfold check at h
  simp only [bind_ok, pure_ok] at h
  obtain ⟨⟨norm, ns, nt, dtype, sof⟩, h1, h⟩ := h
  simp only at h
  obtain ⟨⟨⟩, h2, ⟨w, m⟩, h3, rfl⟩ := h
  unfold checkShapes at h1
  dsimp only at h1
  rw [he] at h1
  split at h1
  · cases h1
  split at h1
  · cases h1
  split at h1
  · cases h1
  simp only [bind_ok, pure_ok] at h1
  obtain ⟨_, _, _, _, _, _, _, _, _, _, s, hs, h1⟩ := h1
  simp only [Prod.mk.injEq, if_true] at h1
  obtain ⟨rfl, _, _, _, rfl⟩ := h1
  refine ⟨rfl, ?_⟩
  unfold stickOut at hs
  rw [if_pos rfl] at hs
  split at hs
  · cases hs
  · rename_i e
    cases hs
    exact e

/-- **C50.** Arguments that violate a documented condition are rejected, unless the violation is
one of: `max_particles_in_box` together with only one of `refine_weights` and
`max_leaf_refine_weight`, or refine weights of a wrong length. -/
theorem C50_undocumented_rejected_partial (a : Args) (c : Checked) (h : check a = .ok c)
    (hmix : a.maxParticlesInBox ≠ none → a.refineWeights = none ∧ a.maxLeafRefineWeight = none)
    (hlen : ∀ dt w, a.refineWeights = some (dt, w) → w.length = c.nsources + c.ntargets) :
    a.Shapes c.nsources c.ntargets c.coordDtype ∧ a.Limit (c.nsources + c.ntargets) := by
  unfold check at h
  simp only [bind_ok, pure_ok] at h
  obtain ⟨⟨norm, ns, nt, dtype, sof⟩, h1, h⟩ := h
  simp only at h
  obtain ⟨⟨⟩, h2, ⟨w, m⟩, h3, rfl⟩ := h
  have hs := (C50_shapes_checked a ns nt dtype).1 ⟨norm, sof, h1, h2⟩
  refine ⟨hs, ?_⟩
  have hn : (if a.targets.isNone then ns else ns + nt) = ns + nt := by
    have := hs.targets
    cases ht : a.targets with
    | none => rw [ht] at this; simp only at this; simp [this]
    | some t => simp
  rw [hn] at h3
  rcases (checkWeights_ok a _ hs.nonempty _ _).1 h3 with
    ⟨h4, -, -, h5⟩ | ⟨h4, h5, h6, -, h8, h9⟩
  · obtain ⟨h6, h7⟩ := hmix (by simp [h4])
    exact Or.inl ⟨m, h4, h6, h7, h5⟩
  · exact Or.inr ⟨w, m, h4, h5, h6, hlen _ _ h5, h8, h9⟩

/-- Five sources and two targets with radii in two dimensions. -/
def Ex.exArgs : Args where
  particles := [⟨"float64", 5⟩, ⟨"float64", 5⟩]
  kind := "adaptive"
  maxParticlesInBox := some 2
  targets := some [⟨"float64", 2⟩, ⟨"float64", 2⟩]
  sourceRadii := none
  targetRadii := some ("float64", [2])
  stickOutFactor := some (1 / 4)
  refineWeights := none
  maxLeafRefineWeight := none
  extentNorm := some "l2"

example : Ex.exArgs.Shapes 5 2 "float64" ∧ Ex.exArgs.Limit 7 := by
  refine ⟨⟨by decide, by decide, by simp [Uniform, Ex.exArgs], by simp [Uniform, Ex.exArgs],
    by simp [Ex.exArgs], by simp [Ex.exArgs], by simp [Ex.exArgs], by decide⟩,
    Or.inl ⟨2, rfl, rfl, rfl, by norm_num⟩⟩

example : check Ex.exArgs = .ok ⟨some "l2", 5, 2, "float64", 1 / 4, List.replicate 7 1, 2⟩ := by
  decide +kernel

/-- **C50**, what is missing: the docstring says that with `max_particles_in_box` both
`refine_weights` and `max_leaf_refine_weight` must be `None`, and that `refine_weights` needs
`max_leaf_refine_weight`.  Weights without a limit are silently ignored if
`max_particles_in_box` is given. -/
theorem C50_mixed_limit_accepted :
    check { Ex.exArgs with refineWeights := some ("int32", [9, 9, 9, 9, 9, 9, 9]) } =
      .ok ⟨some "l2", 5, 2, "float64", 1 / 4, List.replicate 7 1, 2⟩ ∧
    check { Ex.exArgs with maxLeafRefineWeight := some (-3) } =
      .ok ⟨some "l2", 5, 2, "float64", 1 / 4, List.replicate 7 1, 2⟩ := by
  decide +kernel

/-- **C50**, what is missing: the number of refine weights is not checked. -/
theorem C50_weight_count_unchecked :
    check { Ex.exArgs with
        maxParticlesInBox := none
        refineWeights := some ("int32", [1])
        maxLeafRefineWeight := some 3 } =
      .ok ⟨some "l2", 5, 2, "float64", 1 / 4, [1], 3⟩ := by
  decide +kernel

/-! ### Bounding box -/

theorem autoBox_mem (fl : ℚ → ℚ) (x r : Nat → ℚ) (n i : Nat) (hi : i ≤ n) :
    (autoBox fl x r n).1 ≤ fl (x i - r i) ∧ fl (x i + r i) ≤ (autoBox fl x r n).2 := by
  induction n with
  | zero => obtain rfl : i = 0 := by omega
            exact ⟨le_refl _, le_refl _⟩
  | succ n ih =>
    unfold autoBox
    rcases Nat.lt_or_ge i (n + 1) with h | h
    · have := ih (by omega)
      exact ⟨le_trans (min_le_left _ _) this.1, le_trans this.2 (le_max_left _ _)⟩
    · obtain rfl : i = n + 1 := by omega
      exact ⟨min_le_right _ _, le_max_right _ _⟩

theorem autoBox_mem_id (x r : Nat → ℚ) (n i : Nat) (hi : i ≤ n) :
    (autoBox id x r n).1 ≤ x i - r i ∧ x i + r i ≤ (autoBox id x r n).2 := autoBox_mem id x r n i hi

theorem autoBox_tight (fl : ℚ → ℚ) (x r : Nat → ℚ) (n : Nat) (lo hi : ℚ)
    (h : ∀ i ≤ n, lo ≤ fl (x i - r i) ∧ fl (x i + r i) ≤ hi) :
    lo ≤ (autoBox fl x r n).1 ∧ (autoBox fl x r n).2 ≤ hi := by
  induction n with
  | zero => exact h 0 (le_refl _)
  | succ n ih =>
    have := ih fun i hi => h i (by omega)
    have h1 := h (n + 1) (le_refl _)
    exact ⟨le_min this.1 h1.1, max_le this.2 h1.2⟩

theorem autoBox_attained (fl : ℚ → ℚ) (x r : Nat → ℚ) (n : Nat) :
    (∃ i ≤ n, (autoBox fl x r n).1 = fl (x i - r i)) ∧ ∃ i ≤ n, (autoBox fl x r n).2 = fl (x i + r i) := by
  induction n with
  | zero => exact ⟨⟨0, le_refl _, rfl⟩, ⟨0, le_refl _, rfl⟩⟩
  | succ n ih =>
    obtain ⟨⟨i, hi, h1⟩, ⟨j, hj, h2⟩⟩ := ih
    unfold autoBox
    constructor
    · rcases min_choice (autoBox fl x r n).1 (fl (x (n + 1) - r (n + 1))) with h | h
      · exact ⟨i, by omega, h.trans h1⟩
      · exact ⟨n + 1, le_refl _, h⟩
    · rcases max_choice (autoBox fl x r n).2 (fl (x (n + 1) + r (n + 1))) with h | h
      · exact ⟨j, by omega, h.trans h2⟩
      · exact ⟨n + 1, le_refl _, h⟩

theorem maxUpto_attained (f : Nat → ℚ) (n : Nat) : ∃ i ≤ n, maxUpto f n = f i := by
  induction n with
  | zero => exact ⟨0, le_refl _, rfl⟩
  | succ n ih =>
    obtain ⟨i, hi, h1⟩ := ih
    unfold maxUpto
    rcases max_choice (maxUpto f n) (f (n + 1)) with h | h
    · exact ⟨i, by omega, h.trans h1⟩
    · exact ⟨n + 1, le_refl _, h⟩

theorem le_maxUpto (f : Nat → ℚ) (n i : Nat) (hi : i ≤ n) : f i ≤ maxUpto f n := by
  induction n with
  | zero => obtain rfl : i = 0 := by omega
            exact le_refl _
  | succ n ih =>
    unfold maxUpto
    rcases Nat.lt_or_ge i (n + 1) with h | h
    · exact le_trans (ih (by omega)) (le_max_left _ _)
    · obtain rfl : i = n + 1 := by omega
      exact le_max_right _ _

/-- **C50**, automatic bounding box: it always exists; every particle with its radius lies in it,
strictly below the upper end unless all particles coincide in a point; its lower corner is tight. -/
theorem C50_auto_bbox (d n : Nat) (x : Nat → Nat → ℚ) (r : Nat → ℚ) (hr : ∀ i ≤ n, 0 ≤ r i) :
    ∃ b, rootBox id d n x r none = .ok b ∧ 0 ≤ b.ext ∧
      (∀ a ≤ d, ∀ i ≤ n, b.lo a ≤ x a i - r i ∧ x a i + r i ≤ b.lo a + b.ext ∧
        (0 < b.ext → x a i + r i < b.lo a + b.ext)) ∧
      (∀ a ≤ d, ∀ v, (∀ i ≤ n, v ≤ x a i - r i) → v ≤ b.lo a) ∧
      (b.ext = 0 → ∀ a ≤ d, ∀ i ≤ n, ∀ j ≤ n, x a i = x a j ∧ r i = 0) := by
  refine ⟨_, rfl, ?_⟩
  dsimp only [id]
  generalize hM : maxUpto (fun a => (autoBox id (x a) r n).2 - (autoBox id (x a) r n).1) d = M
  have hst : (0 : ℚ) < 1 + stretch := by unfold stretch; norm_num
  have hst1 : (1 : ℚ) < 1 + stretch := by unfold stretch; norm_num
  have hle : ∀ a ≤ d, (autoBox id (x a) r n).2 - (autoBox id (x a) r n).1 ≤ M := by
    intro a ha
    rw [← hM]
    exact le_maxUpto (fun a => (autoBox id (x a) r n).2 - (autoBox id (x a) r n).1) d a ha
  have hM0 : 0 ≤ M := by
    have h1 := hle 0 (Nat.zero_le _)
    have h2 := autoBox_mem_id (x 0) r n 0 (Nat.zero_le _)
    have h3 := hr 0 (Nat.zero_le _)
    linarith [h2.1, h2.2]
  have hMe : M ≤ M * (1 + stretch) := le_mul_of_one_le_right hM0 hst1.le
  refine ⟨mul_nonneg hM0 hst.le, ?_, ?_, ?_⟩
  · intro a ha i hi
    have h1 := hle a ha
    have h2 := autoBox_mem_id (x a) r n i hi
    refine ⟨h2.1, by linarith [h2.2], ?_⟩
    intro hpos
    have hMp : 0 < M := by
      rcases lt_or_eq_of_le hM0 with h | h
      · exact h
      · rw [← h] at hpos; simp at hpos
    have : M < M * (1 + stretch) := lt_mul_of_one_lt_right hMp hst1
    linarith [h2.2]
  · intro a ha v hv
    refine (autoBox_tight id (x a) r n v (maxUpto (fun i => x a i + r i) n) ?_).1
    intro i hi
    exact ⟨hv i hi, le_maxUpto (fun i => x a i + r i) n i hi⟩
  · intro h0 a ha i hi j hj
    have hz : M = 0 := by
      rcases mul_eq_zero.1 h0 with h | h
      · exact h
      · exact absurd h hst.ne'
    have h1 := hle a ha
    have h2 := autoBox_mem_id (x a) r n i hi
    have h3 := autoBox_mem_id (x a) r n j hj
    have h4 := hr i hi
    have h5 := hr j hj
    constructor
    · linarith [h2.1, h2.2, h3.1, h3.2]
    · linarith [h2.1, h2.2]

/-- **C50**, given bounding box: accepted exactly if it has one row per axis, its sides are
nonempty and cover all particles with their radii, and all sides are equally long up to `1e-15`, all
after rounding with `fl` (`id` without rounding). -/
theorem C50_given_bbox (fl : ℚ → ℚ) (d n : Nat) (x : Nat → Nat → ℚ) (r : Nat → ℚ) (b : List (ℚ × ℚ)) :
    (∃ root, rootBox fl d n x r (some b) = .ok root) ↔
      b.length = d + 1 ∧
      (∀ a ≤ d, fl (b.getD a 0).1 < fl (b.getD a 0).2) ∧
      (∀ a ≤ d, ∀ i ≤ n, fl (b.getD a 0).1 ≤ fl (x a i - r i) ∧ fl (x a i + r i) ≤ fl (b.getD a 0).2) ∧
      (∀ a ≤ d, |fl (fl (fl (b.getD a 0).2 - fl (b.getD a 0).1) - fl (fl (b.getD 0 0).2 - fl (b.getD 0 0).1))|
        < fl (1 / 10 ^ 15)) := by
  unfold rootBox
  dsimp only
  by_cases h1 : b.length = d + 1
  · rw [if_neg (by simpa using h1)]
    by_cases h2 : ∀ a ≤ d, fl (b.getD a 0).1 < fl (b.getD a 0).2 ∧
        fl (b.getD a 0).1 ≤ (autoBox fl (x a) r n).1 ∧ (autoBox fl (x a) r n).2 ≤ fl (b.getD a 0).2
    · rw [if_neg]
      · by_cases h3 : ∀ a ≤ d, |fl (fl (fl (b.getD a 0).2 - fl (b.getD a 0).1) -
            fl (fl (b.getD 0 0).2 - fl (b.getD 0 0).1))| < fl (1 / 10 ^ 15)
        · rw [if_neg]
          · refine ⟨fun _ => ⟨h1, fun a ha => (h2 a ha).1, ?_, h3⟩, fun _ => ⟨_, rfl⟩⟩
            intro a ha i hi
            have := autoBox_mem fl (x a) r n i hi
            exact ⟨le_trans (h2 a ha).2.1 this.1, le_trans this.2 (h2 a ha).2.2⟩
          · rw [List.any_eq_true]
            rintro ⟨a, ha, h⟩
            rw [List.mem_range] at ha
            have h3 := h3 a (by omega)
            rw [Bool.not_eq_true', decide_eq_false_iff_not] at h
            exact h h3
        · rw [if_pos]
          · simp only [reduceCtorEq, exists_false, false_iff]
            rintro ⟨-, -, -, h⟩
            exact h3 h
          · push Not at h3
            obtain ⟨a, ha, h⟩ := h3
            rw [List.any_eq_true]
            refine ⟨a, List.mem_range.2 (by omega), ?_⟩
            rw [Bool.not_eq_true', decide_eq_false_iff_not]
            exact not_lt.2 h
      · rw [List.any_eq_true]
        rintro ⟨a, ha, h⟩
        rw [List.mem_range] at ha
        obtain ⟨h3, h4, h5⟩ := h2 a (by omega)
        rw [Bool.not_eq_true', decide_eq_true h3, decide_eq_true h4, decide_eq_true h5] at h
        simp at h
    · rw [if_pos]
      · simp only [reduceCtorEq, exists_false, false_iff]
        rintro ⟨-, h3, h4, -⟩
        apply h2
        intro a ha
        exact ⟨h3 a ha, autoBox_tight _ _ _ _ _ _ (h4 a ha)⟩
      · push Not at h2
        obtain ⟨a, ha, h⟩ := h2
        rw [List.any_eq_true]
        refine ⟨a, List.mem_range.2 (by omega), ?_⟩
        rw [Bool.not_eq_true', Bool.eq_false_iff]
        intro hc
        simp only [Bool.and_eq_true, decide_eq_true_iff] at hc
        exact absurd hc.2 (not_le.2 (h hc.1.1 hc.1.2))
  · rw [if_pos (by simpa using h1)]
    simp [h1]

/-- **C50**, given bounding box: for an exactly square box the root box is the given one, so it
contains all particles with their radii. -/
theorem C50_given_square_bbox (d n : Nat) (x : Nat → Nat → ℚ) (r : Nat → ℚ) (b : List (ℚ × ℚ))
    (root : Root) (h : rootBox id d n x r (some b) = .ok root)
    (hsq : ∀ a ≤ d, (b.getD a 0).2 - (b.getD a 0).1 = (b.getD 0 0).2 - (b.getD 0 0).1) :
    (∀ a ≤ d, root.lo a = (b.getD a 0).1 ∧ root.lo a + root.ext = (b.getD a 0).2) ∧
    ∀ a ≤ d, ∀ i ≤ n, root.lo a ≤ x a i - r i ∧ x a i + r i ≤ root.lo a + root.ext := by
  have hc := ((C50_given_bbox id d n x r b).1 ⟨root, h⟩).2.2.1
  unfold rootBox at h
  dsimp only [id] at h
  split at h
  · simp at h
  split at h
  · simp at h
  split at h
  · simp at h
  simp only [Except.ok.injEq] at h
  subst h
  have e : ∀ a ≤ d, (b.getD a 0).1 + ((b.getD 0 0).2 - (b.getD 0 0).1) = (b.getD a 0).2 := by
    intro a ha
    linarith [hsq a ha]
  refine ⟨fun a ha => ⟨rfl, e a ha⟩, ?_⟩
  intro a ha i hi
  dsimp only
  rw [e a ha]
  exact hc a ha i hi

/-- Two particles in two dimensions, automatic and given box. -/
example :
    (match rootBox id 1 1 (fun a i => if a = 0 then i else 3 * i) (fun _ => 0) none with
      | .ok b => some (b.lo 0, b.lo 1, b.ext) | .error _ => none) =
        some (0, 0, 3 * (1 + 1 / 10000)) ∧
    (match rootBox id 1 1 (fun a i => if a = 0 then i else 3 * i) (fun _ => 0)
        (some [(-1, 3), (0, 4)]) with
      | .ok b => some (b.lo 0, b.lo 1, b.ext) | .error _ => none) = some (-1, 0, 4) := by
  decide +kernel

/-- **C50**, finding: a box that is square only up to the tolerance is accepted although the root
box then does not contain all particles. -/
theorem C50_nearly_square_bbox_loses :
    (match rootBox id 1 0 (fun a _ => if a = 0 then 1 / 2 else 1 + 1 / 10 ^ 16) (fun _ => 0)
        (some [(0, 1), (0, 1 + 1 / 10 ^ 16)]) with
      | .ok b => some (b.lo 1, b.ext) | .error _ => none) = some (0, 1) := by
  decide +kernel

end Boxtree.Build
