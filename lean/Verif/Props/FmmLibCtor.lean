import Verif.Model.FmmLibCtor
import Verif.Props.FmmLib

/-!
# C86: which wranglers can be constructed, and what they compute with
-/

namespace Boxtree.FmmLib.Ctor

variable {A W D C P : Type}

/-- What the documentation asks of the arguments. -/
structure Documented (t : BoxTree) (q : Particles) (a : Args A D) : Prop where
  /-- a wave number is given for Helmholtz, and only there -/
  kernel : (a.kernel = some .laplace ∧ (a.helmholtzK = none ∨ a.helmholtzK = some 0)) ∨
    (a.kernel = some .helmholtz ∧ ∃ k, a.helmholtzK = some k ∧ k ≠ 0)
  /-- the kernel has the dimension of the tree -/
  dim : a.dim = t.dims
  /-- exactly one of `order` and `fmm_level_to_order`, with values that are 32-bit integers -/
  order : (∃ p, a.order = some p ∧ a.fmmLevelToOrder = none ∧ p < 2 ^ 31) ∨
    (∃ f, a.fmmLevelToOrder = some f ∧ a.order = none ∧ ∀ l, l < t.nlevels → f l < 2 ^ 31)
  /-- one dipole vector per source -/
  dipoles : ∀ s d, a.dipoles = some (s, d) → s = (t.dims, q.nsources)

/-- The order a user has asked for on level `l`. -/
def Args.orderOn (a : Args A D) (l : Nat) : Nat :=
  match a.order, a.fmmLevelToOrder with
  | some p, _ => p
  | none, some f => f l
  | none, none => 0

variable {t : BoxTree} {q : Particles} {sources targets : Nat → Nat → ℚ}
  {a : Args A D}

theorem checkKernel_ok (kn : Option Kernel) (k : Option ℚ) (r : Kernel × ℚ) :
    checkKernel kn k = .ok r ↔
      (kn = some .laplace ∧ (k = none ∨ k = some 0) ∧ r = (.laplace, 1)) ∨
      (kn = some .helmholtz ∧ ∃ x, k = some x ∧ x ≠ 0 ∧ r = (.helmholtz, |x|)) := by
  unfold checkKernel truthy
  rcases kn with - | ⟨⟨⟩⟩ <;> rcases k with - | x
  · simp
  · simp
  · simp [eq_comm]
  · by_cases hx : x = 0 <;> simp [hx, eq_comm]
  · simp
  · by_cases hx : x = 0 <;> simp [hx, eq_comm]

theorem levelOrders_some (f : Nat → Nat) (n : Nat) (os : List Nat) :
    levelOrders (some f) n = .ok os ↔ (∀ l, l < n → f l < int32Size) ∧ os = (List.range n).map f := by
  unfold levelOrders
  simp only
  by_cases h : ∃ l, l < n ∧ int32Size ≤ f l
  · obtain ⟨l, hl, h⟩ := h
    rw [if_pos (List.any_eq_true.2
      ⟨f l, List.mem_map.2 ⟨l, List.mem_range.2 hl, rfl⟩, decide_eq_true h⟩)]
    constructor
    · intro h'; cases h'
    · rintro ⟨h', -⟩; exact absurd (h' l hl) (Nat.not_lt.2 h)
  · rw [if_neg]
    · constructor
      · intro e
        exact ⟨fun l hl => Nat.lt_of_not_le fun h' => h ⟨l, hl, h'⟩, (Except.ok.inj e).symm⟩
      · rintro ⟨-, rfl⟩; rfl
    · intro h'
      obtain ⟨o, ho, h''⟩ := List.any_eq_true.1 h'
      obtain ⟨l, hl, rfl⟩ := List.mem_map.1 ho
      exact h ⟨l, List.mem_range.1 hl, of_decide_eq_true h''⟩

theorem storeDipoles_ok (o : Option (Nat → D)) : storeDipoles t q a = .ok o ↔
    (∀ s d, a.dipoles = some (s, d) → s = (t.dims, q.nsources)) ∧
      o = a.dipoles.map fun d => if a.dipolesAlreadyReordered then d.2 else
        fun j => d.2 (q.userSourceIds j) := by
  unfold storeDipoles
  rcases hd : a.dipoles with - | ⟨s, d⟩
  · constructor
    · intro h
      exact ⟨fun s d h' => (nomatch h'), (Except.ok.inj h).symm⟩
    · rintro ⟨-, rfl⟩; rfl
  · simp only [Option.some.injEq, Prod.mk.injEq, Option.map_some]
    by_cases hs : s = (t.dims, q.nsources)
    · subst hs
      rw [if_neg (by simp)]
      constructor
      · intro h
        refine ⟨?_, (Except.ok.inj h).symm⟩
        rintro s d ⟨rfl, -⟩; rfl
      · rintro ⟨-, rfl⟩; rfl
    · rw [if_pos hs]
      constructor
      · intro h; cases h
      · rintro ⟨h, -⟩; exact absurd (h s d ⟨rfl, rfl⟩) hs

theorem construct_ok (r : Wrangler A D × List CtorWarning) :
    construct t q sources targets a = .ok r ↔
      ¬(a.order ≠ none ∧ a.fmmLevelToOrder.isSome) ∧ a.dim = t.dims ∧
      ∃ kf os dip, checkKernel a.kernel a.helmholtzK = .ok kf ∧
        levelOrders a.orderFun t.nlevels = .ok os ∧
        storeDipoles t q a = .ok dip ∧
        r = ({ kernel := kf.1, rscaleFactor := kf.2, order := fun l => os.getD l 0,
               sources := sources, targets := targets, dipoleVec := dip,
               dipolesAlreadyReordered := true, rotation := a.rotation, cutoff := a.cutoff },
             (if a.order ≠ none then [.deprecation] else []) ++
               (if a.dim = 3 ∧ a.rotation.isNone then [.rotationDataNotSupplied] else [])) := by
  unfold construct
  by_cases h1 : a.kernel = none
  · rw [if_pos h1]
    constructor
    · intro h; cases h
    · rintro ⟨-, -, kf, os, dip, h, -⟩
      rw [h1] at h; cases h
  rw [if_neg h1]
  by_cases h2 : a.order ≠ none ∧ a.fmmLevelToOrder.isSome
  · rw [if_pos h2]
    constructor
    · intro h; cases h
    · rintro ⟨h, -⟩; exact absurd h2 h
  rw [if_neg h2]
  cases h3 : checkKernel a.kernel a.helmholtzK with
  | error e =>
    constructor
    · intro h; cases h
    · rintro ⟨-, -, kf, os, dip, h, -⟩; cases h
  | ok kf =>
    by_cases h4 : a.dim ≠ t.dims
    · constructor
      · intro h
        simp only [if_pos h4] at h
        cases h
      · rintro ⟨-, h, -⟩; exact absurd h h4
    · cases h5 : levelOrders a.orderFun t.nlevels with
      | error e =>
        constructor
        · intro h
          simp only [if_neg h4] at h
          cases h
        · rintro ⟨-, -, kf, os, dip, -, h, -⟩; cases h
      | ok os =>
        cases h6 : storeDipoles t q a with
        | error e =>
          constructor
          · intro h
            simp only [if_neg h4] at h
            cases h
          · rintro ⟨-, -, kf, os, dip, -, -, h, -⟩; cases h
        | ok dip =>
          simp only [if_neg h4]
          constructor
          · intro h
            exact ⟨h2, by simpa using h4, kf, os, dip, rfl, rfl, rfl, (Except.ok.inj h).symm⟩
          · rintro ⟨-, -, kf', os', dip', e1, e2, e3, rfl⟩
            cases e1; cases e2; cases e3
            rfl

/-- **C86 (acceptance).** For every tree with at least one level, a wrangler is constructed exactly if
the arguments are as documented. -/
theorem C86_accepts_iff (hl : 0 < t.nlevels) :
    (∃ r, construct t q sources targets a = .ok r) ↔ Documented t q a := by
  simp only [construct_ok]
  constructor
  · rintro ⟨r, h1, hd, kf, os, dip, hk, ho, hdip, -⟩
    refine ⟨?_, hd, ?_, ((storeDipoles_ok dip).1 hdip).1⟩
    · rcases (checkKernel_ok _ _ _).1 hk with ⟨e, h, -⟩ | ⟨e, x, h, hx, -⟩
      · exact Or.inl ⟨e, h⟩
      · exact Or.inr ⟨e, x, h, hx⟩
    · unfold Args.orderFun at ho
      rcases h2 : a.order with - | p <;> rcases h3 : a.fmmLevelToOrder with - | f
      · rw [h2, h3] at ho
        simp only [levelOrders] at ho
        rw [if_neg (by omega)] at ho; cases ho
      · rw [h2, h3] at ho
        exact Or.inr ⟨f, rfl, rfl, ((levelOrders_some _ _ _).1 ho).1⟩
      · rw [h2] at ho
        exact Or.inl ⟨p, rfl, rfl, ((levelOrders_some _ _ _).1 ho).1 0 hl⟩
      · exact absurd ⟨by rw [h2]; simp, by rw [h3]; rfl⟩ h1
  · intro D
    have hk : ∃ kf, checkKernel a.kernel a.helmholtzK = .ok kf := by
      rcases D.kernel with ⟨e, h⟩ | ⟨e, x, h, hx⟩
      · exact ⟨_, (checkKernel_ok _ _ _).2 (Or.inl ⟨e, h, rfl⟩)⟩
      · exact ⟨_, (checkKernel_ok _ _ _).2 (Or.inr ⟨e, x, h, hx, rfl⟩)⟩
    have hdip : ∃ dip, storeDipoles t q a = .ok dip :=
      ⟨_, (storeDipoles_ok _).2 ⟨D.dipoles, rfl⟩⟩
    obtain ⟨kf, hk⟩ := hk
    obtain ⟨dip, hdip⟩ := hdip
    rcases D.order with ⟨p, h1, h2, h3⟩ | ⟨f, h1, h2, h3⟩
    · refine ⟨_, by rw [h2]; simp, D.dim, kf, (List.range t.nlevels).map fun _ => p, dip, hk, ?_, hdip,
        rfl⟩
      unfold Args.orderFun; rw [h1]
      exact (levelOrders_some _ _ _).2 ⟨fun _ _ => h3, rfl⟩
    · refine ⟨_, by rw [h2]; simp, D.dim, kf, (List.range t.nlevels).map f, dip, hk, ?_, hdip, rfl⟩
      unfold Args.orderFun; rw [h2, h1]
      exact (levelOrders_some _ _ _).2 ⟨h3, rfl⟩

/-- **C86 (attributes).** A constructed wrangler has the kernel and, on every level, the order asked
for; its scaling factor is that of the kernel and positive; the rotation data and the memory limit are those
given; a warning is issued exactly for `order` and, in three dimensions, for missing rotation data. -/
theorem C86_attributes {w : Wrangler A D} {ws : List CtorWarning}
    (h : construct t q sources targets a = .ok (w, ws)) :
    a.kernel = some w.kernel ∧ (∀ l, l < t.nlevels → w.order l = a.orderOn l) ∧
      (w.kernel = .laplace → w.rscaleFactor = 1) ∧
      (w.kernel = .helmholtz → ∃ k, a.helmholtzK = some k ∧ w.rscaleFactor = |k|) ∧
      0 < w.rscaleFactor ∧ w.rotation = a.rotation ∧ w.cutoff = a.cutoff ∧
      w.sources = sources ∧ w.targets = targets ∧
      (CtorWarning.deprecation ∈ ws ↔ a.order.isSome) ∧
      (CtorWarning.rotationDataNotSupplied ∈ ws ↔ t.dims = 3 ∧ a.rotation.isNone) := by
  obtain ⟨h1, hd, kf, os, dip, hk, ho, hdip, he⟩ := (construct_ok _).1 h
  obtain ⟨rfl, rfl⟩ := Prod.mk.inj he
  have hord : ∀ l, l < t.nlevels → os.getD l 0 = a.orderOn l := by
    intro l hl
    unfold Args.orderOn
    unfold Args.orderFun at ho
    rcases h2 : a.order with - | p <;> rcases h3 : a.fmmLevelToOrder with - | f <;>
      rw [h2] at ho <;> try rw [h3] at ho
    · simp only [levelOrders] at ho
      rw [if_neg (by omega)] at ho; cases ho
    · rw [((levelOrders_some _ _ _).1 ho).2, List.getD_eq_getElem _ _ (by simpa using hl)]
      simp
    all_goals
      rw [((levelOrders_some _ _ _).1 ho).2, List.getD_eq_getElem _ _ (by simpa using hl)]
      simp
  have hw : (CtorWarning.deprecation ∈ ((if a.order ≠ none then [CtorWarning.deprecation] else []) ++
      (if a.dim = 3 ∧ a.rotation.isNone then [.rotationDataNotSupplied] else [])) ↔ a.order.isSome) ∧
      (CtorWarning.rotationDataNotSupplied ∈
        ((if a.order ≠ none then [CtorWarning.deprecation] else []) ++
        (if a.dim = 3 ∧ a.rotation.isNone then [.rotationDataNotSupplied] else [])) ↔
        t.dims = 3 ∧ a.rotation.isNone) := by
    rw [hd]
    rcases a.order with - | p <;> by_cases h3 : t.dims = 3 ∧ a.rotation.isNone <;> simp [h3]
  rcases (checkKernel_ok _ _ _).1 hk with ⟨e, -, rfl⟩ | ⟨e, x, hx', hx, rfl⟩
  · exact ⟨e, hord, fun _ => rfl, (nomatch ·), one_pos, rfl, rfl, rfl, rfl, hw⟩
  · exact ⟨e, hord, (nomatch ·), fun _ => ⟨x, hx', rfl⟩, abs_pos.2 hx, rfl, rfl, rfl, rfl, hw⟩

/-- **C86 (scaling).** The scaling factor of every level is positive; it is at most 1, except for the
three-dimensional Laplace kernel, where it is at least 1. -/
theorem C86_rscale {w : Wrangler A D} {ws : List CtorWarning}
    (h : construct t q sources targets a = .ok (w, ws)) (hr : 0 < t.rootExtent) (l : Nat) :
    0 < levelToRscale t w l ∧
      (t.dims = 3 ∧ a.kernel = some .laplace → 1 ≤ levelToRscale t w l) ∧
      (¬(t.dims = 3 ∧ a.kernel = some .laplace) → levelToRscale t w l ≤ 1) := by
  obtain ⟨hk, -, -, -, hf, -⟩ := C86_attributes h
  have hp : 0 < t.rootExtent * (1 / 2 ^ l) * w.rscaleFactor := by positivity
  have hk' : a.kernel = some .laplace ↔ w.kernel = .laplace := by rw [hk]; simp
  rw [hk']
  unfold levelToRscale
  simp only
  rw [abs_of_pos hp]
  set r := t.rootExtent * (1 / 2 ^ l) * w.rscaleFactor
  by_cases h1 : 1 < r
  · rw [if_pos h1]
    by_cases h3 : t.dims = 3 ∧ w.kernel = .laplace <;> simp [h3]
  · rw [if_neg h1]
    push Not at h1
    by_cases h3 : t.dims = 3 ∧ w.kernel = .laplace
    · rw [if_pos h3]
      exact ⟨by positivity, fun _ => (one_le_div hp).2 h1, fun h => absurd h3 h⟩
    · rw [if_neg h3]
      exact ⟨hp, fun h => absurd h h3, fun _ => h1⟩

set_option smartUnfolding false in
/-- **C86 (dipoles).** The potentials computed by a constructed wrangler are those of the wrangler
described by the arguments, the dipole vectors being those the user gave for each source. -/
theorem C86_dipoles_in_user_order [AddCommMonoid C] [AddCommMonoid P] {w : Wrangler A D}
    {ws : List CtorWarning} (h : construct t q sources targets a = .ok (w, ws))
    (R : Lib A W D C P) (trav : Traversal) (weights : Nat → W) :
    drive t q R w trav weights = drive t q R { w with
      dipoleVec := a.dipoles.map fun d => d.2
      dipolesAlreadyReordered := a.dipolesAlreadyReordered } trav weights := by
  obtain ⟨h1, hd, kf, os, dip, hk, ho, hdip, he⟩ := (construct_ok _).1 h
  obtain ⟨rfl, rfl⟩ := Prod.mk.inj he
  obtain ⟨-, rfl⟩ := (storeDipoles_ok dip).1 hdip
  rcases a.dipoles with - | ⟨s, d⟩
  · rfl
  · cases a.dipolesAlreadyReordered <;> rfl

/-- **C86 (`order`).** The deprecated argument `order=p` constructs the same wrangler as a function that
is `p` on every level. -/
theorem C86_order_is_constant (p : Nat) (w : Wrangler A D) :
    (∃ ws, construct t q sources targets { a with order := some p, fmmLevelToOrder := none } =
        .ok (w, ws)) ↔
      ∃ ws, construct t q sources targets { a with order := none, fmmLevelToOrder := some fun _ => p } =
        .ok (w, ws) := by
  simp only [construct_ok]
  constructor
  · rintro ⟨ws, -, hd, kf, os, dip, hk, ho, hdip, he⟩
    exact ⟨_, by simp, hd, kf, os, dip, hk, ho, hdip, by rw [← (Prod.mk.inj he).1]⟩
  · rintro ⟨ws, -, hd, kf, os, dip, hk, ho, hdip, he⟩
    exact ⟨_, by simp, hd, kf, os, dip, hk, ho, hdip, by rw [← (Prod.mk.inj he).1]⟩

/-- Not vacuous: a Helmholtz wrangler with dipole vectors in user order; and calls that are refused. -/
def exArgs : Args ℚ ℚ where
  dim := 2
  kernel := some .helmholtz
  helmholtzK := some (-3)
  fmmLevelToOrder := some fun l => 10 - l
  order := none
  dipoles := some ((2, Ex.quadParticles.nsources), fun j => j)
  dipolesAlreadyReordered := false
  cutoff := 100
  rotation := none

example : Documented Ex.quad Ex.quadParticles exArgs :=
  ⟨Or.inr ⟨rfl, -3, rfl, by norm_num⟩, rfl, Or.inr ⟨_, rfl, rfl, fun l _ => by
    show 10 - l < 2 ^ 31; omega⟩,
    by rintro s d ⟨⟩; rfl⟩

example : 0 < Ex.quad.nlevels := by decide

example (sources targets : Nat → Nat → ℚ) :
    ¬(∃ r, construct Ex.quad Ex.quadParticles sources targets { exArgs with helmholtzK := some 0 } =
      .ok r) ∧
    ¬(∃ r, construct Ex.quad Ex.quadParticles sources targets { exArgs with dim := 3 } = .ok r) ∧
    ¬(∃ r, construct Ex.quad Ex.quadParticles sources targets { exArgs with order := some 3 } =
      .ok r) := by
  refine ⟨?_, ?_, ?_⟩ <;> rintro ⟨r, h⟩ <;> cases h

end Boxtree.FmmLib.Ctor
