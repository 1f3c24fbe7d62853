import Verif.Lemmas.CostFactory
import Mathlib.Analysis.SpecialFunctions.Pow.Real

/-!
# C78: calibrated cost models

The costs of a traversal are those of the documented formulas: linear in the calibration parameters,
monotone, defined exactly when the parameters are there, and the calibration returns the parameters with
which the times were made.
-/

namespace Boxtree.Cost

section
variable {K : Type} [CommSemiring K] {hp : K → Nat → K}
variable {inp : TravInput} {trav : Traversal}

omit [CommSemiring K] in
theorem Ctx.Gives.orders {n : Nat} {orders : List K} {ctx : Ctx K} {c : Calib K} (hc : ctx.Gives c) :
    GivesFor n (withOrders n orders ctx) c :=
  ⟨hc.p2m, fun _ => hc.m2m, hc.p2p, hc.m2l, hc.m2p, hc.p2l, fun _ => hc.l2l, hc.l2p⟩

theorem factors_ok {F : Factory} {orders : List K} {ctx : Ctx K} {c : Calib K}
    (hlen : inp.tree.nlevels ≤ orders.length)
    (hc : GivesFor inp.tree.nlevels (withOrders inp.tree.nlevels orders ctx) c) :
    ∃ f, evalFactors hp (F.make inp.tree.dims) inp.tree.nlevels
        (withOrders inp.tree.nlevels orders ctx) = .ok f ∧
      AgreeOn inp.tree.nlevels f (modelled hp F inp.tree.dims c fun l => orders.getD l 0) :=
  evalFactors_ok hc fun _ hl => withOrders_order hlen ctx hl

/-- **C78**, formulas: with a dictionary of calibration parameters and an order for each level, the cost
of each stage is the one for factors `c · ncoeffs`, `c · translation` of the levels.  Entries of the
dictionary for orders, such as those that an earlier call has left, have no influence. -/
theorem C78_per_stage (hw : inp.tree.WF) (h : buildTraversal inp = .ok trav) (F : Factory)
    (q : Particles) (tc : Nat → Nat) {orders : List K} {ctx : Ctx K} {c : Calib K}
    (hlen : inp.tree.nlevels ≤ orders.length) (hc : ctx.Gives c) :
    ∃ ctx', costPerStage hp F inp.tree q trav tc orders ctx =
        .ok (perStage inp.tree q trav tc
          (modelled hp F inp.tree.dims c fun l => orders.getD l 0), ctx') ∧
      ctx'.Gives c ∧ ∀ s, ctx' (.const s) = ctx (.const s) := by
  obtain ⟨f, hf, ha⟩ := factors_ok (hp := hp) (F := F) hlen hc.orders
  refine ⟨withOrders inp.tree.nlevels orders ctx, ?_,
    ⟨hc.p2m, hc.m2m, hc.p2p, hc.m2l, hc.m2p, hc.p2l, hc.l2l, hc.l2p⟩, fun _ => rfl⟩
  unfold costPerStage
  rw [setOrders_ok hlen, ← perStage_congr hw h q tc ha]
  show (evalFactors hp (F.make inp.tree.dims) inp.tree.nlevels
        (withOrders inp.tree.nlevels orders ctx) >>= _) = _
  rw [hf]
  rfl

/-- **C78**, the same for the costs of the boxes. -/
theorem C78_per_box (hw : inp.tree.WF) (h : buildTraversal inp = .ok trav) (F : Factory)
    (q : Particles) (tc : Nat → Nat) {orders : List K} {ctx : Ctx K} {c : Calib K}
    (hlen : inp.tree.nlevels ≤ orders.length) (hc : ctx.Gives c) :
    ∃ ctx', costPerBox hp F inp.tree q trav tc orders ctx =
        .ok (perBox inp.tree q trav tc
          (modelled hp F inp.tree.dims c fun l => orders.getD l 0), ctx') ∧
      ctx'.Gives c ∧ ∀ s, ctx' (.const s) = ctx (.const s) := by
  obtain ⟨f, hf, ha⟩ := factors_ok (hp := hp) (F := F) hlen hc.orders
  refine ⟨withOrders inp.tree.nlevels orders ctx, ?_,
    ⟨hc.p2m, hc.m2m, hc.p2p, hc.m2l, hc.m2p, hc.p2l, hc.l2l, hc.l2p⟩, fun _ => rfl⟩
  unfold costPerBox
  rw [setOrders_ok hlen, ← perBox_congr hw h q tc ha]
  show (evalFactors hp (F.make inp.tree.dims) inp.tree.nlevels
        (withOrders inp.tree.nlevels orders ctx) >>= _) = _
  rw [hf]
  rfl

/-- **C78**, errors: a call succeeds exactly if there is an order for each level, and the parameters are
in the dictionary; those of the translations between levels are needed only with two levels or more. -/
theorem C78_errors (hw : inp.tree.WF) (F : Factory) (q : Particles) (tc : Nat → Nat)
    {orders : List K} {ctx : Ctx K} :
    (∃ r, costPerStage hp F inp.tree q trav tc orders ctx = .ok r) ↔
      inp.tree.nlevels ≤ orders.length ∧
      (∀ s ∈ ["c_p2m", "c_p2p", "c_m2l", "c_m2p", "c_p2l", "c_l2p"], ∃ v, ctx (.const s) = some v) ∧
      (2 ≤ inp.tree.nlevels → ∀ s ∈ ["c_m2m", "c_l2l"], ∃ v, ctx (.const s) = some v) := by
  have hn : 0 < inp.tree.nlevels := by
    have := hw.level_lt 0 hw.nboxes_pos
    omega
  constructor
  · rintro ⟨r, hr⟩
    unfold costPerStage at hr
    by_cases hlen : inp.tree.nlevels ≤ orders.length
    · rw [setOrders_ok hlen] at hr
      change (evalFactors hp (F.make inp.tree.dims) inp.tree.nlevels
        (withOrders inp.tree.nlevels orders ctx) >>= _) = _ at hr
      cases hf : evalFactors hp (F.make inp.tree.dims) inp.tree.nlevels
        (withOrders inp.tree.nlevels orders ctx) with
      | error e => rw [hf] at hr; cases hr
      | ok f =>
        obtain ⟨c, hc⟩ := evalFactors_inv hn hf
        refine ⟨hlen, ?_, fun h2 => ?_⟩
        · intro s hs
          fin_cases hs
          exacts [⟨_, hc.p2m⟩, ⟨_, hc.p2p⟩, ⟨_, hc.m2l⟩, ⟨_, hc.m2p⟩, ⟨_, hc.p2l⟩, ⟨_, hc.l2p⟩]
        · intro s hs
          fin_cases hs
          exacts [⟨_, hc.m2m h2⟩, ⟨_, hc.l2l h2⟩]
    · unfold setOrders at hr
      rw [if_pos (by omega)] at hr
      cases hr
  · rintro ⟨hlen, h6, h2⟩
    obtain ⟨a, ha⟩ := h6 "c_p2m" (by simp)
    obtain ⟨b, hb⟩ := h6 "c_p2p" (by simp)
    obtain ⟨c, hc⟩ := h6 "c_m2l" (by simp)
    obtain ⟨d, hd⟩ := h6 "c_m2p" (by simp)
    obtain ⟨e, he⟩ := h6 "c_p2l" (by simp)
    obtain ⟨g, hg⟩ := h6 "c_l2p" (by simp)
    have hgive : GivesFor inp.tree.nlevels (withOrders inp.tree.nlevels orders ctx)
        ⟨a, (ctx (.const "c_m2m")).getD 0, b, c, d, e, (ctx (.const "c_l2l")).getD 0, g⟩ := by
      refine ⟨ha, fun h => ?_, hb, hc, hd, he, fun h => ?_, hg⟩
      · obtain ⟨v, hv⟩ := h2 h "c_m2m" (by simp)
        show ctx (.const "c_m2m") = some ((ctx (.const "c_m2m")).getD 0)
        rw [hv]; rfl
      · obtain ⟨v, hv⟩ := h2 h "c_l2l" (by simp)
        show ctx (.const "c_l2l") = some ((ctx (.const "c_l2l")).getD 0)
        rw [hv]; rfl
    obtain ⟨f, hf, -⟩ := factors_ok (hp := hp) (F := F) hlen hgive
    refine ⟨(perStage inp.tree q trav tc f, withOrders inp.tree.nlevels orders ctx), ?_⟩
    unfold costPerStage
    rw [setOrders_ok hlen]
    show (evalFactors hp (F.make inp.tree.dims) inp.tree.nlevels
        (withOrders inp.tree.nlevels orders ctx) >>= _) = _
    rw [hf]
    rfl

theorem unitParams_gives : (unitParams : Ctx K).Gives .unit := by
  constructor <;> simp [unitParams, Calib.unit]

/-- **C78**, linear in the parameters, as the documentation of translation cost models requires: the cost
of each stage is the calibration parameter of that stage times the cost with unit parameters. -/
theorem C78_linear (hw : inp.tree.WF) (h : buildTraversal inp = .ok trav) (F : Factory)
    (q : Particles) (tc : Nat → Nat) {orders : List K} {ctx : Ctx K} {c : Calib K}
    (hlen : inp.tree.nlevels ≤ orders.length) (hc : ctx.Gives c) :
    ∃ s ctx' ctx'', costPerStage hp F inp.tree q trav tc orders unitParams = .ok (s, ctx') ∧
      costPerStage hp F inp.tree q trav tc orders ctx = .ok (s.times c, ctx'') := by
  obtain ⟨ctx', h1, -⟩ := C78_per_stage (hp := hp) hw h F q tc hlen unitParams_gives
  obtain ⟨ctx'', h2, -⟩ := C78_per_stage (hp := hp) hw h F q tc hlen hc
  refine ⟨_, ctx', ctx'', h1, ?_⟩
  rw [h2, perStage_scale inp.tree q trav tc c (g := modelled hp F inp.tree.dims .unit
    fun l => orders.getD l 0)] <;> simp [modelled, Calib.unit]

/-- **C78**, no memory: a second call with the dictionary that the first has modified, for any other
tree, gives what it gives with the original one. -/
theorem C78_repeated {inp₁ : TravInput} {trav₁ : Traversal} (hw : inp.tree.WF)
    (h : buildTraversal inp = .ok trav) (hw₁ : inp₁.tree.WF) (h₁ : buildTraversal inp₁ = .ok trav₁)
    (F F₁ : Factory) (q q₁ : Particles) (tc tc₁ : Nat → Nat) {orders orders₁ : List K} {ctx ctx₁ : Ctx K}
    {c : Calib K} (hc : ctx.Gives c) (hlen : inp.tree.nlevels ≤ orders.length)
    (hlen₁ : inp₁.tree.nlevels ≤ orders₁.length) {s₁ : Stages K}
    (hfirst : costPerStage hp F₁ inp₁.tree q₁ trav₁ tc₁ orders₁ ctx = .ok (s₁, ctx₁)) :
    (costPerStage hp F inp.tree q trav tc orders ctx₁).map Prod.fst =
      (costPerStage hp F inp.tree q trav tc orders ctx).map Prod.fst := by
  obtain ⟨ctx', h1, h2, -⟩ := C78_per_stage (hp := hp) hw₁ h₁ F₁ q₁ tc₁ hlen₁ hc
  rw [hfirst] at h1
  cases h1
  obtain ⟨_, h3, -⟩ := C78_per_stage (hp := hp) hw h F q tc hlen hc
  obtain ⟨_, h4, -⟩ := C78_per_stage (hp := hp) hw h F q tc hlen h2
  rw [h3, h4]
  rfl

end

/-! ### Monotonicity -/

section
variable {K : Type} [CommSemiring K] [PartialOrder K] [IsOrderedRing K] {hp : K → Nat → K}
variable {inp : TravInput} {trav : Traversal}

/-- **C78**, monotone: larger orders (of at least zero) and larger nonnegative parameters make no stage
cheaper. -/
theorem C78_monotone (hw : inp.tree.WF) (h : buildTraversal inp = .ok trav) (F : Factory)
    (q : Particles) (tc : Nat → Nat)
    (hhp : ∀ v w k, 0 ≤ v → v ≤ w → 0 ≤ hp v k ∧ hp v k ≤ hp w k)
    {orders orders' : List K} {ctx ctx' : Ctx K} {c c' : Calib K}
    (hlen : inp.tree.nlevels ≤ orders.length) (hlen' : inp.tree.nlevels ≤ orders'.length)
    (hord : ∀ l < inp.tree.nlevels, 0 ≤ orders.getD l 0 ∧ orders.getD l 0 ≤ orders'.getD l 0)
    (hc : ctx.Gives c) (hc' : ctx'.Gives c') (h0 : Calib.zero.le c) (hcc : c.le c')
    {s s' : Stages K × Ctx K} (hs : costPerStage hp F inp.tree q trav tc orders ctx = .ok s)
    (hs' : costPerStage hp F inp.tree q trav tc orders' ctx' = .ok s') :
    s.1.le s'.1 := by
  obtain ⟨_, h1, -⟩ := C78_per_stage (hp := hp) hw h F q tc hlen hc
  obtain ⟨_, h2, -⟩ := C78_per_stage (hp := hp) hw h F q tc hlen' hc'
  rw [hs] at h1
  rw [hs'] at h2
  cases h1
  cases h2
  set n := inp.tree.nlevels
  set d := inp.tree.dims
  -- cut off the orders, so that the bounds hold on all levels
  have hcut : ∀ (o : List K) (c : Calib K), perStage inp.tree q trav tc
      (modelled hp F d c fun l => o.getD l 0) = perStage inp.tree q trav tc
      (modelled hp F d c fun l => if l < n then o.getD l 0 else 0) := by
    intro o c
    refine perStage_congr hw h q tc ?_
    have : ∀ l < n, (if l < n then o.getD l 0 else 0) = o.getD l 0 := fun l hl => if_pos hl
    constructor
    · intro l hl; simp only [modelled, this l hl]
    · intro l hl; simp only [modelled, this l (by omega), this (l + 1) (by omega)]
    · rfl
    · intro l hl; simp only [modelled, this l hl]
    · intro l hl; simp only [modelled, this l hl]
    · intro l hl; simp only [modelled, this l hl]
    · intro l hl; simp only [modelled, this l (by omega), this (l + 1) (by omega)]
    · intro l hl; simp only [modelled, this l hl]
  have hb : ∀ l, 0 ≤ (if l < n then orders.getD l 0 else 0) ∧
      (if l < n then orders.getD l 0 else 0) ≤ (if l < n then orders'.getD l 0 else 0) := by
    intro l
    split
    · exact hord l ‹_›
    · exact ⟨le_refl _, le_refl _⟩
  have hnc : ∀ l, 0 ≤ ncoeffs F d (if l < n then orders.getD l 0 else 0) ∧
      ncoeffs F d (if l < n then orders.getD l 0 else 0) ≤
        ncoeffs F d (if l < n then orders'.getD l 0 else 0) := by
    intro l
    have h1 : (0 : K) ≤ (if l < n then orders.getD l 0 else 0) + 1 :=
      add_nonneg (hb l).1 zero_le_one
    have h2 : (if l < n then orders.getD l 0 else 0) + 1 ≤
      (if l < n then orders'.getD l 0 else 0) + 1 := add_le_add (hb l).2 (le_refl _)
    cases F
    · exact ⟨pow_nonneg h1 _, pow_le_pow_left₀ h1 h2 _⟩
    · exact ⟨pow_nonneg h1 _, pow_le_pow_left₀ h1 h2 _⟩
  have htr : ∀ a b a' b' : K, 0 ≤ a → a ≤ a' → 0 ≤ b → b ≤ b' →
      0 ≤ translation hp F d a b ∧ translation hp F d a b ≤ translation hp F d a' b' := by
    intro a b a' b' ha haa hb hbb
    have hmul : 0 ≤ a * b ∧ a * b ≤ a' * b' :=
      ⟨mul_nonneg ha hb, mul_le_mul haa hbb hb (ha.trans haa)⟩
    unfold translation
    cases F with
    | taylor => exact hmul
    | pdeAware =>
      show 0 ≤ (if d = 3 then _ else _) ∧ (if d = 3 then _ else _) ≤ (if d = 3 then _ else _)
      split
      · have x1 := hhp a a' 3 ha haa
        have x2 := hhp a a' 1 ha haa
        have x3 := hhp b b' 3 hb hbb
        exact ⟨add_nonneg (add_nonneg x1.1 (mul_nonneg x2.1 hb)) x3.1,
          add_le_add (add_le_add x1.2 (mul_le_mul x2.2 hbb hb (x2.1.trans x2.2))) x3.2⟩
      · exact hmul
  have hcm : ∀ {a a' v v' : K}, 0 ≤ a → a ≤ a' → 0 ≤ v → v ≤ v' → a * v ≤ a' * v' :=
    fun ha haa hv hvv => mul_le_mul haa hvv hv (ha.trans haa)
  show (perStage inp.tree q trav tc _).le (perStage inp.tree q trav tc _)
  rw [hcut orders c, hcut orders' c']
  refine perStage_mono inp.tree q trav tc ?_ ?_ ?_ ?_ ?_ ?_ ?_ ?_
  · exact fun l => hcm h0.p2m hcc.p2m (hnc l).1 (hnc l).2
  · intro l
    have := htr _ _ _ _ (hnc (l + 1)).1 (hnc (l + 1)).2 (hnc l).1 (hnc l).2
    exact hcm h0.m2m hcc.m2m this.1 this.2
  · exact hcc.p2p
  · intro l
    have := htr _ _ _ _ (hnc l).1 (hnc l).2 (hnc l).1 (hnc l).2
    exact hcm h0.m2l hcc.m2l this.1 this.2
  · exact fun l => hcm h0.m2p hcc.m2p (hnc l).1 (hnc l).2
  · exact fun l => hcm h0.p2l hcc.p2l (hnc l).1 (hnc l).2
  · intro l
    have := htr _ _ _ _ (hnc l).1 (hnc l).2 (hnc (l + 1)).1 (hnc (l + 1)).2
    exact hcm h0.l2l hcc.l2l this.1 this.2
  · exact fun l => hcm h0.l2p hcc.l2p (hnc l).1 (hnc l).2

end

/-! ### Real powers -/

/-- `x ** (k / 2)` for real numbers. -/
noncomputable def realHalfPow (x : ℝ) (k : Nat) : ℝ := x ^ ((k : ℝ) / 2)

/-- **C78**, translations in three dimensions: between orders `p` and `q` a translation of expansions in
spherical harmonics costs `(p+1)³ + (p+1)(q+1)² + (q+1)³`, and one of Taylor expansions
`(p+1)³(q+1)³`. -/
theorem C78_translation_3d {p q : ℝ} (hp : -1 ≤ p) (hq : -1 ≤ q) :
    translation realHalfPow .pdeAware 3 (ncoeffs .pdeAware 3 p) (ncoeffs .pdeAware 3 q) =
      (p + 1) ^ 3 + (p + 1) * (q + 1) ^ 2 + (q + 1) ^ 3 ∧
    translation realHalfPow .taylor 3 (ncoeffs .taylor 3 p) (ncoeffs .taylor 3 q) =
      (p + 1) ^ 3 * (q + 1) ^ 3 := by
  have key : ∀ x : ℝ, 0 ≤ x → ∀ k : Nat, realHalfPow (x ^ 2) k = x ^ k := by
    intro x hx k
    unfold realHalfPow
    rw [← Real.rpow_natCast x 2, ← Real.rpow_mul hx, ← Real.rpow_natCast x k]
    congr 1
    push_cast
    ring
  refine ⟨?_, rfl⟩
  show realHalfPow ((p + 1) ^ 2) 3 + realHalfPow ((p + 1) ^ 2) 1 * (q + 1) ^ 2
    + realHalfPow ((q + 1) ^ 2) 3 = _
  rw [key _ (by linarith), key _ (by linarith), key _ (by linarith), pow_one]

/-- The condition of `C78_monotone` holds for the real powers. -/
theorem realHalfPow_mono (v w : ℝ) (k : Nat) (h0 : 0 ≤ v) (h : v ≤ w) :
    0 ≤ realHalfPow v k ∧ realHalfPow v k ≤ realHalfPow w k :=
  ⟨Real.rpow_nonneg h0 _, Real.rpow_le_rpow h0 h (by positivity)⟩

/-! ### Calibration -/

/-- One run of a calibration: a tree, its traversal, the particles and the orders. -/
structure Run where
  inp : TravInput
  trav : Traversal
  q : Particles
  tc : Nat → Nat
  orders : List ℚ

/-- The traversal belongs to the tree, and there is an order for each level. -/
structure Run.Ok (r : Run) : Prop where
  wf : r.inp.tree.WF
  built : buildTraversal r.inp = .ok r.trav
  orders : r.inp.tree.nlevels ≤ r.orders.length

/-- `m` is the result of `cost_per_stage` for the run and the parameters. -/
def Run.Costs (hp : ℚ → Nat → ℚ) (F : Factory) (ctx : Ctx ℚ) (r : Run) (m : List (String × ℚ)) : Prop :=
  ∃ s ctx', costPerStage hp F r.inp.tree r.q r.trav r.tc r.orders ctx = .ok (s, ctx') ∧ m = s.dict

theorem dot_scale (c : ℚ) : ∀ u : List ℚ, dot (u.map (c * ·)) u = c * dot u u
  | [] => by simp [dot]
  | x :: u => by
    have := dot_scale c u
    unfold dot at *
    rw [List.map_cons, List.zipWith_cons_cons, List.zipWith_cons_cons, List.sum_cons, List.sum_cons, this]
    ring

theorem fit_scale (c : ℚ) {u : List ℚ} (h : ∃ x ∈ u, 1 / 10 ^ 8 < |x|) : fit u (u.map (c * ·)) = c := by
  obtain ⟨x, hx, hlt⟩ := h
  have hnc : allcloseZero u = false := by
    unfold allcloseZero
    rw [List.all_eq_false]
    exact ⟨x, hx, by simpa using hlt⟩
  have hpos := dot_self_pos u ⟨x, hx, fun h0 => by
    rw [h0, abs_zero] at hlt
    norm_num at hlt⟩
  unfold fit
  rw [hnc, dot_scale]
  simp only [Bool.false_eq_true, if_false]
  field_simp

/-- **C78**, calibration recovers the parameters: if the times are those of the model with parameters `c`
in any number of runs, then each calibration parameter is estimated as in `c`, provided that in one of the
runs the stage has a cost (above the `1e-8` that count as zero). -/
theorem C78_calibration_recovers {hp : ℚ → Nat → ℚ} (F : Factory) {runs : List Run}
    (hruns : ∀ r ∈ runs, r.Ok) {ctx : Ctx ℚ} {c : Calib ℚ} (hc : ctx.Gives c)
    {models timings : List (List (String × ℚ))}
    (hm : List.Forall₂ (Run.Costs hp F unitParams) runs models)
    (ht : List.Forall₂ (Run.Costs hp F ctx) runs timings)
    {stage param : String} (hsp : (stage, param) ∈ stageToParam)
    (hsize : ∃ m ∈ models, ∃ v, m.lookup stage = some v ∧ 1 / 10 ^ 8 < |v|) :
    estimate models timings [] param = .ok (some (c.get param)) := by
  have hlen : timings.length = models.length := by rw [← ht.length_eq, hm.length_eq]
  -- times and costs as stages
  have hst : ∃ ss : List (Stages ℚ), models = ss.map Stages.dict ∧
      timings = ss.map fun s => (s.times c).dict := by
    clear hsize hlen
    induction runs generalizing models timings with
    | nil =>
      cases hm; cases ht
      exact ⟨[], rfl, rfl⟩
    | cons r runs ih =>
      cases hm with
      | cons a hm =>
      cases ht with
      | cons b ht =>
      obtain ⟨ss, h1, h2⟩ := ih (fun r hr => hruns r (by simp [hr])) hm ht
      obtain ⟨s, _, e1, rfl⟩ := a
      obtain ⟨s', _, e2, rfl⟩ := b
      have ho := hruns r (by simp)
      obtain ⟨s₀, _, _, e3, e4⟩ := C78_linear (hp := hp) ho.wf ho.built F r.q r.tc ho.orders hc
      rw [e3] at e1
      rw [e4] at e2
      cases e1; cases e2
      exact ⟨s :: ss, by rw [h1]; rfl, by rw [h2]; rfl⟩
  obtain ⟨ss, h1, h2⟩ := hst
  have key : ∀ (g : Stages ℚ → ℚ), (∀ s, s.dict.lookup stage = some (g s)) →
      (∀ s, uncalibrated stageToParam param s.dict = g s) →
      (∀ s, actual stageToParam param (Stages.dict s) = .ok (g s)) →
      (∀ s, g (s.times c) = c.get param * g s) →
      estimate models timings [] param = .ok (some (c.get param)) := by
    intro g hl hu ha hg
    unfold estimate
    rw [if_neg (by simpa using hlen)]
    dsimp only [List.foldl_nil]
    have hts : timings.mapM (actual stageToParam param) = .ok ((ss.map g).map (c.get param * ·)) := by
      rw [h2, List.mapM_map]
      rw [mapM_okE _ (fun s => c.get param * g s) ss fun s _ => by
        rw [Function.comp, ha, hg], List.map_map]
      rfl
    have hms : models.map (uncalibrated stageToParam param) = ss.map g := by
      rw [h1, List.map_map]
      exact List.map_congr_left fun s _ => hu s
    rw [hts]
    dsimp only
    rw [if_pos (by rw [List.any_eq_true]; exact ⟨_, hsp, by simp⟩), hms, fit_scale]
    obtain ⟨m, hmm, v, hv, hlt⟩ := hsize
    rw [h1, List.mem_map] at hmm
    obtain ⟨s, hs, rfl⟩ := hmm
    rw [hl] at hv
    cases hv
    exact ⟨_, List.mem_map.2 ⟨s, hs, rfl⟩, hlt⟩
  fin_cases hsp
  · exact key Stages.formMultipoles (fun _ => rfl) (fun _ => rfl) (fun _ => rfl) (fun _ => rfl)
  · exact key Stages.coarsenMultipoles (fun _ => rfl) (fun _ => rfl) (fun _ => rfl) (fun _ => rfl)
  · exact key Stages.evalDirect (fun _ => rfl) (fun _ => rfl) (fun _ => rfl) (fun _ => rfl)
  · exact key Stages.multipoleToLocal (fun _ => rfl) (fun _ => rfl) (fun _ => rfl) (fun _ => rfl)
  · exact key Stages.evalMultipoles (fun _ => rfl) (fun _ => rfl) (fun _ => rfl) (fun _ => rfl)
  · exact key Stages.formLocals (fun _ => rfl) (fun _ => rfl) (fun _ => rfl) (fun _ => rfl)
  · exact key Stages.refineLocals (fun _ => rfl) (fun _ => rfl) (fun _ => rfl) (fun _ => rfl)
  · exact key Stages.evalLocals (fun _ => rfl) (fun _ => rfl) (fun _ => rfl) (fun _ => rfl)

/-! ### Example -/

namespace Ex

/-- Parameters `2, 3, …`, and an order left over from another call. -/
def params : Ctx ℚ
  | .const s => [("c_p2m", 2), ("c_m2m", 3), ("c_p2p", 5), ("c_m2l", 7), ("c_m2p", 11), ("c_p2l", 13),
      ("c_l2l", 17), ("c_l2p", 19)].lookup s
  | .order l => if l = 1 then some 99 else none

/-- The same. -/
def calib : Calib ℚ := ⟨2, 3, 5, 7, 11, 13, 17, 19⟩

theorem params_gives : params.Gives calib := by
  constructor <;> decide +kernel

/-- The result for the example tree with orders `1, 2, 3, …` on the levels, as a list. -/
def result (F : Factory) (ctx : Ctx ℚ) : Option (List ℚ) :=
  match buildTraversal Boxtree.Ex.exInput with
  | .ok trav =>
    match costPerStage (fun v _ => v) F Boxtree.Ex.exTree Boxtree.Ex.exParticles trav
        Boxtree.Ex.exParticles.tgtCount (orders := (List.range 10).map fun l : Nat => (l + 1 : ℚ)) ctx with
    | .ok r => some (r.1.dict.map Prod.snd)
    | .error _ => none
  | .error _ => none

/-- `C78_linear`: the second list is the first times `calib`. -/
theorem result_unit : result .taylor unitParams = some [22, 40, 13, 96, 5, 4, 100, 22] := by
  decide +kernel

example : result .taylor params = some [44, 120, 65, 672, 55, 52, 1700, 418] := by decide +kernel

/-- A traversal of the example. -/
theorem built : ∃ trav, buildTraversal Boxtree.Ex.exInput = .ok trav := by
  have h := result_unit
  unfold result at h
  cases hb : buildTraversal Boxtree.Ex.exInput with
  | ok trav => exact ⟨trav, rfl⟩
  | error e => rw [hb] at h; cases h

/-- The hypotheses of `C78_calibration_recovers` are met by a run for which all eight stages have a
cost. -/
example : ∃ (r : Run) (m t : List (String × ℚ)), r.Ok ∧ r.Costs (fun v _ => v) .taylor unitParams m ∧
    r.Costs (fun v _ => v) .taylor params t ∧
    ∀ sp ∈ stageToParam, ∃ v, m.lookup sp.1 = some v ∧ 1 / 10 ^ 8 < |v| := by
  obtain ⟨trav, hb⟩ := built
  have hlen : Boxtree.Ex.exInput.tree.nlevels ≤
      ((List.range 10).map fun l : Nat => (l + 1 : ℚ)).length := by decide +kernel
  obtain ⟨s, c1, c2, e1, e2⟩ := C78_linear (hp := fun v _ => v) Boxtree.Ex.exTree_wf hb .taylor
    Boxtree.Ex.exParticles Boxtree.Ex.exParticles.tgtCount hlen params_gives
  refine ⟨⟨_, trav, _, _, _⟩, _, _, ⟨Boxtree.Ex.exTree_wf, hb, hlen⟩, ⟨s, c1, e1, rfl⟩,
    ⟨_, c2, e2, rfl⟩, ?_⟩
  have h := result_unit
  unfold result at h
  rw [hb] at h
  dsimp only at h
  rw [show costPerStage (fun v _ => v) .taylor Boxtree.Ex.exTree Boxtree.Ex.exParticles trav
      Boxtree.Ex.exParticles.tgtCount ((List.range 10).map fun l : Nat => (l + 1 : ℚ)) unitParams
      = .ok (s, c1) from e1] at h
  simp only [Stages.dict, List.map_cons, List.map_nil, Option.some.injEq, List.cons.injEq] at h
  obtain ⟨h1, h2, h3, h4, h5, h6, h7, h8, -⟩ := h
  intro sp hsp
  fin_cases hsp
  · exact ⟨_, rfl, by rw [h1]; norm_num⟩
  · exact ⟨_, rfl, by rw [h2]; norm_num⟩
  · exact ⟨_, rfl, by rw [h3]; norm_num⟩
  · exact ⟨_, rfl, by rw [h4]; norm_num⟩
  · exact ⟨_, rfl, by rw [h5]; norm_num⟩
  · exact ⟨_, rfl, by rw [h6]; norm_num⟩
  · exact ⟨_, rfl, by rw [h7]; norm_num⟩
  · exact ⟨_, rfl, by rw [h8]; norm_num⟩

/-- Without `c_l2l` there is no result for this tree, with four levels. -/
example : result .taylor (fun n => if n = .const "c_l2l" then none else params n) = none := by
  decide +kernel

end Ex
end Boxtree.Cost
