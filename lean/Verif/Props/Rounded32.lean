import Verif.Lemmas.Rounded32
import Verif.Props.Kernels32
import Verif.Props.RoundedCall

/-!
# C100: rounding and 32-bit integers together

The tests of the traversal builder with every operation rounded, and the size of a box on level `l` computed
as `root_extent / (1 << (l + 1))` with a 32-bit integer.
-/

namespace Boxtree
open BoxTree Build

section
variable {inp : TravInput} {fl rt : ℚ → ℚ} {u M : ℚ} {c0 : Nat → ℚ} {emin emax : Nat → Nat → ℚ}

/-- **C100** (partial), rounding: on a tree with at most 30 levels, a device that rounds builds the same
traversal with 32-bit integers as with mathematical ones, all lists and the exceptions included, for every
rounding and every criterion.  Missing: deeper trees, for which the lists are wrong
(`C100_own_sources_lost_rounded`). -/
theorem C100_rounded_traversal_partial (inp : TravInput) (hw : inp.tree.WF) (hL : inp.tree.nlevels ≤ 30)
    (fl rt : ℚ → ℚ) (c0 : Nat → ℚ) (emin emax : Nat → Nat → ℚ) :
    buildTraversal (inp.withRounded32 fl rt c0 emin emax)
      = buildTraversal { inp with tests := .device (Device.rounded fl rt inp.tree
          (inp.crit.getD .preciseLinf) inp.stickOut inp.eps c0 emin emax) } :=
  buildTraversal_same hw (withRounded32_same hw hL fl rt c0 emin emax)

/-- **C100** (partial), exactly once: with rounding and 32-bit integers, on a tree with at most 30 levels
whose smallest boxes are large compared with rounding errors, the sources of every source box reach the
targets of every target box along exactly one path. -/
theorem C100_rounded_exactly_once_partial (h : RoundedTests inp fl rt u M c0 emin emax)
    (hL : inp.tree.nlevels ≤ 30) (trav : Traversal) (hf : inp.tree.FlagsOK)
    (h1 : inp.sourcesAreTargets = true → ∀ b, b < inp.tree.nboxes →
      (inp.srcMask.getD fun _ => true) b = true → inp.tree.isSource b = inp.tree.isTarget b)
    (h2 : inp.sourcesAreTargets = true → inp.srcMask = none → ∀ b, b < inp.tree.nboxes →
      inp.tree.hasSourceChild b = inp.tree.hasTargetChild b)
    (hb : buildTraversal (inp.withRounded32 fl rt c0 emin emax) = .ok trav) (tgt s : Nat)
    (htgt : tgt ∈ trav.targetBoxes) (hs : s < inp.tree.nboxes) (hsrc : inp.tree.isSource s = true) :
    trav.pathCount inp.tree tgt s = 1 := by
  rw [C100_rounded_traversal_partial inp h.wf hL, ← h.tests] at hb
  exact C65_exactly_once h trav hf h1 h2 hb tgt s htgt hs hsrc

/-- **C100**, what happens on level 30, also with rounding: the sources of a box there do not reach the
targets of the same box, along any list of the traversal. -/
theorem C100_own_sources_lost_rounded (inp : TravInput) (hw : inp.tree.WF)
    (he : inp.targetsHaveExtent = false) (hfl : Rounds fl u) (trav : Traversal)
    (h : buildTraversal (inp.withRounded32 fl rt c0 emin emax) = .ok trav) (b : Nat)
    (hb : b < inp.tree.nboxes) (hl : inp.tree.level b = 30) : trav.pathCount inp.tree b b = 0 := by
  have neg : ∀ x : ℚ, x < 0 → fl x < 0 := by
    intro x hx
    have h1 := (abs_le.1 (hfl.err x)).2
    rw [abs_of_neg hx] at h1
    nlinarith [hfl.small]
  have hr : inp.tree.radF32 fl 30 < 0 := by
    unfold radF32
    apply neg
    have h1 := rad32_level30 inp.tree
    unfold rad32 at h1
    rw [h1]
    linarith [hw.rad_pos 30]
  refine own_lost hw he h hb (fun h0 => ?_) ?_
  · rw [h0, hw.level_root] at hl
    omega
  · show inp.tree.adjF32 fl _ (inp.tree.level b) 1 _ (inp.tree.level b) = false
    rw [hl]
    unfold adjF32
    dsimp only
    rw [min_self]
    have h1 : fl ((2 * (((1 : Nat) : ℚ) - 1) + 1) * inp.tree.radF32 fl 30) < 0 :=
      neg _ (by push_cast; linarith)
    have h2 := neg _ (add_neg (neg _ (add_neg h1 hr)) hr)
    rw [decide_eq_false_iff_not, not_le]
    exact lt_of_lt_of_le h2 (linfF_nonneg _ _ _ _)

/-- **C100** (partial), from the arguments of the tree builder to potentials: as C71, with 32-bit integers in
the traversal builder, for trees with at most 30 levels.  The arithmetic of the call may be `rounded32`, with
32-bit integers in the Morton numbers. -/
theorem C100_rounded_potentials_partial {W : Type} [AddCommMonoid W] {c : Call} {ns nt : Nat}
    {dtype : String} {t : Built} {tin : TravInput} (hd : c.Documented ns nt dtype) (hw : c.SomeWeight)
    (hr : c.args.kind = "adaptive-level-restricted" →
      c.args.sourceRadii = none ∧ c.args.targetRadii = none)
    (h : c.run = .ok t) (ht : c.TravOf rt t tin) (hfl : Rounds c.arith.fl u)
    (hl : t.LargeBoxes u M tin.nAway) (hL : t.tree.nlevels ≤ 30) (trav : Traversal)
    (htr : buildTraversal (tin.withRounded32 c.arith.fl rt (t.stored 0) t.tgtMinF t.tgtMaxF) = .ok trav)
    (weights : Nat → W) (i : Nat) (hi : i < t.particles.ntargets) :
    Fmm.driveFmm t.tree t.particles.toParticles trav weights i
      = ∑ j ∈ Finset.range ns, weights j := by
  have hR := ht.rounded hd hw h hfl hl
  rw [C100_rounded_traversal_partial tin hR.wf (by rw [ht.tree]; exact hL), ← hR.tests] at htr
  exact C71_potentials_partial hd hw hr h ht hfl hl trav htr weights i hi

/-- **C100** (partial), separation: as C71, with 32-bit integers in the traversal builder, for trees with at
most 30 levels. -/
theorem C100_rounded_separated_partial {c : Call} {ns nt : Nat} {dtype : String} {t : Built}
    {tin : TravInput} (hd : c.Documented ns nt dtype) (hw : c.SomeWeight)
    (hr : c.args.kind = "adaptive-level-restricted" →
      c.args.sourceRadii = none ∧ c.args.targetRadii = none)
    (h : c.run = .ok t) (ht : c.TravOf rt t tin) (hfl : Rounds c.arith.fl u)
    (hl : t.LargeBoxes u M tin.nAway) (hL : t.tree.nlevels ≤ 30)
    (hp : ∀ a < c.args.particles.length, ∀ p < ns + nt, |c.coord ns a p| + c.rad ns p ≤ M)
    (trav : Traversal)
    (htr : buildTraversal (tin.withRounded32 c.arith.fl rt (t.stored 0) t.tgtMinF t.tgtMaxF) = .ok trav)
    (hext : tin.targetsHaveExtent = true) (hc : tin.crit = none ∨ tin.crit = some .preciseLinf)
    (tgt l s : Nat) (htgt : tgt ∈ trav.targetBoxes) (hlt : l < t.tree.nlevels)
    (hs3 : s ∈ (trav.list3.getD l ⟨[], []⟩).rowFor (trav.list3Targets.getD l []) tgt)
    (i : Nat) (hi : i ∈ span t.particles.tgtStart t.particles.tgtCumul tgt) (x : Nat → ℚ)
    (hx : ∀ a < t.tree.dims, |x a - t.targets a i| ≤ t.targetRadii i) :
    ∃ a < t.tree.dims, (3 - 8 * tin.eps) * t.tree.rad (t.tree.level s) -
      sepTol t.tree tin.stickOut u M ≤ |x a - t.tree.center s a| := by
  have hR := ht.rounded hd hw h hfl hl
  rw [C100_rounded_traversal_partial tin hR.wf (by rw [ht.tree]; exact hL), ← hR.tests] at htr
  exact (C71_list3_separated_partial hd hw hr h ht hfl hl hp trav htr hext hc tgt l s htgt hlt hs3 i hi x
    hx).1

end

/-- The hypotheses hold for the example in single precision with each criterion. -/
example (crit : Option SmallerCrit) :
    RoundedTests (Ex.exInputF crit) (roundEven 24) (rootTo 24) (1 / 2 ^ 24) 24
      (fun _ => rootCenterF (roundEven 24) 0 16) Ex.exTree.tgtMin Ex.exTree.tgtMax ∧
    (Ex.exInputF crit).OK ∧ (Ex.exInputF crit).tree.nlevels ≤ 30 ∧
    ∃ trav, buildTraversal ((Ex.exInputF crit).withRounded32 (roundEven 24) (rootTo 24)
      (fun _ => rootCenterF (roundEven 24) 0 16) Ex.exTree.tgtMin Ex.exTree.tgtMax) = .ok trav := by
  refine ⟨Ex.exInputF_rounded crit, Ex.exInputF_ok crit, by show Ex.exTree.nlevels ≤ 30; decide, ?_⟩
  rcases crit with _ | _ | _ | _ <;> exact ⟨_, rfl⟩

/-- On the chain of 31 boxes, in double precision. -/
example : ∃ trav, buildTraversal (Ex.chainInput.withRounded32 (roundEven 53) (rootTo 53) (Ex.chain.center 0)
      Ex.chain.tgtMin Ex.chain.tgtMax) = .ok trav ∧ trav.pathCount Ex.chain 30 30 = 0 :=
  ⟨_, rfl, C100_own_sources_lost_rounded Ex.chainInput Ex.chain_wf rfl
    (roundEven_rounds (p := 53) (by decide)) _ rfl 30 (by decide) rfl⟩

/-- The call may use 32-bit integers too: six particles in double precision, with rounding and 32-bit integers
in the tree builder and in the traversal builder. -/
def Ex.denser32 : Call := { Build.Ex.denser with arith := .rounded32 (roundEven 53) (rootTo 53) }

example : Ex.denser32.Documented 6 0 "float64" ∧ Ex.denser32.SomeWeight ∧
    ∃ t, Ex.denser32.run = .ok t ∧ Ex.denser32.TravOf (rootTo 53) t (Build.Ex.travOf 53 t) ∧
      Rounds Ex.denser32.arith.fl (1 / 2 ^ 53) ∧ t.LargeBoxes (1 / 2 ^ 53) (5 * 1) 1 ∧
      t.tree.nlevels ≤ 30 := by
  have hd : Ex.denser32.Documented 6 0 "float64" :=
    { Build.Ex.denser_documented with
      arith := Arith.sound_roundEven (p := 53) (by decide) rfl
      coords := Build.Ex.denser_documented.coords
      box := Build.Ex.denser_documented.box }
  obtain ⟨t, ht, hL⟩ : ∃ t, Ex.denser32.run = .ok t ∧ t.tree.nlevels = 6 :=
    exists_of_look (by decide +kernel)
  have hfl : Rounds Ex.denser32.arith.fl (1 / 2 ^ 53) := roundEven_rounds (by decide)
  refine ⟨hd, Or.inl (by decide), t, ht, { Build.Ex.denser_travOf t with }, hfl, ?_, by omega⟩
  exact C71_large_boxes hd (Or.inl (by decide)) ht hfl rfl (W := 1)
    (by decide +kernel) ⟨0, by decide, 5, by decide, 0, by decide, by decide +kernel⟩ (by norm_num)
    (by norm_num) 1 (by rw [hL]; norm_num)

/-- The hypotheses on the separation hold for sources and targets with radii; list 3 of the box of a target is
not empty. -/
example : ∃ t, Build.Ex.wide.run = .ok t ∧ t.tree.nlevels ≤ 30 ∧
    Build.Ex.wide.TravOf (rootTo 53) t (Build.Ex.wideTrav t) ∧ t.LargeBoxes (1 / 2 ^ 53) (5 * 1) 1 ∧
      ∃ trav, buildTraversal ((Build.Ex.wideTrav t).withRounded32 (roundEven 53) (rootTo 53) (t.stored 0)
        t.tgtMinF t.tgtMaxF) = .ok trav ∧
        ∃ tgt ∈ trav.targetBoxes, ∃ l < t.tree.nlevels, ∃ s,
          s ∈ (trav.list3.getD l ⟨[], []⟩).rowFor (trav.list3Targets.getD l []) tgt ∧
          ∃ i, i ∈ span t.particles.tgtStart t.particles.tgtCumul tgt := by
  have key : Build.Ex.look Build.Ex.wide.run (fun t =>
      [match buildTraversal ((Build.Ex.wideTrav t).withRounded32 (roundEven 53) (rootTo 53) (t.stored 0)
        t.tgtMinF t.tgtMaxF) with
      | .ok trav => decide (t.tree.nlevels = 5 ∧ ∃ tgt ∈ trav.targetBoxes, ∃ L < t.tree.nlevels,
          ∃ s ∈ (trav.list3.getD L ⟨[], []⟩).rowFor (trav.list3Targets.getD L []) tgt,
            ∃ i ∈ span t.particles.tgtStart t.particles.tgtCumul tgt, True)
      | .error _ => false]) = [true] := by decide +kernel
  unfold Build.Ex.look at key
  split at key
  · rename_i t ht
    simp only [List.cons.injEq, and_true] at key
    split at key
    · rename_i trav htr
      obtain ⟨hL, tgt, h1, L, h2, s, h3, i, h4, _⟩ := of_decide_eq_true key
      refine ⟨t, ht, by omega, Build.Ex.wide_travOf t, ?_, trav, htr, tgt, h1, L, h2, s, h3, i, h4⟩
      exact C71_large_boxes Build.Ex.wide_documented (Or.inl (by decide)) ht (roundEven_rounds (by decide)) rfl
        (W := 1) (by decide +kernel) ⟨0, by decide, 5, by decide, 0, by decide, by decide +kernel⟩
        (by norm_num) (by norm_num) 1 (by rw [hL]; norm_num)
    · cases key
  · cases key

end Boxtree
