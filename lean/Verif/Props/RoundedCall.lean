import Verif.Spec.RoundedCall
import Verif.Props.Rounding
import Verif.Props.Stored
import Verif.Props.FmmLibBuilt

/-!
# C71: from the arguments of the tree builder to potentials, with rounding throughout

The bounding box, the Morton numbers, the stick-out tests, the stored box centers and target bounding
boxes, and the tests of the traversal builder are all computed with rounding.
-/

namespace Boxtree.Build
open BoxTree

section
variable {c : Call} {ns nt : Nat} {dtype : String} {rt : ℚ → ℚ} {t : Built} {tin : TravInput}
  {u M : ℚ}

/-- The hypothesis of C65 on the device. -/
theorem Call.TravOf.rounded (hd : c.Documented ns nt dtype) (hw : c.SomeWeight)
    (h : c.run = .ok t) (ht : c.TravOf rt t tin) (hfl : Rounds c.arith.fl u)
    (hl : t.LargeBoxes u M tin.nAway) :
    RoundedTests tin c.arith.fl rt u M (t.stored 0) t.tgtMinF t.tgtMaxF := by
  obtain ⟨inp, h1, ok, _, hin⟩ := C56_documented_call c ns nt dtype hd hw
  rw [h1] at h
  obtain ⟨hwf, _, _, hdim, he, hc⟩ := C52_built_tree_wf inp ok t h
  have hM : ∀ a < inp.dims, |inp.lo a + inp.ext 0 / 2| + inp.ext 0 ≤ M := by
    intro a ha
    have := hl.size a (by rw [hdim]; exact ha)
    rw [hc, he, ok.cube a ha] at this
    exact this
  have hf := hl.fine
  rw [he] at hf
  have hF := C65_built_tree inp ok t h c.arith.fl u M tin.nAway hfl hM hf
  have hroot : ∀ a < inp.dims,
      t.stored 0 a = rootCenterF c.arith.fl (inp.lo a) (inp.ext 0) := by
    intro a ha
    rw [C70_stored_path inp ok t h 0 hwf.nboxes_pos]
    unfold storedCenter
    rw [hwf.level_root]
    show rootCenterF inp.arith.fl (inp.lo a) (inp.ext a) = _
    rw [hin.arith, ok.cube a ha]
  exact
    { tests := by rw [ht.tests, ht.tree]
      rounds := hfl
      wf := by rw [ht.tree]; exact hwf
      dims := by rw [ht.tree, hdim]; exact ok.dims_pos
      fine := by
        rw [ht.tree]
        exact ⟨hF.size, fun a ha => by rw [hroot a (by rw [← hdim]; exact ha)]; exact hF.root a ha,
          hF.fine⟩
      nAway := ht.nAway
      stickOut := ht.stickOut
      eps := ht.eps
      eps_small := ht.eps_small }

/-- The centers the device of `Call.TravOf` works with are those the tree builder returned. -/
theorem C71_reads_stored_centers (hd : c.Documented ns nt dtype) (hw : c.SomeWeight)
    (h : c.run = .ok t) (b : Nat) (hb : b < t.tree.nboxes) :
    t.tree.storedCenter c.arith.fl (t.stored 0) b = t.stored b := by
  obtain ⟨inp, h1, ok, _, hin⟩ := C56_documented_call c ns nt dtype hd hw
  rw [h1] at h
  have hwf := (C52_built_tree_wf inp ok t h).1
  have h0 := C70_stored_path inp ok t h 0 hwf.nboxes_pos
  have e : t.stored 0 = fun a => rootCenterF inp.arith.fl (inp.lo a) (inp.ext a) := by
    rw [h0]
    funext a
    unfold storedCenter
    rw [hwf.level_root]
    rfl
  rw [C70_stored_path inp ok t h b hb, e, hin.arith]

/-- **C71.** For a documented call in floating point arithmetic, and a traversal built with the same
rounding from the tree it returned, the FMM adds up the weights of all sources at every target, each
exactly once, if the smallest boxes are large compared with rounding errors.  Partial: not for level
restriction with radii (`C20_restricted_extent_loses_particles`), and without the condition on the
boxes it is false (`C71_tiny_boxes_lose_pairs`). -/
theorem C71_potentials_partial {W : Type} [AddCommMonoid W] (hd : c.Documented ns nt dtype)
    (hw : c.SomeWeight)
    (hr : c.args.kind = "adaptive-level-restricted" →
      c.args.sourceRadii = none ∧ c.args.targetRadii = none)
    (h : c.run = .ok t) (ht : c.TravOf rt t tin) (hfl : Rounds c.arith.fl u)
    (hl : t.LargeBoxes u M tin.nAway) (trav : Traversal) (htr : buildTraversal tin = .ok trav)
    (weights : Nat → W) (i : Nat) (hi : i < t.particles.ntargets) :
    Fmm.driveFmm t.tree t.particles.toParticles trav weights i
      = ∑ j ∈ Finset.range ns, weights j :=
  C56_potentials_partial c ns nt dtype hd hw hr t h tin ht.tree ht.sourcesAreTargets ht.nAway
    ht.stickOut (ht.eps_small.trans (by norm_num)) ht.noMask ht.noParentMask
    (C65_rounded_tests (ht.rounded hd hw h hfl hl)) trav htr weights i hi

/-- **C71**, other drivers: the hypothesis of C61 and C63 on the traversal, so that they hold with
rounding too. -/
theorem C71_traversal_ok (hd : c.Documented ns nt dtype) (hw : c.SomeWeight)
    (h : c.run = .ok t) (ht : c.TravOf rt t tin) (hfl : Rounds c.arith.fl u)
    (hl : t.LargeBoxes u M tin.nAway) : CallTrav c t tin :=
  ⟨ht.tree, ht.sourcesAreTargets, ht.nAway, ht.stickOut, ht.eps_small.trans (by norm_num), ht.noMask,
    ht.noParentMask, C65_rounded_tests (ht.rounded hd hw h hfl hl)⟩

/-- The hypothesis of C27 on the boxes. -/
theorem Built.LargeBoxes.toFine {inp : Input} {n : Nat} (hl : t.LargeBoxes u M n) (ok : inp.OK)
    (hin : c.InputOf ns nt dtype inp) (hfl : Rounds c.arith.fl u) (hn : 1 ≤ n)
    (h : inp.build = .ok t) : inp.Fine u M t.tree.nlevels := by
  obtain ⟨hwf, _, _, hdim, he, hcen⟩ := C52_built_tree_wf inp ok t h
  have hM : ∀ a < inp.dims, |inp.lo a + inp.ext 0 / 2| + inp.ext 0 ≤ M := by
    intro a ha
    have := hl.size a (by rw [hdim]; exact ha)
    rw [hcen, he, ok.cube a ha] at this
    exact this
  have hf := hl.fine
  rw [he] at hf
  have hM0 : 0 ≤ M := by
    have h2 := hM 0 ok.dims_pos
    have := ok.ext_pos
    have := abs_nonneg (inp.lo 0 + inp.ext 0 / 2)
    linarith
  refine ⟨by rw [hin.arith]; exact hfl, hM, lt_of_le_of_lt ?_ hf⟩
  have hn : (1 : ℚ) ≤ n := by exact_mod_cast hn
  have h2 := mul_nonneg hfl.nonneg_u hM0
  have h3 := mul_le_mul_of_nonneg_right
    (show 5 * (4 * (t.tree.nlevels : ℚ) + 17) ≤ 5 * (4 * t.tree.nlevels + n + 16) by
      linarith) h2
  rw [mul_assoc, mul_assoc (5 * (4 * (t.tree.nlevels : ℚ) + n + 16))]
  exact h3

/-- **C71**, separation: with the default criterion, every point of a target of a box (with its
radius) is away from the center of a box in its list 3 by at least three radii of that box, up to a
fraction of the smallest box. -/
theorem C71_list3_separated_partial (hd : c.Documented ns nt dtype) (hw : c.SomeWeight)
    (hr : c.args.kind = "adaptive-level-restricted" →
      c.args.sourceRadii = none ∧ c.args.targetRadii = none)
    (h : c.run = .ok t) (ht : c.TravOf rt t tin) (hfl : Rounds c.arith.fl u)
    (hl : t.LargeBoxes u M tin.nAway)
    (hp : ∀ a < c.args.particles.length, ∀ p < ns + nt, |c.coord ns a p| + c.rad ns p ≤ M)
    (trav : Traversal) (htr : buildTraversal tin = .ok trav) (hext : tin.targetsHaveExtent = true)
    (hc : tin.crit = none ∨ tin.crit = some .preciseLinf) (tgt L s : Nat)
    (htgt : tgt ∈ trav.targetBoxes) (hL : L < t.tree.nlevels)
    (hs3 : s ∈ (trav.list3.getD L ⟨[], []⟩).rowFor (trav.list3Targets.getD L []) tgt)
    (i : Nat) (hi : i ∈ span t.particles.tgtStart t.particles.tgtCumul tgt) (x : Nat → ℚ)
    (hx : ∀ a < t.tree.dims, |x a - t.targets a i| ≤ t.targetRadii i) :
    (∃ a < t.tree.dims, (3 - 8 * tin.eps) * t.tree.rad (t.tree.level s) -
      sepTol t.tree tin.stickOut u M ≤ |x a - t.tree.center s a|) ∧
    sepTol t.tree tin.stickOut u M < (1 + tin.stickOut) * t.tree.rad (t.tree.nlevels - 1) := by
  have hR := ht.rounded hd hw h hfl hl
  have htol := (C65_tolerance hR).2
  rw [ht.tree] at htol
  refine ⟨?_, htol⟩
  obtain ⟨inp, h1, ok, _, hin⟩ := C56_documented_call c ns nt dtype hd hw
  rw [h1] at h
  obtain ⟨hwf, _, _, hdim, he, hcen⟩ := C52_built_tree_wf inp ok t h
  have hF := hl.toFine ok hin hfl ht.nAway h
  have hreg : inp.Regular := by
    by_cases hlr : inp.levelRestrict = true
    · obtain ⟨r1, r2⟩ := hr (hin.levelRestrict.1 hlr)
      right
      unfold Input.haveExtent
      rw [hin.sourcesHaveExtent, hin.targetsHaveExtent, r1, r2]
      rfl
    · left
      simpa using hlr
  rw [hdim] at hx ⊢
  exact list3_precise_core ok hreg h hF
    (fun a ha p hp' => by
      rw [hin.coord, hin.rad]
      exact hp a (by rw [← hin.dims]; exact ha) p (by rw [← hin.n]; exact hp'))
    ht.tree (ht.sourcesAreTargets.trans hin.sourcesAreTargets.symm) ht.noMask ht.noParentMask hR htr
    hext hc htgt hL hs3 hi hx

/-- **C71**, when boxes are large enough: if the bounding box is automatic, no coordinate exceeds `B`
and two particles are `W` apart along some axis, then the tree may have as many levels `L` as satisfy
`25 (4 L + n + 16) 2^L u B < W`.  In double precision, with `W ≥ B / 2` and `n = 1`, that is 39. -/
theorem C71_large_boxes (hd : c.Documented ns nt dtype) (hw : c.SomeWeight) (h : c.run = .ok t)
    (hfl : Rounds c.arith.fl u) (hbox : c.bbox = none) {B W : ℚ}
    (hB : ∀ a < c.args.particles.length, ∀ p < ns + nt, |c.coord ns a p| + c.rad ns p ≤ B)
    (hW : ∃ a < c.args.particles.length, ∃ p < ns + nt, ∃ q < ns + nt,
      W ≤ c.coord ns a p - c.coord ns a q)
    (hW0 : 0 < W) (hres : 400000 * u * B ≤ W) (n : Nat)
    (hL : 25 * (4 * t.tree.nlevels + n + 16) * 2 ^ t.tree.nlevels * u * B < W) :
    t.LargeBoxes u (5 * B) n := by
  obtain ⟨inp, h1, ok, _, hin⟩ := C56_documented_call c ns nt dtype hd hw
  rw [h1] at h
  obtain ⟨hwf, _, _, hdim, he, hc⟩ := C52_built_tree_wf inp ok t h
  obtain ⟨_, hext, _, hsum⟩ := hin.room hd ok hfl hbox hB hW hW0 hres
  constructor
  · intro a ha
    rw [hdim] at ha
    have h2 := hsum a ha
    rw [hc, he]
    rw [ok.cube a ha] at h2 ⊢
    have h3 := ok.ext_pos
    have h4 := abs_add_le (inp.lo a) (inp.ext 0 / 2)
    rw [abs_of_pos (show 0 < inp.ext 0 / 2 by linarith)] at h4
    have h5 := abs_nonneg (inp.lo a)
    linarith
  · rw [he, lt_div_iff₀ (by positivity)]
    refine lt_of_lt_of_le (lt_of_eq_of_lt ?_ hL) hext
    ring

end

namespace Ex
open _root_.Boxtree.Ex

/-- Particles on a line, with a limit of one particle per box. -/
def lineOf (dtype : String) (p : Nat) (xs : List ℚ) (bbox : Option (List (ℚ × ℚ))) : Call where
  args :=
    { particles := [⟨dtype, xs.length⟩]
      kind := "adaptive"
      maxParticlesInBox := some 1
      targets := none
      sourceRadii := none
      targetRadii := none
      stickOutFactor := none
      refineWeights := none
      maxLeafRefineWeight := none
      extentNorm := none }
  src := fun _ i => xs.getD i 0
  tgt := fun _ _ => 0
  srcRadius := fun _ => 0
  tgtRadius := fun _ => 0
  bbox := bbox
  skipPrune := false
  pad := fun _ => 0
  arith := .rounded (roundEven p) (rootTo p)

/-- Six particles in double precision, closer to each other towards the left. -/
def denser : Call := lineOf "float64" 53 [0, 1 / 16, 1 / 8, 3 / 16, 1 / 2, 1] none

/-- Four neighbouring single precision numbers in a bounding box of width 4. -/
def nextTo : Call :=
  lineOf "float32" 24 [2 ^ 23, 2 ^ 23 + 1, 2 ^ 23 + 2, 2 ^ 23 + 3] (some [(2 ^ 23, 2 ^ 23 + 4)])

theorem denser_documented : denser.Documented 6 0 "float64" where
  shapes :=
    { kind := Or.inl rfl
      norm := Or.inl rfl
      particles := ⟨by decide, by decide⟩
      targets := rfl
      radii := by decide
      sourceRadii := Or.inl rfl
      targetRadii := Or.inl rfl
      nonempty := by decide }
  limit := Or.inl ⟨1, rfl, rfl, rfl, le_refl _⟩
  dtype := Or.inl rfl
  arith := Arith.sound_roundEven (p := 53) (by decide) rfl
  coords := by decide +kernel
  radius_nonneg := by decide +kernel
  box := Or.inr ⟨0, by decide, 0, by decide, 1, by decide, by decide +kernel⟩

theorem nextTo_documented : nextTo.Documented 4 0 "float32" where
  shapes :=
    { kind := Or.inl rfl
      norm := Or.inl rfl
      particles := ⟨by decide, by decide⟩
      targets := rfl
      radii := by decide
      sourceRadii := Or.inl rfl
      targetRadii := Or.inl rfl
      nonempty := by decide }
  limit := Or.inl ⟨1, rfl, rfl, rfl, le_refl _⟩
  dtype := Or.inr rfl
  arith := Arith.sound_roundEven (p := 24) (by decide) rfl
  coords := by decide +kernel
  radius_nonneg := by decide +kernel
  box := ⟨rfl, by decide +kernel⟩

/-- The traversal for the tree of one of these calls. -/
def travOf (p : Nat) (t : Built) : TravInput :=
  { exInput with
    tree := t.tree
    eps := 2 / 2 ^ p
    tests := .device (Device.rounded (roundEven p) (rootTo p) t.tree .preciseLinf 0 (2 / 2 ^ p)
      (t.stored 0) t.tgtMinF t.tgtMaxF) }

theorem denser_travOf (t : Built) :
    denser.TravOf (rootTo 53) t (travOf 53 t) where
  tree := rfl
  sourcesAreTargets := rfl
  nAway := by show 1 ≤ 1; decide
  stickOut := by show (0:ℚ) ≤ 0; norm_num
  eps := by show (0:ℚ) ≤ 2 / 2 ^ 53; norm_num
  eps_small := by show (2 / 2 ^ 53 : ℚ) ≤ 1 / 24; norm_num
  noMask := rfl
  noParentMask := rfl
  tests := rfl

theorem nextTo_travOf (t : Built) :
    nextTo.TravOf (rootTo 24) t (travOf 24 t) where
  tree := rfl
  sourcesAreTargets := rfl
  nAway := by show 1 ≤ 1; decide
  stickOut := by show (0:ℚ) ≤ 0; norm_num
  eps := by show (0:ℚ) ≤ 2 / 2 ^ 24; norm_num
  eps_small := by show (2 / 2 ^ 24 : ℚ) ≤ 1 / 24; norm_num
  noMask := rfl
  noParentMask := rfl
  tests := rfl

/-- Six sources and two targets with radii, in double precision. -/
def wide : Call where
  args :=
    { (lineOf "float64" 53 [0, 5 / 16, 6 / 16, 7 / 16, 1 / 2, 1] none).args with
      targets := some [⟨"float64", 2⟩]
      targetRadii := some ("float64", [2])
      stickOutFactor := some (1 / 4)
      extentNorm := some "linf" }
  src := fun _ i => [0, 5 / 16, 6 / 16, 7 / 16, 1 / 2, 1].getD i 0
  tgt := fun _ i => [5 / 8, 1 / 16].getD i 0
  srcRadius := fun _ => 0
  tgtRadius := fun i => [1 / 64, 1 / 128].getD i 0
  bbox := none
  skipPrune := false
  pad := fun _ => 0
  arith := .rounded (roundEven 53) (rootTo 53)

theorem wide_documented : wide.Documented 6 2 "float64" where
  shapes :=
    { kind := Or.inl rfl
      norm := Or.inr (Or.inl rfl)
      particles := ⟨by decide, by decide⟩
      targets := ⟨⟨by decide, by decide⟩, rfl⟩
      radii := by decide
      sourceRadii := Or.inl rfl
      targetRadii := Or.inr rfl
      nonempty := by decide }
  limit := Or.inl ⟨1, rfl, rfl, rfl, le_refl _⟩
  dtype := Or.inl rfl
  arith := Arith.sound_roundEven (p := 53) (by decide) rfl
  coords := by decide +kernel
  radius_nonneg := by decide +kernel
  box := Or.inr ⟨0, by decide, 0, by decide, 1, by decide, by decide +kernel⟩

def wideTrav (t : Built) : TravInput :=
  { exInput with
    tree := t.tree
    sourcesAreTargets := false
    targetsHaveExtent := true
    extentNorm := some .linf
    stickOut := 1 / 4
    eps := 2 / 2 ^ 53
    tests := .device (Device.rounded (roundEven 53) (rootTo 53) t.tree .preciseLinf (1 / 4)
      (2 / 2 ^ 53) (t.stored 0) t.tgtMinF t.tgtMaxF) }

theorem wide_travOf (t : Built) : wide.TravOf (rootTo 53) t (wideTrav t) where
  tree := rfl
  sourcesAreTargets := rfl
  nAway := by show 1 ≤ 1; decide
  stickOut := by show (0:ℚ) ≤ 1 / 4; norm_num
  eps := by show (0:ℚ) ≤ 2 / 2 ^ 53; norm_num
  eps_small := by show (2 / 2 ^ 53 : ℚ) ≤ 1 / 24; norm_num
  noMask := rfl
  noParentMask := rfl
  tests := rfl

end Ex

/-- The hypotheses on the separation hold for sources and targets with radii; list 3 of the box of the
first target is not empty. -/
example : Ex.wide.Documented 6 2 "float64" ∧ Ex.wide.SomeWeight ∧
    Ex.wide.args.kind ≠ "adaptive-level-restricted" ∧ ∃ t, Ex.wide.run = .ok t ∧
      Ex.wide.TravOf (rootTo 53) t (Ex.wideTrav t) ∧ Rounds Ex.wide.arith.fl (1 / 2 ^ 53) ∧
      t.LargeBoxes (1 / 2 ^ 53) (5 * 1) 1 ∧
      (∀ a < 1, ∀ p < 6 + 2, |Ex.wide.coord 6 a p| + Ex.wide.rad 6 p ≤ 5 * 1) ∧
      ∃ trav, buildTraversal (Ex.wideTrav t) = .ok trav ∧
        ∃ tgt ∈ trav.targetBoxes, ∃ L < t.tree.nlevels, ∃ s,
          s ∈ (trav.list3.getD L ⟨[], []⟩).rowFor (trav.list3Targets.getD L []) tgt ∧
          ∃ i, i ∈ span t.particles.tgtStart t.particles.tgtCumul tgt := by
  have key : Ex.look Ex.wide.run (fun t => [match buildTraversal (Ex.wideTrav t) with
      | .ok trav => decide (t.tree.nlevels = 5 ∧ ∃ tgt ∈ trav.targetBoxes, ∃ L < t.tree.nlevels,
          ∃ s ∈ (trav.list3.getD L ⟨[], []⟩).rowFor (trav.list3Targets.getD L []) tgt,
            ∃ i ∈ span t.particles.tgtStart t.particles.tgtCumul tgt, True)
      | .error _ => false]) = [true] := by decide +kernel
  unfold Ex.look at key
  split at key
  · rename_i t ht
    simp only [List.cons.injEq, and_true] at key
    split at key
    · rename_i trav htr
      obtain ⟨hL, tgt, h1, L, h2, s, h3, i, h4, _⟩ := of_decide_eq_true key
      have hfl : Rounds Ex.wide.arith.fl (1 / 2 ^ 53) := roundEven_rounds (by decide)
      refine ⟨Ex.wide_documented, Or.inl (by decide), by decide, t, ht, Ex.wide_travOf t, hfl, ?_,
        by decide +kernel, trav, htr, tgt, h1, L, h2, s, h3, i, h4⟩
      exact C71_large_boxes Ex.wide_documented (Or.inl (by decide)) ht hfl rfl (W := 1)
        (by decide +kernel) ⟨0, by decide, 5, by decide, 0, by decide, by decide +kernel⟩
        (by norm_num) (by norm_num) 1 (by rw [hL]; norm_num)
    · cases key
  · cases key

/-- The hypotheses hold for six particles in double precision; the tree has six levels. -/
example : Ex.denser.Documented 6 0 "float64" ∧ Ex.denser.SomeWeight ∧
    ∃ t, Ex.denser.run = .ok t ∧ Ex.denser.TravOf (rootTo 53) t (Ex.travOf 53 t) ∧
      Rounds Ex.denser.arith.fl (1 / 2 ^ 53) ∧ t.LargeBoxes (1 / 2 ^ 53) (5 * 1) 1 ∧
      t.tree.nlevels = 6 := by
  obtain ⟨t, ht, hL⟩ : ∃ t, Ex.denser.run = .ok t ∧ t.tree.nlevels = 6 :=
    exists_of_look (by decide +kernel)
  have hfl : Rounds Ex.denser.arith.fl (1 / 2 ^ 53) := roundEven_rounds (by decide)
  refine ⟨Ex.denser_documented, Or.inl (by decide), t, ht, Ex.denser_travOf t, hfl, ?_, hL⟩
  exact C71_large_boxes Ex.denser_documented (Or.inl (by decide)) ht hfl rfl (W := 1)
    (by decide +kernel) ⟨0, by decide, 5, by decide, 0, by decide, by decide +kernel⟩ (by norm_num)
    (by norm_num) 1 (by rw [hL]; norm_num)

/-- Finding **ee** for a call: four neighbouring single precision numbers in a bounding box of width
4.  The call is documented, but the boxes are not large compared with rounding errors; the FMM leaves
out a source. -/
theorem C71_tiny_boxes_lose_pairs : Ex.nextTo.Documented 4 0 "float32" ∧ Ex.nextTo.SomeWeight ∧
    Rounds Ex.nextTo.arith.fl (1 / 2 ^ 24) ∧
    ∃ t trav, Ex.nextTo.run = .ok t ∧ Ex.nextTo.TravOf (rootTo 24) t (Ex.travOf 24 t) ∧
      buildTraversal (Ex.travOf 24 t) = .ok trav ∧
      (List.range 4).map (Fmm.driveFmm t.tree t.particles.toParticles trav fun _ => 1) ≠
        [4, 4, 4, 4] := by
  refine ⟨Ex.nextTo_documented, Or.inl (by decide), roundEven_rounds (by decide), ?_⟩
  have key : Ex.look Ex.nextTo.run (fun t => [match buildTraversal (Ex.travOf 24 t) with
      | .ok trav => decide ((List.range 4).map
          (Fmm.driveFmm t.tree t.particles.toParticles trav fun _ => 1) ≠ [4, 4, 4, 4])
      | .error _ => false]) = [true] := by decide +kernel
  unfold Ex.look at key
  split at key
  · rename_i t ht
    simp only [List.cons.injEq, and_true] at key
    split at key
    · rename_i trav htr
      exact ⟨t, trav, ht, Ex.nextTo_travOf t, htr, of_decide_eq_true key⟩
    · cases key
  · cases key

end Boxtree.Build
