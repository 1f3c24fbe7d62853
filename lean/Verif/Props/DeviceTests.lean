import Verif.Lemmas.DeviceSep
import Verif.Props.Separation
import Verif.Props.BuiltTree

set_option linter.unusedVariables false

/-!
# C65: interaction lists computed in floating point arithmetic
-/

namespace Boxtree
open BoxTree Build

section
variable {inp : TravInput} {fl rt : ℚ → ℚ} {u M : ℚ} {c0 : Nat → ℚ} {emin emax : Nat → Nat → ℚ}

/-- **C65.** If the smallest boxes are large compared with rounding errors, a device that rounds
decides correctly which boxes touch, and its list-4 criterion passes from boxes to their children:
all statements about the traversal builder that ask for `TestsOK` (through `TravInput.OK`, such
as C01 to C08) hold for the lists it builds. -/
theorem C65_rounded_tests (h : RoundedTests inp fl rt u M c0 emin emax) : inp.TestsOK := by
  unfold TravInput.TestsOK
  rw [h.tests]
  refine ⟨fun n hn a b ha hb => ?_, fun _ a s ha hs h0 hp => ?_⟩
  · have hn1 : 1 ≤ n := by rcases hn with rfl | rfl; exacts [le_refl _, h.nAway]
    have hn2 : n ≤ inp.nAway := by rcases hn with rfl | rfl; exacts [h.nAway, le_refl _]
    rw [← h.wf.nws_iff_touch hn1 ha hb]
    exact adjF_iff h.rounds h.wf h.dims hn1 h.fine hn2 ha hb
  · exact sepBiggerF_mono h.rounds h.wf h.dims h.fine h.eps h.eps_small h.stickOut ha hs h0 hp

/-- **C65**, exactly once: also with rounding, the sources of every source box reach the targets of
every target box along exactly one path through the lists. -/
theorem C65_exactly_once (h : RoundedTests inp fl rt u M c0 emin emax) (trav : Traversal)
    (hf : inp.tree.FlagsOK)
    (h1 : inp.sourcesAreTargets = true → ∀ b, b < inp.tree.nboxes →
      (inp.srcMask.getD fun _ => true) b = true → inp.tree.isSource b = inp.tree.isTarget b)
    (h2 : inp.sourcesAreTargets = true → inp.srcMask = none → ∀ b, b < inp.tree.nboxes →
      inp.tree.hasSourceChild b = inp.tree.hasTargetChild b)
    (hb : buildTraversal inp = .ok trav) (tgt s : Nat) (htgt : tgt ∈ trav.targetBoxes)
    (hs : s < inp.tree.nboxes) (hsrc : inp.tree.isSource s = true) :
    trav.pathCount inp.tree tgt s = 1 :=
  C01_exactly_once inp trav ⟨h.wf, hf, h.nAway, h.stickOut, by linarith [h.eps_small], h1, h2,
    C65_rounded_tests h⟩ hb tgt s htgt hs hsrc

/-- **C65**, lists that do not depend on rounding: near neighbours, list 1 and list 2 have the same
members as in exact arithmetic; without target extents so do lists 3 and 4. -/
theorem C65_same_lists (ok : inp.OK) (ok' : { inp with tests := .exact }.OK)
    (trav trav' : Traversal) (hb : buildTraversal inp = .ok trav)
    (hb' : buildTraversal { inp with tests := .exact } = .ok trav') :
    (∀ b s, b < inp.tree.nboxes → (s ∈ trav.slnws.row b ↔ s ∈ trav'.slnws.row b)) ∧
    (∀ tgt s, tgt ∈ trav.targetBoxes → tgt ∈ trav'.targetBoxes →
      (s ∈ trav.list1.rowFor trav.targetBoxes tgt ↔ s ∈ trav'.list1.rowFor trav'.targetBoxes tgt)) ∧
    (∀ b s, b ∈ trav.ttpBoxes → b ∈ trav'.ttpBoxes →
      (s ∈ trav.list2.rowFor trav.ttpBoxes b ↔ s ∈ trav'.list2.rowFor trav'.ttpBoxes b)) ∧
    (inp.targetsHaveExtent = false →
      (∀ tgt L s, tgt ∈ trav.targetBoxes → tgt ∈ trav'.targetBoxes → L < inp.tree.nlevels →
        (s ∈ (trav.list3.getD L ⟨[], []⟩).rowFor (trav.list3Targets.getD L []) tgt ↔
          s ∈ (trav'.list3.getD L ⟨[], []⟩).rowFor (trav'.list3Targets.getD L []) tgt)) ∧
      (∀ b s, b ∈ trav.ttpBoxes → b ∈ trav'.ttpBoxes →
        (s ∈ trav.list4.rowFor trav.ttpBoxes b ↔ s ∈ trav'.list4.rowFor trav'.ttpBoxes b))) := by
  refine ⟨fun b s hlt => ?_, fun tgt s ht ht' => ?_, fun b s h1 h1' => ?_, fun he => ⟨?_, ?_⟩⟩
  · rw [(C04_near_neighbours_exact inp trav ok hb b hlt).2.1 s,
      (C04_near_neighbours_exact _ trav' ok' hb' b hlt).2.1 s]
  · rw [(C03_list1_exact inp trav ok hb tgt ht).2 s, (C03_list1_exact _ trav' ok' hb' tgt ht').2 s]
  · rw [(C05_list2_exact inp trav ok hb b h1).2 s, (C05_list2_exact _ trav' ok' hb' b h1').2 s]
  · intro tgt L s ht ht' hL
    rw [(C06_list3_exact inp trav ok hb tgt L ht hL).2 s,
      (C06_list3_exact _ trav' ok' hb' tgt L ht' hL).2 s]
    have e : ∀ x, SepSmaller inp tgt x ↔ SepSmaller { inp with tests := .exact } tgt x := by
      intro x; simp [SepSmaller, he]
    simp only [e]
  · intro b s h1 h1'
    rw [(C07_list4_exact inp trav ok hb b h1).2 s, (C07_list4_exact _ trav' ok' hb' b h1').2 s]
    have e : ∀ x y, SepBigger inp x y ↔ SepBigger { inp with tests := .exact } x y := by
      intro x y; simp [SepBigger, he]
    simp only [e]

/-- The tolerance below is smaller than `1 + stickOut` times the radius of the smallest box. -/
theorem C65_tolerance (h : RoundedTests inp fl rt u M c0 emin emax) :
    0 ≤ sepTol inp.tree inp.stickOut u M ∧ sepTol inp.tree inp.stickOut u M <
      (1 + inp.stickOut) * inp.tree.rad (inp.tree.nlevels - 1) := by
  have hu := h.rounds.u_nonneg
  have hM := h.fine.nonneg h.wf h.dims
  have hs := h.stickOut
  have hL : (0:ℚ) ≤ inp.tree.nlevels := Nat.cast_nonneg _
  have hn : (0:ℚ) ≤ inp.nAway := Nat.cast_nonneg _
  unfold sepTol
  refine ⟨by positivity, ?_⟩
  have e : 20 * ((inp.tree.nlevels : ℚ) + 4) * (1 + inp.stickOut) * u * M =
    (1 + inp.stickOut) * ((20 * inp.tree.nlevels + 80) * (u * M)) := by ring
  rw [e]
  apply mul_lt_mul_of_pos_left _ (by linarith)
  have h1 := h.fine.fine
  have e2 : 5 * (4 * (inp.tree.nlevels : ℚ) + inp.nAway + 16) * u * M =
    (20 * inp.tree.nlevels + 80) * (u * M) + 5 * (inp.nAway * (u * M)) := by ring
  have : 0 ≤ inp.nAway * (u * M) := mul_nonneg hn (mul_nonneg hu hM.le)
  linarith

/-- **C65**, separation of list 3 with `static_linf` (compare C13), up to the tolerance. -/
theorem C65_list3_static_linf (h : RoundedTests inp fl rt u M c0 emin emax) (ok : inp.OK)
    (trav : Traversal) (hb : buildTraversal inp = .ok trav) (he : inp.targetsHaveExtent = true)
    (hc : inp.crit = some .staticLinf) (tgt L s : Nat) (htgt : tgt ∈ trav.targetBoxes)
    (hL : L < inp.tree.nlevels)
    (hs : s ∈ (trav.list3.getD L ⟨[], []⟩).rowFor (trav.list3Targets.getD L []) tgt)
    (x : Nat → ℚ)
    (hx : InRegion inp.tree.dims
      (fun i => inp.tree.center tgt i - (1 + inp.stickOut) * inp.tree.rad (inp.tree.level tgt))
      (fun i => inp.tree.center tgt i + (1 + inp.stickOut) * inp.tree.rad (inp.tree.level tgt))
      x) :
    ∃ i, i < inp.tree.dims ∧
      (3 - 8 * inp.eps) * inp.tree.rad (inp.tree.level s) - sepTol inp.tree inp.stickOut u M ≤
        |x i - inp.tree.center s i| := by
  have hm := ((C06_list3_exact inp trav ok hb tgt L htgt hL).2 s).1 hs
  obtain ⟨hslt, _, _, _, _, _, _, hsep, _⟩ := hm
  have hf := (hsep he).1
  unfold FarSmaller at hf
  simp only [h.tests, hc, Option.getD_some, Device.rounded] at hf
  obtain ⟨i, hi, hle⟩ := staticLinfF_far h.rounds h.wf h.dims h.fine h.eps h.eps_small h.stickOut
    ((travFields hb).target_lt htgt) hslt hf
  refine ⟨i, hi, ?_⟩
  have hxi := hx i hi
  have htri := abs_sub_le (inp.tree.center tgt i) (x i) (inp.tree.center s i)
  have hxa : |inp.tree.center tgt i - x i| ≤
      (1 + inp.stickOut) * inp.tree.rad (inp.tree.level tgt) := by
    rw [abs_le]; constructor <;> linarith [hxi.1, hxi.2]
  linarith

/-- **C65**, separation of list 3 with `precise_linf`, the default, up to the tolerance; the stored
bounding boxes are accurate up to the errors of the box centers they contain. -/
theorem C65_list3_precise_linf (h : RoundedTests inp fl rt u M c0 emin emax) (ok : inp.OK)
    (trav : Traversal) (hb : buildTraversal inp = .ok trav) (he : inp.targetsHaveExtent = true)
    (hc : inp.crit = none ∨ inp.crit = some .preciseLinf) (tgt L s : Nat)
    (htgt : tgt ∈ trav.targetBoxes) (hL : L < inp.tree.nlevels)
    (hs : s ∈ (trav.list3.getD L ⟨[], []⟩).rowFor (trav.list3Targets.getD L []) tgt)
    (hlo : ∀ i < inp.tree.dims, |inp.tree.tgtMin tgt i| ≤ (1 + inp.stickOut) * M ∧
      |emin tgt i - inp.tree.tgtMin tgt i| ≤
        (3 * inp.tree.nlevels + 2) * u * ((1 + inp.stickOut) * M))
    (hhi : ∀ i < inp.tree.dims, |inp.tree.tgtMax tgt i| ≤ (1 + inp.stickOut) * M ∧
      |emax tgt i - inp.tree.tgtMax tgt i| ≤
        (3 * inp.tree.nlevels + 2) * u * ((1 + inp.stickOut) * M))
    (hlh : ∀ i < inp.tree.dims, inp.tree.tgtMin tgt i ≤ inp.tree.tgtMax tgt i)
    (x : Nat → ℚ)
    (hx : InRegion inp.tree.dims (inp.tree.tgtMin tgt) (inp.tree.tgtMax tgt) x) :
    ∃ i, i < inp.tree.dims ∧
      (3 - 8 * inp.eps) * inp.tree.rad (inp.tree.level s) - sepTol inp.tree inp.stickOut u M ≤
        |x i - inp.tree.center s i| := by
  have hm := ((C06_list3_exact inp trav ok hb tgt L htgt hL).2 s).1 hs
  obtain ⟨hslt, _, _, _, _, _, _, hsep, _⟩ := hm
  have hf := (hsep he).1
  have hg : inp.crit.getD .preciseLinf = .preciseLinf := by
    rcases hc with hc | hc <;> rw [hc] <;> rfl
  unfold FarSmaller at hf
  simp only [h.tests, hg, Device.rounded] at hf
  obtain ⟨i, hi, hle⟩ := preciseLinfF_far h.rounds h.wf h.dims h.fine h.eps h.eps_small h.stickOut
    hslt hlo hhi hlh hf
  refine ⟨i, hi, ?_⟩
  have hxi := hx i hi
  set mid := (inp.tree.tgtMin tgt i + inp.tree.tgtMax tgt i) / 2 with hmid
  have htri := abs_sub_le mid (x i) (inp.tree.center s i)
  have hxa : |mid - x i| ≤ (inp.tree.tgtMax tgt i - inp.tree.tgtMin tgt i) / 2 := by
    rw [abs_le, hmid]; constructor <;> linarith [hxi.1, hxi.2]
  linarith

/-- **C65**, separation of list 3 with `static_l2`, up to the tolerance. -/
theorem C65_list3_static_l2 (h : RoundedTests inp fl rt u M c0 emin emax) (ok : inp.OK)
    (hrt : RoundsRoot rt u) (hd3 : inp.tree.dims ≤ 3)
    (trav : Traversal) (hb : buildTraversal inp = .ok trav) (he : inp.targetsHaveExtent = true)
    (hc : inp.crit = some .staticL2) (tgt L s : Nat) (htgt : tgt ∈ trav.targetBoxes)
    (hL : L < inp.tree.nlevels)
    (hs : s ∈ (trav.list3.getD L ⟨[], []⟩).rowFor (trav.list3Targets.getD L []) tgt)
    (x : Nat → ℚ)
    (hx : Real.sqrt (∑ i ∈ Finset.range inp.tree.dims,
        ((x i - inp.tree.center tgt i : ℚ) : ℝ) ^ 2) ≤
      Real.sqrt inp.tree.dims * ((1 + inp.stickOut) * inp.tree.rad (inp.tree.level tgt) : ℚ)) :
    (((3 - 8 * inp.eps) * inp.tree.rad (inp.tree.level s) -
        sepTol inp.tree inp.stickOut u M : ℚ) : ℝ) ≤
      Real.sqrt (∑ i ∈ Finset.range inp.tree.dims,
        ((x i - inp.tree.center s i : ℚ) : ℝ) ^ 2) := by
  have hm := ((C06_list3_exact inp trav ok hb tgt L htgt hL).2 s).1 hs
  obtain ⟨hslt, _, _, _, _, _, _, hsep, _⟩ := hm
  have hf := (hsep he).1
  unfold FarSmaller at hf
  simp only [h.tests, hc, Option.getD_some, Device.rounded] at hf
  have key := staticL2F_far h.rounds hrt h.wf h.dims hd3 h.fine h.eps h.eps_small h.stickOut
    ((travFields hb).target_lt htgt) hslt hf
  have tri := sqrt_sum_add inp.tree.dims
    (fun i => -((x i - inp.tree.center tgt i : ℚ) : ℝ))
    (fun i => ((x i - inp.tree.center s i : ℚ) : ℝ))
  have e1 : ∀ i, -((x i - inp.tree.center tgt i : ℚ) : ℝ) + ((x i - inp.tree.center s i : ℚ) : ℝ) =
      ((inp.tree.center tgt i - inp.tree.center s i : ℚ) : ℝ) := by
    intro i; push_cast; ring
  simp only [e1, neg_sq] at tri
  have e2 : (((3 - 8 * inp.eps) * inp.tree.rad (inp.tree.level s) -
        sepTol inp.tree inp.stickOut u M : ℚ) : ℝ) =
      (((2 - 8 * inp.eps) * inp.tree.rad (inp.tree.level s) -
        sepTol inp.tree inp.stickOut u M : ℚ) : ℝ) + (inp.tree.rad (inp.tree.level s) : ℚ) := by
    push_cast; ring
  rw [e2]
  linarith

/-- **C65**, separation of list 4 up to the tolerance. -/
theorem C65_list4_separated (h : RoundedTests inp fl rt u M c0 emin emax) (ok : inp.OK)
    (trav : Traversal) (hbt : buildTraversal inp = .ok trav) (he : inp.targetsHaveExtent = true)
    (b s : Nat) (hb : b ∈ trav.ttpBoxes) (hs : s ∈ trav.list4.rowFor trav.ttpBoxes b)
    (x y : Nat → ℚ)
    (hx : InRegion inp.tree.dims
      (fun i => inp.tree.center b i - (1 + inp.stickOut) * inp.tree.rad (inp.tree.level b))
      (fun i => inp.tree.center b i + (1 + inp.stickOut) * inp.tree.rad (inp.tree.level b)) x)
    (hy : InRegion inp.tree.dims (inp.tree.lo s) (inp.tree.hi s) y) :
    ∃ i, i < inp.tree.dims ∧
      2 * ((1 + inp.stickOut) * inp.tree.rad (inp.tree.level b)) -
        8 * inp.eps * (3 * ((1 + inp.stickOut) * inp.tree.rad (inp.tree.level b)) +
          inp.tree.rad (inp.tree.level s)) - sepTol inp.tree inp.stickOut u M ≤ |x i - y i| := by
  have hm := ((C07_list4_exact inp trav ok hbt b hb).2 s).1 hs
  obtain ⟨hslt, _, _, _, _, ⟨_, hsep⟩, _⟩ := hm
  have hsep' := hsep he
  simp only [h.tests, Device.rounded] at hsep'
  obtain ⟨i, hi, hle⟩ := sepBiggerF_far h.rounds h.wf h.dims h.fine h.eps h.eps_small h.stickOut
    ((travFields hbt).ttp_lt hb) hslt hsep'
  refine ⟨i, hi, ?_⟩
  have hxi := hx i hi
  have hyi := hy i hi
  simp only [BoxTree.lo, BoxTree.hi] at hyi
  set c := inp.tree.center b i
  set c' := inp.tree.center s i
  have htri : |c - c'| ≤ |c - x i| + |x i - y i| + |y i - c'| := by
    have h1 := abs_sub_le c (x i) c'
    have h2 := abs_sub_le (x i) (y i) c'
    linarith
  have hxa : |c - x i| ≤ (1 + inp.stickOut) * inp.tree.rad (inp.tree.level b) := by
    rw [abs_le]; constructor <;> linarith [hxi.1, hxi.2]
  have hya : |y i - c'| ≤ inp.tree.rad (inp.tree.level s) := by
    rw [abs_le]; constructor <;> linarith [hyi.1, hyi.2]
  have he3 : (3 * (1 + inp.stickOut) * inp.tree.rad (inp.tree.level b) +
      inp.tree.rad (inp.tree.level s)) * (1 - 8 * inp.eps) =
      3 * ((1 + inp.stickOut) * inp.tree.rad (inp.tree.level b)) +
      inp.tree.rad (inp.tree.level s) -
      8 * inp.eps * (3 * ((1 + inp.stickOut) * inp.tree.rad (inp.tree.level b)) +
          inp.tree.rad (inp.tree.level s)) := by ring
  rw [he3] at hle
  linarith

end

/-- **C65** for trees of the tree builder: if its smallest boxes are large compared with the rounding
errors of numbers of the size of the bounding box, the hypothesis on the tree is met by the root
center the tree builder computes. -/
theorem C65_built_tree (inp : Input) (ok : inp.OK) (t : Built) (h : inp.build = .ok t)
    (fl : ℚ → ℚ) (u M : ℚ) (n : Nat) (hr : Rounds fl u)
    (hM : ∀ a < inp.dims, |inp.lo a + inp.ext 0 / 2| + inp.ext 0 ≤ M)
    (hf : 5 * (4 * t.tree.nlevels + n + 16) * u * M < inp.ext 0 / 2 ^ t.tree.nlevels) :
    FineEnough t.tree (fun a => rootCenterF fl (inp.lo a) (inp.ext 0)) u M n := by
  obtain ⟨hw, _, _, hd, he, hc⟩ := C52_built_tree_wf inp ok t h
  have hl : 1 ≤ t.tree.nlevels := by have := hw.level_lt 0 hw.nboxes_pos; omega
  refine ⟨fun a ha => ?_, fun a ha => ?_, ?_⟩
  · rw [hc, he, ok.cube a (by rw [← hd]; exact ha)]
    exact hM a (by rw [← hd]; exact ha)
  · rw [hc, ok.cube a (by rw [← hd]; exact ha)]
    exact rootCenterF_err hr (hM a (by rw [← hd]; exact ha)) ok.ext_pos
  · unfold BoxTree.rad
    rw [he, show t.tree.nlevels - 1 + 1 = t.tree.nlevels by omega]
    exact hf

/-- **C65**, the whole pipeline: also when the traversal builder rounds, every target receives the
weight of every source exactly once. -/
theorem C65_fmm_on_built_tree {W : Type} [AddCommMonoid W] (inp : Input) (ok : inp.OK)
    (hr : inp.Regular) (t : Built) (h : inp.build = .ok t) (tin : TravInput)
    {fl rt : ℚ → ℚ} {u M : ℚ} {emin emax : Nat → Nat → ℚ}
    (htree : tin.tree = t.tree) (hst : tin.sourcesAreTargets = inp.sourcesAreTargets)
    (hm1 : tin.srcMask = none) (hm2 : tin.srcParentMask = none)
    (htests : tin.tests = .device (Device.rounded fl rt tin.tree (tin.crit.getD .preciseLinf)
      tin.stickOut tin.eps (fun a => rootCenterF fl (inp.lo a) (inp.ext 0)) emin emax))
    (hfl : Rounds fl u) (hM : ∀ a < inp.dims, |inp.lo a + inp.ext 0 / 2| + inp.ext 0 ≤ M)
    (hf : 5 * (4 * t.tree.nlevels + tin.nAway + 16) * u * M < inp.ext 0 / 2 ^ t.tree.nlevels)
    (hn : 1 ≤ tin.nAway) (hs : 0 ≤ tin.stickOut) (he0 : 0 ≤ tin.eps) (he : tin.eps ≤ 1 / 24)
    (trav : Traversal) (ht : buildTraversal tin = .ok trav)
    (weights : Nat → W) (i : Nat) (hit : i < t.particles.ntargets) :
    Fmm.driveFmm t.tree t.particles.toParticles trav weights i
      = ∑ j ∈ Finset.range t.particles.nsources, weights j := by
  obtain ⟨hw, _, _, hd, _, _⟩ := C52_built_tree_wf inp ok t h
  have hR : RoundedTests tin fl rt u M (fun a => rootCenterF fl (inp.lo a) (inp.ext 0)) emin emax :=
    ⟨htests, hfl, by rw [htree]; exact hw, by rw [htree, hd]; exact ok.dims_pos,
      by rw [htree]; exact C65_built_tree inp ok t h fl u M _ hfl hM hf, hn, hs, he0, he⟩
  exact C53_fmm_on_built_tree_partial inp ok hr t h tin
    ⟨htree, hst, hn, hs, by linarith, hm1, hm2, C65_rounded_tests hR⟩ trav ht weights i hit

namespace Ex

/-- The example in single precision with ties to even. -/
def exInputF (crit : Option SmallerCrit) : TravInput :=
  { exInputExt with
    crit := crit
    tests := .device (Device.rounded (roundEven 24) (rootTo 24) exTree (crit.getD .preciseLinf)
      (1 / 4) (1 / 1000) (fun _ => rootCenterF (roundEven 24) 0 16) exTree.tgtMin exTree.tgtMax) }

theorem exInputF_rounded (crit : Option SmallerCrit) :
    RoundedTests (exInputF crit) (roundEven 24) (rootTo 24) (1 / 2 ^ 24) 24
      (fun _ => rootCenterF (roundEven 24) 0 16) exTree.tgtMin exTree.tgtMax where
  tests := rfl
  rounds := roundEven_rounds (by decide)
  wf := exTree_wf
  dims := by show 0 < exTree.dims; decide
  fine := ⟨by show ∀ a < exTree.dims, |exTree.center 0 a| + exTree.rootExtent ≤ 24; decide +kernel,
    by show ∀ a < exTree.dims, |rootCenterF (roundEven 24) 0 16 - exTree.center 0 a| ≤
         5 * (1 / 2 ^ 24) * 24
       decide +kernel, by
    show (5 * (4 * ((4 : Nat) : ℚ) + ((2 : Nat) : ℚ) + 16) * (1 / 2 ^ 24) * 24 : ℚ) < 16 / 2 ^ (4 - 1 + 1)
    norm_num⟩
  nAway := by show 1 ≤ 2; decide
  stickOut := by show (0:ℚ) ≤ 1 / 4; norm_num
  eps := by show (0:ℚ) ≤ 1 / 1000; norm_num
  eps_small := by show (1 / 1000 : ℚ) ≤ 1 / 24; norm_num

theorem exInputF_ok (crit : Option SmallerCrit) : (exInputF crit).OK :=
  ⟨exTree_wf, exTree_flags, by show 1 ≤ 2; decide, by show (0:ℚ) ≤ 1 / 4; norm_num,
    by show (1 / 1000 : ℚ) ≤ 1 / 12; norm_num, (fun h => nomatch h), (fun h => nomatch h),
    C65_rounded_tests (exInputF_rounded crit)⟩

/-- Four particles at neighbouring single precision numbers. -/
def close : Input where
  dims := 1
  n := 4
  sourcesAreTargets := true
  nsources := 4
  x := fun _ p => 2 ^ 23 + p
  radius := fun _ => 0
  sourcesHaveExtent := false
  targetsHaveExtent := false
  l2 := false
  stickOut := 0
  weight := fun _ => 1
  maxWeight := 1
  adaptive := true
  levelRestrict := false
  nlevelsMax := 106
  lo := fun _ => 2 ^ 23
  ext := fun _ => 4
  skipPrune := false
  pad := fun _ => 0
  arith := .rounded (roundEven 24) (rootTo 24)

def closeTrav (t : Built) : TravInput :=
  { exInput with
    tree := t.tree
    eps := 1 / 2 ^ 23
    tests := .device (Device.rounded (roundEven 24) (rootTo 24) t.tree .preciseLinf 0 (1 / 2 ^ 23)
      (fun a => rootCenterF (roundEven 24) (close.lo a) (close.ext a)) t.tree.tgtMin t.tree.tgtMax) }

end Ex

/-- The hypotheses hold for the example with each criterion, whose lists 3 and 4 are not empty. -/
example (crit : Option SmallerCrit) :
    RoundedTests (Ex.exInputF crit) (roundEven 24) (rootTo 24) (1 / 2 ^ 24) 24
      (fun _ => rootCenterF (roundEven 24) 0 16) Ex.exTree.tgtMin Ex.exTree.tgtMax ∧
    (Ex.exInputF crit).OK ∧ RoundsRoot (rootTo 24) (1 / 2 ^ 24) :=
  ⟨Ex.exInputF_rounded crit, Ex.exInputF_ok crit, rootTo_rounds 24⟩

example : ∃ trav, buildTraversal (Ex.exInputF none) = .ok trav ∧
    8 ∈ (trav.list3.getD 3 ⟨[], []⟩).rowFor (trav.list3Targets.getD 3 []) 5 ∧
    4 ∈ trav.list4.rowFor trav.ttpBoxes 7 ∧
    (List.range 9).map (trav.pathCount Ex.exTree 5) = [0, 0, 0, 1, 1, 1, 0, 1, 1] := by
  refine ⟨_, rfl, ?_, ?_, ?_⟩ <;> decide +kernel

/-- The hypotheses on the tree hold for the plane example of the tree builder. -/
example : Ex.plane.OK ∧ Ex.plane.Regular ∧ (∀ a < Ex.plane.dims,
      |Ex.plane.lo a + Ex.plane.ext 0 / 2| + Ex.plane.ext 0 ≤ 2) ∧
    Ex.look Ex.plane.build (fun t =>
      [decide (5 * (4 * (t.tree.nlevels : ℚ) + 1 + 16) * (1 / 2 ^ 24) * 2 <
        Ex.plane.ext 0 / 2 ^ t.tree.nlevels)]) = [true] :=
  ⟨Ex.plane_ok, Ex.plane_regular, by decide +kernel, by decide +kernel⟩

/-- The hypotheses on the target bounding boxes hold for box 5 of the example. -/
example : ∀ i < Ex.exTree.dims, |Ex.exTree.tgtMin 5 i| ≤ (1 + 1 / 4) * 24 ∧
    |Ex.exTree.tgtMax 5 i| ≤ (1 + 1 / 4) * 24 ∧ Ex.exTree.tgtMin 5 i ≤ Ex.exTree.tgtMax 5 i := by
  decide +kernel

/-- Finding **ee**, the hypothesis `FineEnough` is needed: four particles at neighbouring single
precision numbers in a bounding box of width 4.  The boxes around them have width 1 and their
centers are between two representable numbers; after rounding, two touching boxes appear separated,
and their particles interact along no path. -/
theorem C65_tiny_boxes_lose_pairs : Ex.close.Placed ∧ Ex.close.Regular ∧
    (∀ p < 4, roundEven 24 (Ex.close.x 0 p) = Ex.close.x 0 p) ∧
    Rounds (roundEven 24) (1 / 2 ^ 24) ∧
    ∃ t trav, Ex.close.build = .ok t ∧ buildTraversal (Ex.closeTrav t) = .ok trav ∧
      3 ∈ trav.targetBoxes ∧ t.tree.isSource 4 = true ∧ t.tree.Touch 3 4 ∧
      trav.pathCount t.tree 3 4 = 0 := by
  refine ⟨⟨⟨by decide, by decide, by decide, by decide, by decide +kernel, by decide +kernel,
    by decide +kernel⟩, by decide +kernel, by decide +kernel, by decide +kernel⟩, Or.inl rfl,
    by decide +kernel, roundEven_rounds (by decide), ?_⟩
  have key : Ex.look Ex.close.build (fun t => [match buildTraversal (Ex.closeTrav t) with
      | .ok trav => decide (3 ∈ trav.targetBoxes ∧ t.tree.isSource 4 = true ∧
          (∀ i, i < t.tree.dims → t.tree.lo 4 i ≤ t.tree.hi 3 i ∧ t.tree.lo 3 i ≤ t.tree.hi 4 i) ∧
          trav.pathCount t.tree 3 4 = 0)
      | .error _ => false]) = [true] := by decide +kernel
  unfold Ex.look at key
  split at key
  · rename_i t ht
    simp only [List.cons.injEq, and_true] at key
    split at key
    · rename_i trav htr
      have key' := of_decide_eq_true key
      exact ⟨t, trav, ht, htr, key'⟩
    · cases key
  · cases key

end Boxtree
