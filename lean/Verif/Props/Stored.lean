import Verif.Lemmas.StoredBuilt
import Verif.Props.Balanced
import Verif.Props.DeviceTests

/-!
# Box centers and bounding boxes as the tree builder stores them
-/

namespace Boxtree.Build

open BoxTree

variable {inp : Input} {t : Built} {u M : ℚ}

theorem Input.Fine.nonneg {N : Nat} (hF : inp.Fine u M N) (ok : inp.OK) : 0 < M := by
  have := hF.size 0 ok.dims_pos
  have h2 := abs_nonneg (inp.lo 0 + inp.ext 0 / 2)
  have h3 := ok.ext_pos
  linarith

/-- **C70**, box centers: the array of box centers of a tree is what one finds by starting at the
root and adding or subtracting half the width of the box once per level, with a rounding after every
operation.  (These are the centers on which C65 lets the traversal builder work.) -/
theorem C70_stored_path (inp : Input) (ok : inp.OK) (t : Built) (h : inp.build = .ok t) (b : Nat)
    (hb : b < t.tree.nboxes) :
    t.stored b = t.tree.storedCenter inp.arith.fl
      (fun a => rootCenterF inp.arith.fl (inp.lo a) (inp.ext a)) b := by
  have hw := (C52_built_tree_wf inp ok t h).1
  obtain ⟨L, s, hc, o, rfl, hf, _⟩ := Input.build_cases ok h
  exact (finish_stored hf hw b hb).symm

theorem storedCenter_root {t : BoxTree} {fl : ℚ → ℚ} {c c' : Nat → ℚ} {b a : Nat}
    (h : c a = c' a) : t.storedCenter fl c b a = t.storedCenter fl c' b a := by
  unfold storedCenter
  generalize t.level b = l
  induction l generalizing b with
  | zero => exact h
  | succ l ih => unfold centerF; rw [ih]

/-- **C70**, box centers: they are off by at most `5 + 3 * level` units in the last place of the
largest coordinate. -/
theorem C70_center_error (inp : Input) (ok : inp.OK) (t : Built) (h : inp.build = .ok t) (u M : ℚ)
    (hF : inp.Fine u M t.tree.nlevels) (b : Nat) (hb : b < t.tree.nboxes) (a : Nat)
    (ha : a < inp.dims) :
    |t.stored b a - t.tree.center b a| ≤ (5 + 3 * t.tree.level b) * u * M := by
  obtain ⟨hw, _, _, hd, _, _⟩ := C52_built_tree_wf inp ok t h
  have hf := C65_built_tree inp ok t h inp.arith.fl u M 1 hF.rounds hF.size (by
    have := hF.fine
    push_cast
    have e : 5 * (4 * (t.tree.nlevels : ℚ) + 1 + 16) = 5 * (4 * t.tree.nlevels + 17) := by ring
    rw [e]; exact this)
  have := storedCenter_err hF.rounds hw (by rw [hd]; exact ok.dims_pos) hf hb (a := a)
    (by rw [hd]; exact ha)
  rw [C70_stored_path inp ok t h b hb,
    storedCenter_root (c' := fun a => rootCenterF inp.arith.fl (inp.lo a) (inp.ext 0))
      (by rw [ok.cube a ha])]
  exact this

/-- **C70**, bounding boxes: the source (target) bounding box the tree builder returns for a box is
the least box that contains the rounded ends `x - r`, `x + r` of the sources (targets) of its
subtree and the stored centers of the boxes of the subtree.  Partial: without the level-restricted
builder with extents, which loses particles (`C20_restricted_extent_loses_particles`). -/
theorem C70_bounding_boxes_partial (inp : Input) (ok : inp.OK) (hr : inp.Regular) (t : Built)
    (h : inp.build = .ok t) :
    TightAround t.tree t.stored t.particles.srcStart t.particles.srcCumul
      (fun a i => inp.arith.fl (t.sources a i - t.sourceRadii i))
      (fun a i => inp.arith.fl (t.sources a i + t.sourceRadii i)) t.srcMinF t.srcMaxF ∧
    TightAround t.tree t.stored t.particles.tgtStart t.particles.tgtCumul
      (fun a i => inp.arith.fl (t.targets a i - t.targetRadii i))
      (fun a i => inp.arith.fl (t.targets a i + t.targetRadii i)) t.tgtMinF t.tgtMaxF := by
  have hw := (C52_built_tree_wf inp ok t h).1
  obtain ⟨L, s, rfl, hf, _⟩ := Input.build_fin ok hr h
  refine ⟨finish_tight_srcF hf hw ok.n_pos fun _ => ok.nsources_le,
    finish_tight_tgtF hf hw ok.n_pos (fun _ => ok.nsources_le) fun hb => ?_⟩
  have := ok.separate hb
  unfold Input.haveExtent at this
  rw [Bool.or_eq_false_iff] at this
  show inp.sourcesHaveExtent = inp.targetsHaveExtent
  rw [this.1, this.2]

/-- Rounding the end of a particle. -/
theorem Input.Fine.end_err {N : Nat} (hF : inp.Fine u M N) (hN : 1 ≤ N) (hM : 0 < M) {x r y : ℚ}
    (hr : 0 ≤ r) (hx : |x| + r ≤ M) (hy : y = x - r ∨ y = x + r) :
    |inp.arith.fl y - y| ≤ (2 + 3 * N) * u * M := by
  have h1 := hF.rounds.err y
  have h2 : |y| ≤ M := by
    rw [abs_le]
    have := abs_le.1 (le_refl |x|)
    rcases hy with rfl | rfl <;> constructor <;> linarith
  have hu := hF.rounds.u_nonneg
  have h3 : u * |y| ≤ u * M := mul_le_mul_of_nonneg_left h2 hu
  have hN' : (1:ℚ) ≤ N := by exact_mod_cast hN
  have h4 : 0 ≤ u * M := mul_nonneg hu hM.le
  nlinarith

/-- Particles of a box are particles of the call. -/
theorem Input.OK.particle_bound {inp : Input} (ok : inp.OK) {t : Built} (h : inp.build = .ok t) {M : ℚ}
    (hp : ∀ a < inp.dims, ∀ p < inp.n, |inp.x a p| + inp.radius p ≤ M) {b : Nat}
    (hb : b < t.tree.nboxes) {a : Nat} (ha : a < inp.dims) :
    (∀ i ∈ span t.particles.srcStart t.particles.srcCumul b,
      0 ≤ t.sourceRadii i ∧ |t.sources a i| + t.sourceRadii i ≤ M) ∧
    (∀ i ∈ span t.particles.tgtStart t.particles.tgtCumul b,
      0 ≤ t.targetRadii i ∧ |t.targets a i| + t.targetRadii i ≤ M) := by
  obtain ⟨L, s, hc, o, rfl, hf, _⟩ := Input.build_cases ok h
  obtain ⟨e1, e2, e3, e4⟩ := finish_hasCh inp.cloud inp.skipPrune (fun l => s.used l + inp.pad l) L s
    hc o
  have key : ∀ p < inp.n, ∀ (c : Bool) (y r : ℚ), y = inp.x a p →
      (r = if c then inp.radius p else 0) → 0 ≤ r ∧ |y| + r ≤ M := by
    rintro p hpn c y r rfl rfl
    have h1 := hp a ha p hpn
    have h2 := ok.radius_nonneg p hpn
    split
    · exact ⟨h2, h1⟩
    · exact ⟨le_refl _, by linarith⟩
  constructor
  · intro i hi
    obtain ⟨p, l, k, hpn, _, rfl, _, e⟩ := mem_source hf hb (by rw [e1, e3]; exact hi)
    exact key p hpn inp.sourcesHaveExtent _ _ (by rw [← e]; rfl) (by rw [← e]; rfl)
  · intro i hi
    obtain ⟨p, l, k, hpn, _, rfl, _, e, e'⟩ := mem_target hf hb (by rw [e2, e4]; exact hi)
    exact key p hpn inp.targetsHaveExtent _ _ (e a) e'

/-- **C70**, bounding boxes: if `M` also bounds the particles with their radii, the bounding boxes
are off by at most `2 + 3 * nlevels` units in the last place of the largest coordinate. -/
theorem C70_bounding_box_error_partial (inp : Input) (ok : inp.OK) (hr : inp.Regular) (t : Built)
    (h : inp.build = .ok t) (u M : ℚ) (hF : inp.Fine u M t.tree.nlevels)
    (hp : ∀ a < inp.dims, ∀ p < inp.n, |inp.x a p| + inp.radius p ≤ M)
    (b : Nat) (hb : b < t.tree.nboxes) (a : Nat) (ha : a < inp.dims) :
    |t.srcMinF b a - t.srcMin b a| ≤ (2 + 3 * t.tree.nlevels) * u * M ∧
    |t.srcMaxF b a - t.srcMax b a| ≤ (2 + 3 * t.tree.nlevels) * u * M ∧
    |t.tgtMinF b a - t.tree.tgtMin b a| ≤ (2 + 3 * t.tree.nlevels) * u * M ∧
    |t.tgtMaxF b a - t.tree.tgtMax b a| ≤ (2 + 3 * t.tree.nlevels) * u * M := by
  obtain ⟨hS, hT⟩ := C26_bounding_boxes_partial inp ok hr t h
  obtain ⟨hSF, hTF⟩ := C70_bounding_boxes_partial inp ok hr t h
  have hw := (C52_built_tree_wf inp ok t h).1
  have hM := hF.nonneg ok
  have hu := hF.rounds.u_nonneg
  have hN : 1 ≤ t.tree.nlevels := by have := hw.level_lt 0 hw.nboxes_pos; omega
  have hc : ∀ c < t.tree.nboxes, |t.stored c a - t.tree.center c a|
      ≤ (2 + 3 * t.tree.nlevels) * u * M := by
    intro c hcb
    refine (C70_center_error inp ok t h u M hF c hcb a ha).trans ?_
    have h1 : (t.tree.level c : ℚ) + 1 ≤ t.tree.nlevels := by exact_mod_cast hw.level_lt c hcb
    have h2 : 0 ≤ u * M := mul_nonneg hu hM.le
    nlinarith
  obtain ⟨bs, bt⟩ := ok.particle_bound h hp hb ha
  obtain ⟨g1, g2⟩ := hSF.near hS hb hc
    (fun i hi => hF.end_err hN hM (bs i hi).1 (bs i hi).2 (.inl rfl))
    (fun i hi => hF.end_err hN hM (bs i hi).1 (bs i hi).2 (.inr rfl))
  obtain ⟨g3, g4⟩ := hTF.near hT hb hc
    (fun i hi => hF.end_err hN hM (bt i hi).1 (bt i hi).2 (.inl rfl))
    (fun i hi => hF.end_err hN hM (bt i hi).1 (bt i hi).2 (.inr rfl))
  exact ⟨g1, g2, g3, g4⟩

/-- **C70** without rounding: the stored centers are the centers and the stored bounding boxes are
the ones of C26. -/
theorem C70_exact_partial (inp : Input) (ok : inp.OK) (hr : inp.Regular) (hx : inp.arith.fl = id)
    (t : Built) (h : inp.build = .ok t) (b : Nat) (hb : b < t.tree.nboxes) (a : Nat)
    (ha : a < inp.dims) :
    t.stored b a = t.tree.center b a ∧
    t.srcMinF b a = t.srcMin b a ∧ t.srcMaxF b a = t.srcMax b a ∧
    t.tgtMinF b a = t.tree.tgtMin b a ∧ t.tgtMaxF b a = t.tree.tgtMax b a := by
  obtain ⟨M, hF⟩ := Input.fine_exact ok hx t.tree.nlevels
  let B := ((List.range inp.dims).map fun a =>
    ((List.range inp.n).map fun p => |inp.x a p| + inp.radius p).sum).sum
  have hnn : ∀ a, ∀ p < inp.n, 0 ≤ |inp.x a p| + inp.radius p := fun a p hp =>
    add_nonneg (abs_nonneg _) (ok.radius_nonneg p hp)
  have hrow : ∀ a, ∀ y ∈ (List.range inp.n).map fun p => |inp.x a p| + inp.radius p, 0 ≤ y := by
    intro a y hy
    obtain ⟨p, hp, rfl⟩ := List.mem_map.1 hy
    exact hnn a p (List.mem_range.1 hp)
  have hcol : ∀ y ∈ (List.range inp.dims).map fun a =>
      ((List.range inp.n).map fun p => |inp.x a p| + inp.radius p).sum, 0 ≤ y := by
    intro y hy
    obtain ⟨a, _, rfl⟩ := List.mem_map.1 hy
    exact List.sum_nonneg (hrow a)
  have hB0 : 0 ≤ B := List.sum_nonneg hcol
  have hB : ∀ a < inp.dims, ∀ p < inp.n, |inp.x a p| + inp.radius p ≤ B := by
    intro a ha p hp
    refine le_trans (List.single_le_sum (hrow a) _
      (List.mem_map.2 ⟨p, List.mem_range.2 hp, rfl⟩)) ?_
    exact List.single_le_sum hcol _ (List.mem_map.2 ⟨a, List.mem_range.2 ha, rfl⟩)
  have hM := hF.nonneg ok
  have hF' : inp.Fine 0 (M + B) t.tree.nlevels :=
    ⟨hF.rounds, fun a ha => (hF.size a ha).trans (by linarith), by
      have := hF.fine
      rw [mul_zero, zero_mul] at this ⊢
      exact this⟩
  have h0 := C70_center_error inp ok t h 0 (M + B) hF' b hb a ha
  have h1 := C70_bounding_box_error_partial inp ok hr t h 0 (M + B) hF'
    (fun a ha p hp => (hB a ha p hp).trans (by linarith)) b hb a ha
  simp only [mul_zero, zero_mul, abs_nonpos_iff, sub_eq_zero] at h0 h1
  exact ⟨h0, h1⟩

/-- List 3 with the default criterion on a tree with the stored centers and bounding boxes. -/
theorem list3_precise_core (ok : inp.OK) (hr : inp.Regular) {t : Built} (h : inp.build = .ok t)
    (hF : inp.Fine u M t.tree.nlevels)
    (hp : ∀ a < inp.dims, ∀ p < inp.n, |inp.x a p| + inp.radius p ≤ M)
    {tin : TravInput} {fl rt : ℚ → ℚ} {c0 : Nat → ℚ}
    (htree : tin.tree = t.tree) (hst : tin.sourcesAreTargets = inp.sourcesAreTargets)
    (hm1 : tin.srcMask = none) (hm2 : tin.srcParentMask = none)
    (hR : RoundedTests tin fl rt u M c0 t.tgtMinF t.tgtMaxF)
    {trav : Traversal} (ht : buildTraversal tin = .ok trav) (hext : tin.targetsHaveExtent = true)
    (hc : tin.crit = none ∨ tin.crit = some .preciseLinf) {tgt L s : Nat}
    (htgt : tgt ∈ trav.targetBoxes) (hL : L < t.tree.nlevels)
    (hs3 : s ∈ (trav.list3.getD L ⟨[], []⟩).rowFor (trav.list3Targets.getD L []) tgt)
    {i : Nat} (hi : i ∈ span t.particles.tgtStart t.particles.tgtCumul tgt) {x : Nat → ℚ}
    (hx : ∀ a < inp.dims, |x a - t.targets a i| ≤ t.targetRadii i) :
    ∃ a < inp.dims, (3 - 8 * tin.eps) * t.tree.rad (t.tree.level s) -
      sepTol t.tree tin.stickOut u M ≤ |x a - t.tree.center s a| := by
  obtain ⟨hw, _, _, hd, _, _⟩ := C52_built_tree_wf inp ok t h
  have hn := hR.nAway
  have hs := hR.stickOut
  have he0 := hR.eps
  have he := hR.eps_small
  have hok : tin.OK := TravOf.ok ok h ⟨htree, hst, hn, hs, by linarith, hm1, hm2,
    C65_rounded_tests hR⟩
  have htlt : tgt < t.tree.nboxes := by
    rw [← htree]; exact ((mem_targetBoxes_iff tin trav hok ht hm1 tgt).1 htgt).1
  have hM := hF.nonneg ok
  have hu := hF.rounds.u_nonneg
  obtain ⟨_, hT⟩ := C26_bounding_boxes_partial inp ok hr t h
  have hN : (0:ℚ) ≤ t.tree.nlevels := Nat.cast_nonneg _
  have hMs : M ≤ (1 + tin.stickOut) * M := by nlinarith
  have htol : (2 + 3 * t.tree.nlevels) * u * M ≤
      (3 * t.tree.nlevels + 2) * u * ((1 + tin.stickOut) * M) := by
    rw [add_comm 2]
    exact mul_le_mul_of_nonneg_left hMs (by positivity)
  have hcb : ∀ c < t.tree.nboxes, ∀ a < inp.dims, |t.tree.center c a| ≤ M := by
    intro c hc a ha
    have h1 := center_bound hw hc (a := a) (by rw [hd]; exact ha)
    have h2 := hR.fine.size a (by rw [htree, hd]; exact ha)
    rw [htree] at h2
    have h3 := hw.rad_pos (t.tree.level c)
    have h4 := hw.ext_pos
    rw [rad_zero] at h1
    have h5 := abs_sub_abs_le_abs_sub (t.tree.center c a) (t.tree.center 0 a)
    linarith
  have hmin : ∀ a < inp.dims, -M ≤ t.tree.tgtMin tgt a ∧ t.tree.tgtMin tgt a ≤ t.tree.tgtMax tgt a ∧
      t.tree.tgtMax tgt a ≤ M := by
    intro a ha
    have hb := (ok.particle_bound h hp htlt ha).2
    have hcc := hT.centers tgt htlt a tgt htlt ⟨le_refl _, ancAt_self _ _⟩
    refine ⟨hT.greatest tgt htlt a _ (fun i hi => ?_) fun c hc _ => (abs_le.1 (hcb c hc a ha)).1,
      hcc.1.trans hcc.2,
      hT.least tgt htlt a _ (fun i hi => ?_) fun c hc _ => (abs_le.1 (hcb c hc a ha)).2⟩
    · have := hb i hi
      have := neg_abs_le (t.targets a i)
      linarith
    · have := hb i hi
      have := le_abs_self (t.targets a i)
      linarith
  have herr := fun a ha => C70_bounding_box_error_partial inp ok hr t h u M hF hp tgt htlt a ha
  have hdd : tin.tree.dims = inp.dims := by rw [htree]; exact hd
  have := C65_list3_precise_linf hR hok trav ht hext hc tgt L s htgt (by rw [htree]; exact hL) hs3
    (fun a ha => by
      rw [hdd] at ha
      rw [htree]
      refine ⟨?_, (herr a ha).2.2.1.trans htol⟩
      obtain ⟨h1, h2, h3⟩ := hmin a ha
      exact (abs_le.2 ⟨h1, by linarith⟩).trans hMs)
    (fun a ha => by
      rw [hdd] at ha
      rw [htree]
      refine ⟨?_, (herr a ha).2.2.2.trans htol⟩
      obtain ⟨h1, h2, h3⟩ := hmin a ha
      exact (abs_le.2 ⟨by linarith, h3⟩).trans hMs)
    (fun a ha => by rw [hdd] at ha; rw [htree]; exact (hmin a ha).2.1) x
    (by
      intro a ha
      rw [hdd] at ha
      rw [htree]
      have h1 := hT.contains tgt htlt a i hi
      have h2 := abs_le.1 (hx a ha)
      constructor <;> linarith [h1.1, h1.2])
  rw [htree, hd] at this
  exact this

/-- **C70**, list 3 of the traversal builder with its default criterion, on a tree with the stored
centers and bounding boxes: every point of a target of a box with its radius is away from the center
of a box in its list 3 by at least three radii of that box, up to rounding errors of a fraction of
the smallest box (`C65_tolerance`). -/
theorem C70_list3_precise_linf_partial (inp : Input) (ok : inp.OK) (hr : inp.Regular) (t : Built)
    (h : inp.build = .ok t) (u M : ℚ) (hF : inp.Fine u M t.tree.nlevels)
    (hp : ∀ a < inp.dims, ∀ p < inp.n, |inp.x a p| + inp.radius p ≤ M)
    (tin : TravInput) (rt : ℚ → ℚ)
    (htree : tin.tree = t.tree) (hst : tin.sourcesAreTargets = inp.sourcesAreTargets)
    (hm1 : tin.srcMask = none) (hm2 : tin.srcParentMask = none)
    (htests : tin.tests = .device (Device.rounded inp.arith.fl rt tin.tree
      (tin.crit.getD .preciseLinf) tin.stickOut tin.eps
      (fun a => rootCenterF inp.arith.fl (inp.lo a) (inp.ext 0)) t.tgtMinF t.tgtMaxF))
    (hf : 5 * (4 * t.tree.nlevels + tin.nAway + 16) * u * M < inp.ext 0 / 2 ^ t.tree.nlevels)
    (hn : 1 ≤ tin.nAway) (hs : 0 ≤ tin.stickOut) (he0 : 0 ≤ tin.eps) (he : tin.eps ≤ 1 / 24)
    (trav : Traversal) (ht : buildTraversal tin = .ok trav) (hext : tin.targetsHaveExtent = true)
    (hc : tin.crit = none ∨ tin.crit = some .preciseLinf) (tgt L s : Nat)
    (htgt : tgt ∈ trav.targetBoxes) (hL : L < t.tree.nlevels)
    (hs3 : s ∈ (trav.list3.getD L ⟨[], []⟩).rowFor (trav.list3Targets.getD L []) tgt)
    (i : Nat) (hi : i ∈ span t.particles.tgtStart t.particles.tgtCumul tgt) (x : Nat → ℚ)
    (hx : ∀ a < inp.dims, |x a - t.targets a i| ≤ t.targetRadii i) :
    ∃ a < inp.dims, (3 - 8 * tin.eps) * t.tree.rad (t.tree.level s) -
      sepTol t.tree tin.stickOut u M ≤ |x a - t.tree.center s a| := by
  obtain ⟨hw, _, _, hd, _, _⟩ := C52_built_tree_wf inp ok t h
  have hR : RoundedTests tin inp.arith.fl rt u M
      (fun a => rootCenterF inp.arith.fl (inp.lo a) (inp.ext 0)) t.tgtMinF t.tgtMaxF :=
    ⟨htests, hF.rounds, by rw [htree]; exact hw, by rw [htree, hd]; exact ok.dims_pos,
      by rw [htree]; exact C65_built_tree inp ok t h _ u M _ hF.rounds hF.size hf, hn, hs, he0, he⟩
  exact list3_precise_core ok hr h hF hp htree hst hm1 hm2 hR ht hext hc htgt hL hs3 hi hx

namespace Ex

/-- `graded` in single precision, in a bounding box with a lower corner that is not a short binary
number. -/
def gradedF : Input :=
  { graded with
    x := fun _ p => [9 / 20, 11 / 20, 0].getD p 0
    lo := fun _ => -13421773 / 2 ^ 27
    arith := .rounded (roundEven 24) (rootTo 24) }

theorem gradedF_placed : gradedF.Placed where
  dims_pos := by decide
  n_pos := by decide
  nsources_le := by decide
  separate := by decide
  ext_pos := by decide +kernel
  cube := by decide +kernel
  radius_nonneg := by decide +kernel
  lower := by decide +kernel
  upper := by decide +kernel
  off_upper := by decide +kernel

theorem gradedF_ok : gradedF.OK := gradedF_placed.toOK

theorem gradedF_fine : gradedF.Fine (1 / 2 ^ 24) (3 / 2) 4 where
  rounds := roundEven_rounds (by decide)
  size := by decide +kernel
  fine := by
    show (5 * (4 * ((4 : Nat) : ℚ) + 17) * (1 / 2 ^ 24) * (3 / 2) : ℚ) < 1 / 2 ^ 4
    norm_num

/-- `line`, with sources and targets with extents, in single precision. -/
def lineS : Input := { line with arith := .rounded (roundEven 24) (rootTo 24) }

theorem lineS_placed : lineS.Placed where
  dims_pos := line_ok.dims_pos
  n_pos := line_ok.n_pos
  nsources_le := line_ok.nsources_le
  separate := line_ok.separate
  ext_pos := line_ok.ext_pos
  cube := line_ok.cube
  radius_nonneg := line_ok.radius_nonneg
  lower := line_placed.lower
  upper := line_placed.upper
  off_upper := line_placed.off_upper

theorem lineS_ok : lineS.OK := lineS_placed.toOK

end Ex

/-- The hypotheses of C70 and of C27 with rounding hold for an example with five leaves on levels 2
and 3, whose stored centers are not the exact ones. -/
example : Ex.gradedF.OK ∧ Ex.gradedF.Regular ∧ Ex.gradedF.levelRestrict = true ∧
    Ex.gradedF.haveExtent = false ∧ Ex.gradedF.Fine (1 / 2 ^ 24) (3 / 2) 4 ∧
    (∀ a < Ex.gradedF.dims, ∀ p < Ex.gradedF.n, |Ex.gradedF.x a p| + Ex.gradedF.radius p ≤ 3 / 2) ∧
    Ex.look Ex.gradedF.build (fun t => [t.tree.nlevels, t.tree.nboxes]) = [4, 9] ∧
    Ex.look Ex.gradedF.build (fun t => [decide (t.stored 1 0 = t.tree.center 1 0),
      decide (t.srcMaxF 1 0 = t.srcMax 1 0)]) = [false, false] :=
  ⟨Ex.gradedF_ok, .inr rfl, rfl, rfl, Ex.gradedF_fine, by decide +kernel, by decide +kernel,
    by decide +kernel⟩

/-- The hypotheses of the statement about list 3 hold for an example with extents. -/
example : Ex.lineS.OK ∧ Ex.lineS.Regular ∧ Ex.lineS.targetsHaveExtent = true ∧
    (∀ a < Ex.lineS.dims, |Ex.lineS.lo a + Ex.lineS.ext 0 / 2| + Ex.lineS.ext 0 ≤ 2) ∧
    (∀ a < Ex.lineS.dims, ∀ p < Ex.lineS.n, |Ex.lineS.x a p| + Ex.lineS.radius p ≤ 2) ∧
    Ex.look Ex.lineS.build (fun t =>
      [decide (5 * (4 * (t.tree.nlevels : ℚ) + 17) * (1 / 2 ^ 24) * 2 <
        Ex.lineS.ext 0 / 2 ^ t.tree.nlevels)]) = [true] ∧
    Ex.look Ex.lineS.build (fun t => [decide (t.tgtMinF 3 0 = t.tree.tgtMin 3 0)]) = [false] :=
  ⟨Ex.lineS_ok, Ex.line_regular, rfl, by decide +kernel, by decide +kernel, by decide +kernel,
    by decide +kernel⟩

namespace Ex

/-- Two particles at neighbouring single precision numbers in a bounding box of width 10. -/
def tiny : Input :=
  { graded with
    n := 2
    nsources := 2
    x := fun _ p => 2 ^ 23 + 3 + p
    lo := fun _ => 2 ^ 23
    ext := fun _ => 10
    arith := .rounded (roundEven 24) (rootTo 24) }

end Ex

/-- Finding **ii**, **C27** is false for tiny boxes: two particles at neighbouring single precision
numbers.  The right half (box 2, a leaf on level 1) touches box 6, a leaf on level 3; with the
rounded centers they appear separated. -/
theorem C27_tiny_boxes_unbalanced : Ex.tiny.Placed ∧ Ex.tiny.levelRestrict = true ∧
    Ex.tiny.haveExtent = false ∧
    (∀ p < 2, roundEven 24 (Ex.tiny.x 0 p) = Ex.tiny.x 0 p) ∧
    Rounds (roundEven 24) (1 / 2 ^ 24) ∧
    ∃ t, Ex.tiny.build = .ok t ∧ IsLeaf t.tree 2 ∧ IsLeaf t.tree 6 ∧ Touch t.tree 2 6 ∧
      t.tree.level 2 = 1 ∧ t.tree.level 6 = 3 := by
  refine ⟨?_, rfl, rfl, by decide +kernel, roundEven_rounds (by decide), ?_⟩
  · exact
    { dims_pos := by decide
      n_pos := by decide
      nsources_le := by decide
      separate := by decide
      ext_pos := by decide +kernel
      cube := by decide +kernel
      radius_nonneg := by decide +kernel
      lower := by decide +kernel
      upper := by decide +kernel
      off_upper := by decide +kernel }
  · apply Ex.look_true
    decide +kernel

end Boxtree.Build
