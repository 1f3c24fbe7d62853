import Verif.Lemmas.Extents
import Verif.Lemmas.Inside
import Verif.Model.BuildArgs

/-!
# The tree builder

`Input` is what is left of the arguments of `TreeBuilder.__call__` after the checks, `Input.OK` what
the checks guarantee, `Input.build` the builder.
-/

namespace Boxtree.Build

/-! ### Examples -/

namespace Ex

/-- Two sources and three targets on a line, two of the targets with a radius. -/
def line : Input where
  dims := 1
  n := 5
  sourcesAreTargets := false
  nsources := 2
  x := fun _ p => [7 / 10, 1 / 10, 3 / 5, 9 / 10, 2 / 5].getD p 0
  radius := fun p => [0, 0, 0, 1 / 20, 1 / 5].getD p 0
  sourcesHaveExtent := false
  targetsHaveExtent := true
  l2 := false
  stickOut := 1 / 4
  weight := fun _ => 1
  maxWeight := 2
  adaptive := true
  levelRestrict := false
  nlevelsMax := 106
  lo := fun _ => 0
  ext := fun _ => 1
  skipPrune := false
  pad := fun _ => 0

/-- Three particles in the plane that are sources and targets. -/
def plane : Input where
  dims := 2
  n := 3
  sourcesAreTargets := true
  nsources := 3
  x := fun a p => if a = 0 then [7 / 10, 1 / 10, 3 / 5].getD p 0 else [2 / 5, 3 / 10, 1 / 10].getD p 0
  radius := fun _ => 0
  sourcesHaveExtent := false
  targetsHaveExtent := false
  l2 := false
  stickOut := 0
  weight := fun _ => 1
  maxWeight := 1
  adaptive := true
  levelRestrict := true
  nlevelsMax := 106
  lo := fun _ => 0
  ext := fun _ => 1
  skipPrune := false
  pad := fun _ => 3

/-- A view of the result, for concrete inputs. -/
def look {A B : Type} (e : Except String A) (f : A → List B) : List B :=
  match e with
  | .ok t => f t
  | .error _ => []

theorem line_placed : line.Placed where
  dims_pos := by decide
  n_pos := by decide
  nsources_le := by decide
  separate := by decide
  ext_pos := by decide +kernel
  cube := by decide +kernel
  radius_nonneg := by decide +kernel
  lower := by decide +kernel
  upper := by decide +kernel
  off_upper := by decide +kernel

theorem line_ok : line.OK := line_placed.toOK

theorem plane_placed : plane.Placed where
  dims_pos := by decide
  n_pos := by decide
  nsources_le := by decide
  separate := by decide
  ext_pos := by decide +kernel
  cube := by decide +kernel
  radius_nonneg := by decide +kernel
  lower := by decide +kernel
  upper := by decide +kernel
  off_upper := by decide +kernel

theorem plane_ok : plane.OK := plane_placed.toOK

theorem line_regular : line.Regular := .inl rfl
theorem plane_regular : plane.Regular := .inr rfl

/-- Parents of the boxes. -/
theorem line_parents :
    look line.build (fun t => (List.range t.tree.nboxes).map t.tree.parent) = [0, 0, 0, 2, 2] := by
  decide +kernel

theorem plane_parents :
    look plane.build (fun t => (List.range t.tree.nboxes).map t.tree.parent) = [0, 0, 0, 2, 2] := by
  decide +kernel

end Ex

/-! ### Order of the particles -/

/-- **C19.** The order of the sources in the tree is a permutation of the user's order, and
`sorted_target_ids` is one of the targets; coordinates (and radii) of sources and targets are the
user's in the new order.  This includes the level-restricted builder with extents. -/
theorem C19_order_is_permutation (inp : Input) (ok : inp.OK) (t : Built) (h : inp.build = .ok t) :
    t.particles.nsources = (if inp.sourcesAreTargets then inp.n else inp.nsources) ∧
    t.particles.ntargets = (if inp.sourcesAreTargets then inp.n else inp.n - inp.nsources) ∧
    IsPerm t.particles.nsources t.particles.userSourceIds ∧
    IsPerm t.particles.ntargets t.particles.sortedTargetIds ∧
    (∀ i < t.particles.nsources,
      (∀ a, t.sources a i = inp.x a (t.particles.userSourceIds i)) ∧
      t.sourceRadii i =
        if inp.sourcesHaveExtent then inp.radius (t.particles.userSourceIds i) else 0) ∧
    ∀ j < t.particles.ntargets,
      (∀ a, t.targets a (t.particles.sortedTargetIds j) = inp.x a (inp.targetNumber j)) ∧
      t.targetRadii (t.particles.sortedTargetIds j) =
        if inp.targetsHaveExtent then inp.radius (inp.targetNumber j) else 0 := by
  obtain ⟨L, s, hc, o, rfl, hf, _⟩ := Input.build_cases ok h
  have ho := finish_order (C := inp.cloud) hf fun _ => ok.nsources_le
  have hn : ∀ j, inp.cloud.firstTarget + j = inp.targetNumber j := by
    intro j
    unfold Cloud.firstTarget Input.targetNumber
    show (if inp.sourcesAreTargets then 0 else inp.nsources) + j = _
    split <;> simp
  simp only [hn] at ho
  exact ⟨rfl, rfl, ho.1, ho.2.1, fun i _ => ⟨fun _ => rfl, rfl⟩, ho.2.2⟩

example : ∃ t, Ex.line.build = .ok t ∧ t.particles.nsources = 2 ∧ t.particles.ntargets = 3 := by
  have h : Ex.look Ex.line.build (fun t => [t.particles.nsources, t.particles.ntargets]) = [2, 3] := by
    decide +kernel
  unfold Ex.look at h
  split at h
  · rename_i t ht
    simp at h
    exact ⟨t, ht, h⟩
  · cases h

example : Ex.look Ex.line.build (fun t => (List.range 2).map t.particles.userSourceIds) = [1, 0] ∧
    Ex.look Ex.line.build (fun t => (List.range 3).map t.particles.sortedTargetIds) = [1, 2, 0] := by
  decide +kernel

/-! ### Ranges of particles -/

/-- **C20.** The sources of a box are a contiguous range, first its own, then those of its children
in the order of the children; every source is owned by exactly one box.  The same for targets.
Partial: without the level-restricted builder with extents, for which it is false
(`C20_restricted_extent_loses_particles`). -/
theorem C20_nested_ranges_partial (inp : Input) (ok : inp.OK) (hr : inp.Regular) (t : Built)
    (h : inp.build = .ok t) :
    NestedRanges t.tree t.particles.nsources t.particles.srcStart t.particles.srcCount
      t.particles.srcCumul ∧
    NestedRanges t.tree t.particles.ntargets t.particles.tgtStart t.particles.tgtCount
      t.particles.tgtCumul := by
  obtain ⟨L, s, rfl, hf, _⟩ := Input.build_fin ok hr h
  exact finish_nested hf ok.n_pos fun _ => ok.nsources_le

example : Ex.line.OK ∧ Ex.line.Regular ∧
    Ex.look Ex.line.build (fun t => (List.range 5).map t.particles.tgtStart) = [0, 1, 1, 1, 2] ∧
    Ex.look Ex.line.build (fun t => (List.range 5).map t.particles.tgtCount) = [1, 0, 0, 1, 1] ∧
    Ex.look Ex.line.build (fun t => (List.range 5).map t.particles.tgtCumul) = [3, 0, 2, 1, 1] :=
  ⟨Ex.line_ok, Ex.line_regular, by decide +kernel⟩

namespace Ex

/-- One source and two targets; the source and the first target get to level 3 and no further. -/
def stuck : Input where
  dims := 1
  n := 3
  sourcesAreTargets := false
  nsources := 1
  x := fun _ p => [11 / 20, 14 / 25, 1 / 10].getD p 0
  radius := fun p => [1 / 25, 1 / 25, 0].getD p 0
  sourcesHaveExtent := true
  targetsHaveExtent := true
  l2 := false
  stickOut := 0
  weight := fun _ => 1
  maxWeight := 1
  adaptive := true
  levelRestrict := true
  nlevelsMax := 106
  lo := fun _ => 0
  ext := fun _ => 1
  skipPrune := false
  pad := fun _ => 8

end Ex

/-- **C20** is false for the level-restricted builder with extents: box 1 (the left half) is marked
to be split, but the loop ends before its children are made.  It has one target in its subtree,
which it does not own and which no other box owns. -/
theorem C20_restricted_extent_loses_particles : ∃ inp : Input, inp.Placed ∧ ∃ t, inp.build = .ok t ∧
    t.tree.nboxes = 5 ∧ t.particles.ntargets = 2 ∧
    (List.range 5).map t.particles.tgtCumul = [2, 1, 1, 1, 1] ∧
    (List.range 5).map t.particles.tgtCount = [0, 0, 0, 0, 1] := by
  refine ⟨Ex.stuck, ?_, ?_⟩
  · exact
    { dims_pos := by decide
      n_pos := by decide
      nsources_le := by decide
      separate := by decide
      ext_pos := by decide +kernel
      cube := by decide +kernel
      radius_nonneg := by decide +kernel
      lower := by decide +kernel
      upper := by decide +kernel
      off_upper := by decide +kernel }
  · have h : Ex.look Ex.stuck.build (fun t => [[t.tree.nboxes], [t.particles.ntargets],
        (List.range 5).map t.particles.tgtCumul, (List.range 5).map t.particles.tgtCount])
        = [[5], [2], [2, 1, 1, 1, 1], [0, 0, 0, 0, 1]] := by
      decide +kernel
    unfold Ex.look at h
    split at h
    · rename_i t ht
      refine ⟨t, ht, ?_⟩
      simp only [List.cons.injEq, and_true] at h
      simpa using h
    · cases h

/-! ### Particles and boxes -/

section
variable {inp : Input} {L : Nat} {s : State}

/-- The user number of a source in the range of a box, and why it is there. -/
theorem mem_source {len : Nat → Nat}
    (hf : FinOK inp.params inp.skipPrune len L s) {b i : Nat}
    (hb : b < (finish inp.params inp.cloud inp.skipPrune len L s).tree.nboxes)
    (hi : i ∈ span (finish inp.params inp.cloud inp.skipPrune len L s).particles.srcStart
      (finish inp.params inp.cloud inp.skipPrune len L s).particles.srcCumul b) :
    ∃ p l k, p < inp.n ∧ Kept inp.skipPrune s l k ∧ b = nid inp.skipPrune len L s l k ∧
      PathOK inp.params s.parent p l k ∧
      (finish inp.params inp.cloud inp.skipPrune len L s).particles.userSourceIds i = p := by
  unfold span at hi
  rw [List.mem_range'_1] at hi
  have hS := srcKind (C := inp.cloud) hf
  have hw := hS.within hf.flatOK hb (hS.cu_pos_count hb (by omega))
  obtain ⟨q, hq, hk, rfl⟩ := exists_of_lt_count
    (show i < Nat.count (inp.cloud.kind s.ids true) inp.params.n by omega)
  have hm := (hS.mem_cu hb hk).1 hi
  obtain ⟨l, k, h1, h2, h3⟩ := hf.path_of_mem hb hq hm.1 hm.2
  exact ⟨s.ids q, l, k, hf.inv.ids_lt q hq, h1, h2.symm, h3, userIds_eq hq hk⟩

/-- The user number of a target in the range of a box, and why it is there. -/
theorem mem_target {len : Nat → Nat}
    (hf : FinOK inp.params inp.skipPrune len L s) {b i : Nat}
    (hb : b < (finish inp.params inp.cloud inp.skipPrune len L s).tree.nboxes)
    (hi : i ∈ span (finish inp.params inp.cloud inp.skipPrune len L s).particles.tgtStart
      (finish inp.params inp.cloud inp.skipPrune len L s).particles.tgtCumul b) :
    ∃ p l k, p < inp.n ∧ Kept inp.skipPrune s l k ∧ b = nid inp.skipPrune len L s l k ∧
      PathOK inp.params s.parent p l k ∧
      (∀ a, (finish inp.params inp.cloud inp.skipPrune len L s).targets a i = inp.x a p) ∧
      (finish inp.params inp.cloud inp.skipPrune len L s).targetRadii i =
        if inp.targetsHaveExtent then inp.radius p else 0 := by
  unfold span at hi
  rw [List.mem_range'_1] at hi
  have hS := tgtKind (C := inp.cloud) hf
  have hw := hS.within hf.flatOK hb (hS.cu_pos_count hb (by omega))
  obtain ⟨q, hq, hk, rfl⟩ := exists_of_lt_count
    (show i < Nat.count (inp.cloud.kind s.ids false) inp.params.n by omega)
  have hm := (hS.mem_cu hb hk).1 hi
  obtain ⟨l, k, h1, h2, h3⟩ := hf.path_of_mem hb hq hm.1 hm.2
  have h4 := targetIds_eq hq hk
  refine ⟨s.ids q, l, k, hf.inv.ids_lt q hq, h1, h2.symm, h3, fun a => ?_, ?_⟩
  · show inp.x a ((if inp.cloud.sourcesAreTargets then s.ids
      else srcntgtTargetIds inp.params.n inp.cloud.nsources s.ids) _) = _
    rw [h4]
  · show (if inp.targetsHaveExtent then inp.radius ((if inp.cloud.sourcesAreTargets then s.ids
      else srcntgtTargetIds inp.params.n inp.cloud.nsources s.ids) _) else 0) = _
    rw [h4]

/-- A particle that belongs into a box is in it. -/
theorem inside {len : Nat → Nat} {skip : Bool} (ok : inp.Placed) (hx : inp.arith = .exact)
    (hf : FinOK inp.params skip len L s)
    {p l k : Nat} (hp : p < inp.n) (hk : Kept skip s l k)
    (hpath : PathOK inp.params s.parent p l k) {y : Nat → ℚ} (hy : ∀ a, y a = inp.x a p) :
    InBox (finish inp.params inp.cloud skip len L s).tree (nid skip len L s l k) y := by
  intro a ha
  have h1 := ok.in_cell ha hp hx l
  rw [← ok.path_center ha hp hx hf.inv l k hk.1 hpath] at h1
  have hc : (finish inp.params inp.cloud skip len L s).tree.center (nid skip len L s l k) a
      = s.center l k a := congrFun (hf.fin_center hk) a
  have hl : (finish inp.params inp.cloud skip len L s).tree.level (nid skip len L s l k) = l :=
    hf.fin_level hk
  rw [hc, hl, hy]
  exact h1

theorem sticks {len : Nat → Nat} {skip : Bool} (ok : inp.Placed) (hx : inp.arith = .exact)
    (hf : FinOK inp.params skip len L s)
    (he : inp.haveExtent = true) (hs : 0 ≤ inp.stickOut)
    {p l k : Nat} (hp : p < inp.n) (hk : Kept skip s l k)
    (hpath : PathOK inp.params s.parent p l k) {y : Nat → ℚ} (hy : ∀ a, y a = inp.x a p)
    {r : ℚ} (hr : r ≤ inp.radius p) :
    if inp.l2 then WithinL2 (finish inp.params inp.cloud skip len L s).tree inp.stickOut
        (nid skip len L s l k) y r
      else WithinInf (finish inp.params inp.cloud skip len L s).tree inp.stickOut
        (nid skip len L s l k) y r := by
  have hc : ∀ a, (finish inp.params inp.cloud skip len L s).tree.center (nid skip len L s l k) a
      = s.center l k a := fun a => congrFun (hf.fin_center hk) a
  have hl : (finish inp.params inp.cloud skip len L s).tree.level (nid skip len L s l k) = l :=
    hf.fin_level hk
  cases hl2 : inp.l2 with
  | true =>
    rw [if_pos rfl]
    have h1 := ok.path_l2 hx he hl2 hs hf.inv hp hk.1 hpath
    have h2 : (r : ℝ) ≤ (inp.radius p : ℝ) := by exact_mod_cast hr
    unfold WithinL2
    simp only [hc, hl, hy]
    exact le_trans (add_le_add (le_refl _) h2) h1
  | false =>
    rw [if_neg (by simp)]
    intro a ha
    have h1 := ok.path_inf hx he hl2 hs hf.inv hp hk.1 hpath ha
    rw [hc, hl, hy]
    refine ⟨le_trans h1.1 (by linarith), le_trans (by linarith) h1.2⟩

theorem finish_inside {len : Nat → Nat} (ok : inp.Placed) (hx : inp.arith = .exact)
    (hf : FinOK inp.params inp.skipPrune len L s) {b : Nat}
    (hb : b < (finish inp.params inp.cloud inp.skipPrune len L s).tree.nboxes) :
    (∀ i ∈ span (finish inp.params inp.cloud inp.skipPrune len L s).particles.srcStart
        (finish inp.params inp.cloud inp.skipPrune len L s).particles.srcCumul b,
      InBox (finish inp.params inp.cloud inp.skipPrune len L s).tree b fun a =>
        (finish inp.params inp.cloud inp.skipPrune len L s).sources a i) ∧
    (∀ i ∈ span (finish inp.params inp.cloud inp.skipPrune len L s).particles.tgtStart
        (finish inp.params inp.cloud inp.skipPrune len L s).particles.tgtCumul b,
      InBox (finish inp.params inp.cloud inp.skipPrune len L s).tree b fun a =>
        (finish inp.params inp.cloud inp.skipPrune len L s).targets a i) := by
  constructor
  · intro i hi
    obtain ⟨p, l, k, hp, hk, rfl, hpath, e⟩ := mem_source hf hb hi
    refine inside ok hx hf hp hk hpath fun a => ?_
    rw [← e]; rfl
  · intro i hi
    obtain ⟨p, l, k, hp, hk, rfl, hpath, e, _⟩ := mem_target hf hb hi
    exact inside ok hx hf hp hk hpath e

theorem finish_sticks {len : Nat → Nat} (ok : inp.Placed) (hx : inp.arith = .exact)
    (he : inp.haveExtent = true)
    (hs : 0 ≤ inp.stickOut) (hf : FinOK inp.params inp.skipPrune len L s) {b : Nat}
    (hb : b < (finish inp.params inp.cloud inp.skipPrune len L s).tree.nboxes) :
    let t := finish inp.params inp.cloud inp.skipPrune len L s
    (∀ i ∈ span t.particles.srcStart t.particles.srcCumul b,
      if inp.l2 then WithinL2 t.tree inp.stickOut b (fun a => t.sources a i) (t.sourceRadii i)
      else WithinInf t.tree inp.stickOut b (fun a => t.sources a i) (t.sourceRadii i)) ∧
    (∀ i ∈ span t.particles.tgtStart t.particles.tgtCumul b,
      if inp.l2 then WithinL2 t.tree inp.stickOut b (fun a => t.targets a i) (t.targetRadii i)
      else WithinInf t.tree inp.stickOut b (fun a => t.targets a i) (t.targetRadii i)) := by
  constructor
  · intro i hi
    obtain ⟨p, l, k, hp, hk, rfl, hpath, e⟩ := mem_source hf hb hi
    refine sticks ok hx hf he hs hp hk hpath (fun a => by rw [← e]; rfl) ?_
    show (if inp.sourcesHaveExtent then inp.radius _ else 0) ≤ _
    split
    · rw [← e]; exact le_refl _
    · exact ok.radius_nonneg p hp
  · intro i hi
    obtain ⟨p, l, k, hp, hk, rfl, hpath, e, e'⟩ := mem_target hf hb hi
    refine sticks ok hx hf he hs hp hk hpath e ?_
    rw [e']
    split
    · exact le_refl _
    · exact ok.radius_nonneg p hp

end

/-- **C21.** Every source and target in the subtree of a box lies in the half-open cube of the
box.  Partial: a bounding box that is given by the user with a particle on its upper face is outside
`Input.Placed` (`C21_particle_on_upper_face`); rounding is in C64. -/
theorem C21_particles_in_box_partial (inp : Input) (ok : inp.Placed) (hx : inp.arith = .exact)
    (t : Built)
    (h : inp.build = .ok t) (b : Nat) (hb : b < t.tree.nboxes) :
    (∀ i ∈ span t.particles.srcStart t.particles.srcCumul b,
      InBox t.tree b fun a => t.sources a i) ∧
    (∀ i ∈ span t.particles.tgtStart t.particles.tgtCumul b,
      InBox t.tree b fun a => t.targets a i) := by
  obtain ⟨L, s, hc, o, rfl, hf, _⟩ := Input.build_cases ok.toOK h
  obtain ⟨e1, e2, e3, e4⟩ := finish_hasCh inp.cloud inp.skipPrune (fun l => s.used l + inp.pad l) L s
    hc o
  have := finish_inside ok hx hf hb
  rw [e1, e2, e3, e4] at this
  exact this

/-- **C21** with extents: no source or target in the subtree of a box sticks out of it by more than
the stick-out factor times the radius of the box, in the norm that was asked for. -/
theorem C21_stick_out_partial (inp : Input) (ok : inp.Placed) (hx : inp.arith = .exact)
    (he : inp.haveExtent = true) (hs : 0 ≤ inp.stickOut) (t : Built) (h : inp.build = .ok t)
    (b : Nat) (hb : b < t.tree.nboxes) :
    (∀ i ∈ span t.particles.srcStart t.particles.srcCumul b,
      if inp.l2 then WithinL2 t.tree inp.stickOut b (fun a => t.sources a i) (t.sourceRadii i)
      else WithinInf t.tree inp.stickOut b (fun a => t.sources a i) (t.sourceRadii i)) ∧
    (∀ i ∈ span t.particles.tgtStart t.particles.tgtCumul b,
      if inp.l2 then WithinL2 t.tree inp.stickOut b (fun a => t.targets a i) (t.targetRadii i)
      else WithinInf t.tree inp.stickOut b (fun a => t.targets a i) (t.targetRadii i)) := by
  obtain ⟨L, s, hc, o, rfl, hf, _⟩ := Input.build_cases ok.toOK h
  obtain ⟨e1, e2, e3, e4⟩ := finish_hasCh inp.cloud inp.skipPrune (fun l => s.used l + inp.pad l) L s
    hc o
  have := finish_sticks ok hx he hs hf hb
  exact ⟨fun i hi => this.1 i (by rw [e1, e3]; exact hi),
    fun i hi => this.2 i (by rw [e2, e4]; exact hi)⟩

example : Ex.line.Placed ∧ Ex.line.arith = .exact ∧ Ex.line.haveExtent = true ∧
    0 ≤ Ex.line.stickOut ∧
    Ex.look Ex.line.build (fun t => (List.range 5).map fun b => t.tree.center b 0)
      = [1 / 2, 1 / 4, 3 / 4, 5 / 8, 7 / 8] ∧
    Ex.look Ex.line.build (fun t => (List.range 3).map fun i => t.targets 0 i)
      = [2 / 5, 3 / 5, 9 / 10] :=
  ⟨Ex.line_placed, rfl, by decide +kernel⟩

/-- **C21**, what is missing: a bounding box given by the user is accepted with a particle on its
upper face (`C50_given_bbox`).  The particle at 1 in the bounding box `[0, 1]` ends up in box 1,
which is `[0, 1/2)`. -/
theorem C21_particle_on_upper_face :
    (match rootBox id 0 2 (fun _ p => [1, 1 / 10, 3 / 5].getD p 0) (fun _ => 0) (some [(0, 1)]) with
      | .ok r => some (r.lo 0, r.ext) | .error _ => none) = some (0, 1) ∧
    Ex.look { Ex.plane with
        dims := 1, x := fun _ p => [1, 1 / 10, 3 / 5].getD p 0
        levelRestrict := false, maxWeight := 2 }.build
      (fun t => [t.tree.center 1 0, t.sources 0 (t.particles.srcStart 1)]) = [1 / 4, 1] := by
  decide +kernel

end Boxtree.Build
