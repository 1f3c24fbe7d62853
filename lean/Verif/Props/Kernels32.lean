import Verif.Lemmas.Kernels32
import Verif.Props.ExactlyOnce
import Verif.Props.AreaQuery
import Verif.Props.TranslationClasses
import Verif.Model.RotationClasses

/-!
# C100: traversals and area queries with the integers of the device

The code computes the size of a box on level `l` as `root_extent / (1 << (l + 1))` with a 32-bit integer.
-/

namespace Boxtree
open BoxTree Area

/-- **C100** (partial), traversals: on a tree with at most 30 levels, 32-bit integers give exactly the
traversal that mathematical integers give, all lists and the exceptions included.  Missing: deeper
trees, for which it is false (`C100_own_sources_lost`). -/
theorem C100_traversal_partial (inp : TravInput) (hw : inp.tree.WF) (hL : inp.tree.nlevels ≤ 30) :
    buildTraversal inp.with32 = buildTraversal { inp with tests := .exact } :=
  buildTraversal32 hw hL

/-- **C100** (partial), exactly once: with 32-bit integers, on a tree with at most 30 levels. -/
theorem C100_exactly_once_partial (inp : TravInput) (ok : inp.OK) (hL : inp.tree.nlevels ≤ 30)
    (trav : Traversal) (h : buildTraversal inp.with32 = .ok trav) (tgt s : Nat)
    (htgt : tgt ∈ trav.targetBoxes) (hs : s < inp.tree.nboxes) (hsrc : inp.tree.isSource s = true) :
    trav.pathCount inp.tree tgt s = 1 :=
  C01_exactly_once { inp with tests := .exact } trav { ok with tests := trivial }
    ((C100_traversal_partial inp ok.wf hL).symm.trans h) tgt s htgt hs hsrc

/-- **C100** (partial), area queries: on a tree with at most 30 levels, 32-bit integers give exactly the
result that mathematical integers give, with the peer lists of the tree or given ones.  Missing: deeper
trees, for which it is false (`C100_small_ball_misses_leaf`). -/
theorem C100_area_query_partial (t : BoxTree) (hw : t.WF) (hL : t.nlevels ≤ 30) (bmin : Nat → ℚ)
    (balls : List Ball) (peers : Option BuiltList)
    (hp : ∀ P, peers = some P → ∀ q ∈ P.lists, q < t.nboxes) :
    areaQuery32 t bmin balls peers = areaQuery t bmin balls peers :=
  areaQuery32_eq hw hL bmin balls peers hp

/-- **C100** (partial), peer lists. -/
theorem C100_peer_lists_partial (t : BoxTree) (hw : t.WF) (hL : t.nlevels ≤ 30) :
    peerLists t (adjacent32 t) = peerLists t :=
  peerLists32 hw hL

/-- **C100** (partial), leaves to balls. -/
theorem C100_leaves_to_balls_partial (t : BoxTree) (hw : t.WF) (hL : t.nlevels ≤ 30)
    (argsort : List Nat → List Nat) (bmin : Nat → ℚ) (balls : List Ball) (peers : Option BuiltList)
    (hp : ∀ P, peers = some P → ∀ q ∈ P.lists, q < t.nboxes) :
    leavesToBalls t argsort bmin balls peers (guidingBox32 t bmin)
        (fun ball b => ballOverlaps32 t ball b) (adjacent32 t)
      = leavesToBalls t argsort bmin balls peers := by
  have h := C100_area_query_partial t hw hL bmin balls peers hp
  unfold areaQuery32 at h
  unfold leavesToBalls
  rw [h]

/-- **C100** (partial), space invader query: the same updates for every ball. -/
theorem C100_space_invader_partial (t : BoxTree) (hw : t.WF) (hL : t.nlevels ≤ 30) (asInt : ℚ → ℤ)
    (bmin : Nat → ℚ) (P : BuiltList) (hP : ∀ q ∈ P.lists, q < t.nboxes) (ball : Ball) :
    invaderUpdates t asInt bmin P ball (guidingBox32 t bmin) (fun ball b => ballOverlaps32 t ball b)
      = invaderUpdates t asInt bmin P ball := by
  unfold invaderUpdates areaWalk
  rw [guidingBox32_eq hw hL]
  congr 1
  apply List.flatMap_congr
  intro q hq
  exact areaPeer32 hw hL ball (hP q (List.mem_of_mem_drop (List.mem_of_mem_take hq)))

theorem computeClasses32 {t : BoxTree} (hw : t.WF) (hL : t.nlevels ≤ 30) (n : Nat) (perLevel : Bool)
    (starts lists ttp : List Nat) (hl : ∀ s ∈ lists, s < t.nboxes) :
    computeClasses t n perLevel starts lists ttp (normVec32 t)
      = computeClasses t n perLevel starts lists ttp := by
  unfold computeClasses
  rw [List.map_congr_left (l := List.range lists.length)
    (g := fun p => classOfPair t n perLevel starts lists ttp p)]
  intro p hp
  have hp' := List.mem_range.1 hp
  have hs : lists.getD p 0 < t.nboxes := by
    rw [List.getD_eq_getElem _ _ hp']; exact hl _ (List.getElem_mem _)
  have hv : normVec32 t (t.level (lists.getD p 0)) = normVec t (t.level (lists.getD p 0)) := by
    funext src tgt axis
    unfold normVec32 normVec
    rw [rad32_eq hL (hw.level_lt _ hs)]
  unfold classOfPair
  dsimp only
  rw [hv]

/-- **C100** (partial), translation classes and rotation classes of a traversal. -/
theorem C100_classes_partial (inp : TravInput) (ok : inp.OK) (hL : inp.tree.nlevels ≤ 30)
    (trav : Traversal) (h : buildTraversal inp.with32 = .ok trav) :
    (∀ perLevel, buildTranslationClasses inp.tree inp.nAway trav perLevel (normVec32 inp.tree)
      = buildTranslationClasses inp.tree inp.nAway trav perLevel) ∧
    ∀ (A : Type) [DecidableEq A] (angle : List ℤ → A),
      buildRotationClasses angle inp.tree inp.nAway trav (normVec32 inp.tree)
        = buildRotationClasses angle inp.tree inp.nAway trav := by
  have F := travFields h
  have hl : ∀ s ∈ trav.list2.lists, s < inp.tree.nboxes := by
    intro s hs
    rw [F.list2] at hs
    obtain ⟨r, hr, hsr⟩ := List.mem_flatten.1 hs
    obtain ⟨b, hb, rfl⟩ := List.mem_map.1 hr
    exact (list2_struct ok.wf F.row_slnws (F.ttp_lt hb) hsr).1
  refine ⟨fun perLevel => ?_, fun A _ angle => ?_⟩
  · unfold buildTranslationClasses
    rw [computeClasses32 ok.wf hL _ _ _ _ _ hl]
  · unfold buildRotationClasses
    rw [computeClasses32 ok.wf hL _ _ _ _ _ hl]

/-! ### level 30 -/

theorem sum_zero {α : Type} (l : List α) (f : α → Nat) (h : ∀ a ∈ l, f a = 0) : (l.map f).sum = 0 := by
  rw [List.sum_eq_zero]
  intro x hx
  obtain ⟨a, ha, rfl⟩ := List.mem_map.1 hx
  exact h a ha

theorem adjNbhd32_self (t : BoxTree) (hp : 0 < t.rootExtent) (c : Nat → ℚ) :
    t.adjNbhd32 c 30 1 c 30 = false := by
  have h := C51_level30_not_adjacent_to_itself t hp c
  rw [← h]
  unfold adjNbhd32 adjOver32
  norm_num

/-- A box that the tests do not find adjacent to itself interacts with itself along no list. -/
theorem own_lost {inp : TravInput} {T : Tests} (hw : inp.tree.WF)
    (he : inp.targetsHaveExtent = false) {trav : Traversal}
    (h : buildTraversal (inp.tst T) = .ok trav) {b : Nat} (hb : b < inp.tree.nboxes) (hroot : b ≠ 0)
    (hadj : (inp.tst T).params.tests.adj inp.tree b (inp.tree.level b) 1 b (inp.tree.level b) = false) :
    trav.pathCount inp.tree b b = 0 := by
  have F := travFields h
  have hS := F.row_slnws
  have hanc : ∀ a ∈ inp.tree.ancestorsOrSelf b, a < inp.tree.nboxes ∧ inp.tree.level a ≤ inp.tree.level b ∧
      a = inp.tree.ancAt b (inp.tree.level a) := by
    intro a ha
    obtain ⟨l, hl', rfl⟩ := List.mem_map.1 ha
    have hl2 : l ≤ inp.tree.level b := by have := List.mem_range.1 hl'; omega
    have h3 := hw.level_ancAt hb hl2
    exact ⟨hw.ancAt_lt hb l, by omega, by rw [h3]⟩
  have z1 : (trav.list1.rowFor trav.targetBoxes b).count b = 0 := by
    rw [F.row1]
    split
    · rw [List.count_eq_zero]
      intro hm
      have hb0 : b ≠ 0 := fun h0 => hroot h0
      unfold list1Kernel at hm
      rcases List.mem_append.1 hm with hm | hm
      · split at hm
        · exact hb0 (List.mem_singleton.1 hm)
        · simp at hm
      · obtain ⟨k, c, _, _, hc⟩ := mem_walk _ hw b hw.nboxes_pos hm
        have hcb := list1Visit_own hc
        subst hcb
        unfold list1Visit at hc
        dsimp only at hc
        rw [hadj] at hc
        simp at hc
    · rfl
  have z2 : ∀ a ∈ inp.tree.ancestorsOrSelf b, ∀ c ∈ inp.tree.ancestorsOrSelf b,
      (trav.list2.rowFor trav.ttpBoxes a).count c = 0 := by
    intro a ha c hc
    obtain ⟨ha1, ha2, ha3⟩ := hanc a ha
    obtain ⟨hc1, hc2, hc3⟩ := hanc c hc
    rw [F.row2]
    split
    · rw [List.count_eq_zero]
      intro hm
      obtain ⟨_, h1, h2⟩ := list2_struct hw hS ha1 hm
      have h2' : inp.tree.level c = inp.tree.level a := h2
      exact h1 (by rw [ha3, hc3, h2'])
    · rfl
  have z3 : ∀ l ∈ List.range trav.list3.length, ∀ c ∈ inp.tree.ancestorsOrSelf b,
      ((trav.list3.getD l ⟨[], []⟩).rowFor (trav.list3Targets.getD l []) b).count c = 0 := by
    intro l hl' c hc
    obtain ⟨hc1, hc2, hc3⟩ := hanc c hc
    rw [F.row3 l (by rw [← F.length3]; exact List.mem_range.1 hl')]
    split
    · rw [count_sepPart, List.count_eq_zero]
      intro hm
      obtain ⟨c', h1, h2⟩ := list3_struct hw hS hb hm
      have h2' : inp.tree.level b < inp.tree.level c' := h2
      rcases h1 with h1 | h1
      · rw [← Out.sep.inj h1] at h2'
        omega
      · cases h1
    · rfl
  have z4 : ∀ a ∈ inp.tree.ancestorsOrSelf b, (trav.list4.rowFor trav.ttpBoxes a).count b = 0 := by
    intro a ha
    obtain ⟨ha1, ha2, ha3⟩ := hanc a ha
    rw [F.row4]
    split
    · rw [count_sepPart, List.count_eq_zero]
      intro hm
      obtain ⟨c', h1, h2, h3⟩ := list4_struct hw hS ha1 hm
      have h3' : inp.tree.level c' ≤ inp.tree.level a := h3
      rcases h1 with h1 | h1
      · have hcb := Out.sep.inj h1
        subst hcb
        have : inp.tree.level a = inp.tree.level b := by omega
        exact h2 (by rw [ha3, this, ancAt_self])
      · cases h1
    · rfl
  have z5 : trav.list3Close = none := by
    rw [F.list3Close, if_neg (by show ¬ inp.targetsHaveExtent = true; rw [he]; decide)]
  have z6 : trav.list4Close = none := by
    rw [F.list4Close, if_neg (by show ¬ inp.targetsHaveExtent = true; rw [he]; decide)]
  unfold Traversal.pathCount
  rw [z1, z5, z6, sum_zero _ _ fun a ha => sum_zero _ _ (z2 a ha),
    sum_zero _ _ fun l hl' => sum_zero _ _ (z3 l hl'), sum_zero _ _ z4]
  rfl

/-- **C100**, what happens on level 30, whatever centers are stored: the sources of a box there do not
reach the targets of the same box, along any list of the traversal. -/
theorem C100_own_sources_lost (inp : TravInput) (hw : inp.tree.WF)
    (he : inp.targetsHaveExtent = false) (ctr : Nat → Nat → ℚ) (trav : Traversal)
    (h : buildTraversal (inp.with32 ctr) = .ok trav) (b : Nat) (hb : b < inp.tree.nboxes)
    (hl : inp.tree.level b = 30) : trav.pathCount inp.tree b b = 0 := by
  refine own_lost hw he h hb (fun h0 => ?_) ?_
  · rw [h0, hw.level_root] at hl
    omega
  · show inp.tree.adjNbhd32 (ctr b) (inp.tree.level b) ((1 : Nat) : ℚ) (ctr b) (inp.tree.level b) = false
    rw [hl, Nat.cast_one]
    exact adjNbhd32_self _ hw.ext_pos _

theorem rad32_level30 (t : BoxTree) : t.rad32 30 = -t.rad 30 := by
  unfold rad32 rad
  rw [show shl32 (30 + 1) = -2 ^ 31 by decide]
  push_cast
  ring

/-- **C100**, what happens on level 30 in the translation classes: the vector between two boxes that are
`v` box sizes apart comes out with the opposite sign. -/
theorem C100_vector_reversed (t : BoxTree) (hw : t.WF) (src tgt axis : Nat) (v : ℤ)
    (hv : t.center tgt axis - t.center src axis = v * (2 * t.rad 30)) :
    normVec32 t 30 src tgt axis = -v ∧ normVec t 30 src tgt axis = v := by
  have hp := hw.rad_pos 30
  have h1 : (v : ℚ) * (2 * t.rad 30) / (2 * -t.rad 30) = ((-v : ℤ) : ℚ) := by
    push_cast
    field_simp
  have h2 : (v : ℚ) * (2 * t.rad 30) / (2 * t.rad 30) = (v : ℚ) := by
    field_simp
  unfold normVec32 normVec
  rw [hv, rad32_level30, h1, h2, rint_intCast, rint_intCast]
  exact ⟨rfl, rfl⟩

theorem peerKernel_lt {t : BoxTree} (hw : t.WF) (adj : AdjTest) {b q : Nat} (hb : b < t.nboxes)
    (h : q ∈ peerKernel t b adj) : q < t.nboxes := by
  unfold peerKernel at h
  split at h
  · rw [List.mem_singleton.1 h]; exact hb
  · obtain ⟨k, c, hc, _, he⟩ := mem_walk _ hw q hw.nboxes_pos h
    unfold peerVisit at he
    split at he
    · split at he
      · simp at he; omega
      · split at he
        · simp at he; omega
        · split at he <;> simp at he
          omega
    · simp at he

/-- **C100**, what happens on level 30 in area queries, whatever centers and peer lists are stored: a
leaf there is not found for a ball that is smaller than the leaf, not even for one in its center. -/
theorem C100_small_ball_misses_leaf (t : BoxTree) (hw : t.WF) (bmin : Nat → ℚ) (balls : List Ball)
    (peers : Option BuiltList) (hp : ∀ P, peers = some P → ∀ q ∈ P.lists, q < t.nboxes)
    (ctr : Nat → Nat → ℚ) (aq : BuiltList) (h : areaQuery32 t bmin balls peers ctr = .ok aq) (b : Nat)
    (hl : t.level b = 30) (i : Nat) (hi : i < balls.length) (hr : balls[i].radius < t.rad 30) :
    b ∉ aq.row i := by
  have hov : ballOverlaps32 t balls[i] b ctr = false := by
    unfold ballOverlaps32
    have h0 := linf_nonneg t balls[i].center (ctr b)
    rw [hl, rad32_level30]
    simp only [decide_eq_false_iff_not, not_le]
    linarith
  intro hm
  unfold areaQuery32 areaQuery at h
  dsimp only at h
  split at h
  · cases h
  · have hq : ∀ q ∈ (peers.getD (peerLists t (adjacent32 t ctr))).lists, q < t.nboxes := by
      cases peers with
      | some P => exact hp P rfl
      | none =>
        intro q h
        obtain ⟨r, hr, hqr⟩ := List.mem_flatten.1 h
        obtain ⟨c, hc, rfl⟩ := List.mem_map.1 hr
        exact peerKernel_lt hw _ (List.mem_range.1 hc) hqr
    have h' := Except.ok.inj h
    rw [← h', row_build _ _ (by simpa using hi), List.getD_eq_getElem _ _ (by simpa using hi)] at hm
    simp only [List.getElem_map] at hm
    obtain ⟨q, hqm, hm⟩ := List.mem_flatMap.1 hm
    have hql := hq q (List.mem_of_mem_drop (List.mem_of_mem_take hqm))
    unfold areaPeer at hm
    split at hm
    · split at hm
      · rename_i ho
        have hbq := List.mem_singleton.1 hm
        rw [← hbq] at ho
        exact absurd (hov.symm.trans ho) (by decide)
      · simp at hm
    · obtain ⟨k, c, _, _, he⟩ := mem_walk _ hw b hql hm
      unfold areaVisit at he
      split at he
      · dsimp only at he
        split at he
        · rename_i ho
          have hbq := List.mem_singleton.1 he
          rw [← hbq] at ho
          exact absurd (hov.symm.trans ho) (by decide)
        · simp at he
      · simp at he

/-! ### concrete cases -/

/-- A tree of 31 levels: on each level but the last the box has one child, on its lower left.  The last
box holds the particles. -/
def Ex.chain : BoxTree where
  dims := 1
  nboxes := 31
  nlevels := 31
  rootExtent := 1
  parent b := b - 1
  child m b := if m = 0 ∧ b < 30 then b + 1 else 0
  level b := b
  center b _ := 1 / 2 ^ (b + 1)
  flags b := if b < 30 then flagHasSourceChild ||| flagHasTargetChild
    else flagIsSource ||| flagIsTarget ||| flagIsLeaf
  srcCountCumul _ := 1
  tgtMin _ _ := 0
  tgtMax _ _ := 0
  levelStart l := l

/-- A traversal of that tree. -/
def Ex.chainInput : TravInput where
  tree := Ex.chain
  isPruned := true
  sourcesAreTargets := true
  sourcesHaveExtent := false
  targetsHaveExtent := false
  extentNorm := none
  stickOut := 0
  eps := 0
  nAway := 1
  crit := none
  minNsources := none
  srcMask := none
  srcParentMask := none

theorem Ex.chain_wf : Ex.chain.WF where
  ext_pos := by decide +kernel
  nboxes_pos := by decide
  level_root := rfl
  parent_root := rfl
  parent_lt := by decide +kernel
  level_parent := by decide +kernel
  level_lt := by decide +kernel
  child_lt := by decide +kernel
  child_parent := by decide +kernel
  child_inj := by decide +kernel
  parent_child := by
    intro b hb h0
    refine ⟨0, by decide, ?_⟩
    revert b
    decide +kernel
  center_child := by decide +kernel

theorem Ex.chain_ok : Ex.chainInput.OK where
  wf := Ex.chain_wf
  flags := ⟨by decide +kernel, by decide +kernel⟩
  nAway_pos := by decide
  stickOut_nonneg := by decide +kernel
  eps_small := by decide +kernel
  srcTgt := by decide +kernel
  srcTgtChild := by decide +kernel

/-- **C100**: 31 levels are too many.  In the same tree the sources of the box on level 30 reach its targets
once with mathematical integers, and not at all with the integers of the device. -/
theorem C100_31_levels : Ex.chain.nlevels = 31 ∧ (∃ trav, buildTraversal Ex.chainInput = .ok trav ∧
      30 ∈ trav.targetBoxes ∧ trav.pathCount Ex.chain 30 30 = 1) ∧
    ∃ trav, buildTraversal Ex.chainInput.with32 = .ok trav ∧
      30 ∈ trav.targetBoxes ∧ trav.pathCount Ex.chain 30 30 = 0 := by
  refine ⟨rfl, ⟨_, rfl, ?_⟩, _, rfl, ?_⟩
  · have h : 30 ∈ selSourceBoxes Ex.chain none := by decide +kernel
    exact ⟨h, C01_exactly_once Ex.chainInput _ Ex.chain_ok rfl 30 30 h (by decide) (by decide)⟩
  · exact ⟨(by decide +kernel : 30 ∈ selSourceBoxes Ex.chain none),
      C100_own_sources_lost Ex.chainInput Ex.chain_wf rfl _ _ rfl 30 (by decide) rfl⟩

/-- **C100**: the same for an area query with a ball in the center of that box. -/
theorem C100_31_levels_area :
    (∃ aq, areaQuery Ex.chain (fun _ => 0) [⟨Ex.chain.center 30, 0⟩] none = .ok aq ∧ aq.row 0 = [30]) ∧
    ∃ aq, areaQuery32 Ex.chain (fun _ => 0) [⟨Ex.chain.center 30, 0⟩] none = .ok aq ∧
      30 ∉ aq.row 0 := by
  refine ⟨⟨_, rfl, by decide +kernel⟩, _, rfl, ?_⟩
  exact C100_small_ball_misses_leaf Ex.chain Ex.chain_wf _ _ none (by simp) _ _ rfl 30 rfl 0 (by decide)
    (by decide +kernel)

/-- Two boxes on level 30, three box sizes apart. -/
example : (0 : ℚ) - 3 / 2 ^ 30 = ((-3 : ℤ) : ℚ) * (2 * Ex.chain.rad 30) := by
  decide +kernel

/-- The hypotheses of the theorems about shallow trees. -/
example : Ex.exInputExt.OK ∧ Ex.exInputExt.tree.nlevels ≤ 30 ∧
    ∃ trav, buildTraversal Ex.exInputExt.with32 = .ok trav :=
  ⟨Ex.exInputExt_ok, by decide, _, rfl⟩

end Boxtree
