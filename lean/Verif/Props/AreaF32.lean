import Verif.Lemmas.AreaF32
import Verif.Props.AreaF
import Verif.Props.ClassesF
import Verif.Props.Rounded32

/-!
# C100: area queries and translation classes with rounding and 32-bit integers together
-/

namespace Boxtree
open BoxTree Area Build

section
variable {t : BoxTree} {fl hf : ℚ → ℚ} {u M : ℚ} {c0 bmin : Nat → ℚ}

/-- **C100** (partial), rounded area queries: on a tree with at most 30 levels a device that rounds gives the
same peer lists, area queries and tables from leaves to balls, and performs the same updates in a space
invader query, with 32-bit integers as with mathematical ones.  Missing: deeper trees, for which it is
false (`C100_rounded_small_ball`). -/
theorem C100_rounded_area_partial (t : BoxTree) (hw : t.WF) (hL : t.nlevels ≤ 30) (fl hf : ℚ → ℚ)
    (c0 bmin : Nat → ℚ) (balls : List Ball) (peers : Option BuiltList)
    (hp : ∀ P, peers = some P → ∀ q ∈ P.lists, q < t.nboxes) :
    peerLists t (adjacentF32 t fl c0) = peerLists t (adjacentF t fl c0) ∧
    areaQuery t bmin balls peers (guidingBoxF32 t fl hf bmin) (ballOverlapsF32 t fl c0)
        (adjacentF32 t fl c0)
      = areaQuery t bmin balls peers (guidingBoxF t fl hf bmin) (ballOverlapsF t fl c0)
        (adjacentF t fl c0) ∧
    (∀ argsort : List Nat → List Nat,
      leavesToBalls t argsort bmin balls peers (guidingBoxF32 t fl hf bmin) (ballOverlapsF32 t fl c0)
          (adjacentF32 t fl c0)
        = leavesToBalls t argsort bmin balls peers (guidingBoxF t fl hf bmin) (ballOverlapsF t fl c0)
          (adjacentF t fl c0)) ∧
    ∀ (asInt : ℚ → ℤ) (ball : Ball) (P : BuiltList), (∀ q ∈ P.lists, q < t.nboxes) →
      invaderUpdates t asInt bmin P ball (guidingBoxF32 t fl hf bmin) (ballOverlapsF32 t fl c0)
          (fun ball leaf => t.linfF fl ball.center (t.storedCenter32 fl c0 leaf))
        = invaderUpdates t asInt bmin P ball (guidingBoxF t fl hf bmin) (ballOverlapsF t fl c0)
          (fun ball leaf => t.linfF fl ball.center (t.storedCenter fl c0 leaf)) := by
  have h := areaQueryF32 hw hL fl hf c0 bmin balls peers hp
  refine ⟨peerListsF32 hw hL fl c0, h, fun argsort => ?_, fun asInt ball P hP => ?_⟩
  · unfold leavesToBalls
    rw [h]
  · unfold invaderUpdates
    rw [areaWalk_same hw (fun ball c hc => ballOverlapsF32_eq hw hL fl c0 ball hc)
      (guidingBoxF32_eq hw hL fl hf bmin) bmin hP ball]
    apply List.map_congr_left
    intro leaf hm
    obtain ⟨q, hq, hm⟩ := List.mem_flatMap.1 hm
    have hq' := hP q (List.mem_of_mem_drop (List.mem_of_mem_take hq))
    have hlt : leaf < t.nboxes := (areaPeer_found hw hq' hm).1
    have hl := hw.level_lt leaf hlt
    beta_reduce
    rw [storedCenter32_eq fl c0 (b := leaf) (by omega)]

/-- **C100** (partial), the answer: as C68, with 32-bit integers, on trees with at most 30 levels. -/
theorem C100_rounded_area_answer_partial (h : RoundedArea t fl hf c0 bmin u M) (hL : t.nlevels ≤ 30)
    (hfl : t.ChildFlagsOK) (hocc : t.LeavesNear (20 * (u * M))) (balls : List Ball) :
    ∃ aq, areaQuery t bmin balls none (guidingBoxF32 t fl hf bmin) (ballOverlapsF32 t fl c0)
        (adjacentF32 t fl c0) = .ok aq ∧ aq.starts.length = balls.length + 1 ∧
      ∀ (i : Nat) (hi : i < balls.length), 0 ≤ balls[i].radius →
        (aq.row i).Nodup ∧
        (∀ b ∈ aq.row i, b < t.nboxes ∧ t.IsLeaf b ∧
          t.MeetsBall b balls[i].center (balls[i].radius + ballTol t u M balls[i].radius)) ∧
        ∀ b, b < t.nboxes → t.IsLeaf b →
          t.MeetsBall b balls[i].center (balls[i].radius - ballTol t u M balls[i].radius) →
          b ∈ aq.row i := by
  rw [(C100_rounded_area_partial t h.wf hL fl hf c0 bmin balls none (by simp)).2.1]
  exact C68_area_query h hfl hocc balls (.inl rfl)

/-- **C100**, what happens on level 30, also with rounding: an area query never lists a leaf there for a ball
with a radius below half the size of such a leaf, less a rounding error, wherever the ball lies. -/
theorem C100_rounded_small_ball (hfl : Rounds fl u) (hw : t.WF) (balls : List Ball)
    (peers : Option BuiltList) (hp : ∀ P, peers = some P → ∀ q ∈ P.lists, q < t.nboxes) (aq : BuiltList)
    (h : areaQuery t bmin balls peers (guidingBoxF32 t fl hf bmin) (ballOverlapsF32 t fl c0)
      (adjacentF32 t fl c0) = .ok aq) (b : Nat) (hl : t.level b = 30) (i : Nat) (hi : i < balls.length)
    (hr : balls[i].radius < (1 - u) * t.rad 30) : b ∉ aq.row i := by
  have neg : ∀ x : ℚ, x < 0 → fl x < 0 := by
    intro x hx
    have h1 := (abs_le.1 (hfl.err x)).2
    rw [abs_of_neg hx] at h1
    nlinarith [hfl.small]
  have hr0 : t.radF32 fl 30 ≤ -((1 - u) * t.rad 30) := by
    unfold radF32
    have h1 := rad32_level30 t
    unfold rad32 at h1
    rw [h1]
    have h2 := (abs_le.1 (hfl.err (-t.rad 30))).2
    rw [abs_neg, abs_of_pos (hw.rad_pos 30)] at h2
    linarith
  unfold areaQuery at h
  dsimp only at h
  have hq : ∀ q ∈ (peers.getD (peerLists t (adjacentF32 t fl c0))).lists, q < t.nboxes := by
    cases peers with
    | some P => exact hp P rfl
    | none => exact peerLists_lt hw _
  generalize peers.getD (peerLists t (adjacentF32 t fl c0)) = P at hq h
  split at h
  · cases h
  · cases h
    rw [row_build _ _ (by simpa using hi), List.getD_eq_getElem _ _ (by simpa using hi), List.getElem_map]
    intro hm
    obtain ⟨q, hqm, hm⟩ := List.mem_flatMap.1 hm
    have hov := (areaPeer_found hw (hq q (List.mem_of_mem_drop (List.mem_of_mem_take hqm))) hm).2
    unfold ballOverlapsF32 at hov
    dsimp only at hov
    rw [hl, decide_eq_true_eq] at hov
    exact absurd (hov.trans_lt (neg _ (by linarith))) (not_lt.2 (linfF_nonneg _ _ _ _))

end

theorem computeClassesF32 {t : BoxTree} (hw : t.WF) (hL : t.nlevels ≤ 30) (fl : ℚ → ℚ) (c0 : Nat → ℚ)
    (n : Nat) (perLevel : Bool) (starts lists ttp : List Nat) (hl : ∀ s ∈ lists, s < t.nboxes)
    (ht : ∀ s ∈ ttp, s < t.nboxes) :
    computeClasses t n perLevel starts lists ttp (normVecF32 fl t c0)
      = computeClasses t n perLevel starts lists ttp (normVecF fl t c0) := by
  have get : ∀ (l : List Nat) (p : Nat), (∀ s ∈ l, s < t.nboxes) → l.getD p 0 < t.nboxes := by
    intro l p h
    by_cases hp : p < l.length
    · rw [List.getD_eq_getElem _ _ hp]; exact h _ (List.getElem_mem _)
    · rw [List.getD_eq_default _ _ (by omega)]; exact hw.nboxes_pos
  have hv : ∀ a b, a < t.nboxes → b < t.nboxes →
      normVecF32 fl t c0 (t.level a) a b = normVecF fl t c0 (t.level a) a b := by
    intro a b ha hb
    have h1 := hw.level_lt a ha
    have h2 := hw.level_lt b hb
    funext axis
    unfold normVecF32 normVecF
    rw [radF32_eq fl (by omega), storedCenter32_eq fl c0 (by omega), storedCenter32_eq fl c0 (by omega)]
  unfold computeClasses
  rw [List.map_congr_left (l := List.range lists.length)
    (g := fun p => classOfPair t n perLevel starts lists ttp p (normVecF fl t c0))]
  intro p _
  unfold classOfPair
  dsimp only
  split
  · rfl
  · rw [hv _ _ (get _ _ hl) (get _ _ ht)]

/-- **C100** (partial), translation and rotation classes of a traversal that was built with rounding and
32-bit integers. -/
theorem C100_rounded_classes_partial (inp : TravInput) (hw : inp.tree.WF) (hL : inp.tree.nlevels ≤ 30)
    (fl rt hf : ℚ → ℚ) (c0 : Nat → ℚ) (emin emax : Nat → Nat → ℚ) (trav : Traversal)
    (h : buildTraversal (inp.withRounded32 fl rt c0 emin emax) = .ok trav) :
    (∀ perLevel, buildTranslationClasses inp.tree inp.nAway trav perLevel (normVecF32 fl inp.tree c0)
        (classDistF fl hf inp.tree)
      = buildTranslationClasses inp.tree inp.nAway trav perLevel (normVecF fl inp.tree c0)
        (classDistF fl hf inp.tree)) ∧
    ∀ (A : Type) [DecidableEq A] (angle : List ℤ → A),
      buildRotationClasses angle inp.tree inp.nAway trav (normVecF32 fl inp.tree c0)
        = buildRotationClasses angle inp.tree inp.nAway trav (normVecF fl inp.tree c0) := by
  have F := travFields h
  have hl : ∀ s ∈ trav.list2.lists, s < inp.tree.nboxes := by
    intro s hs
    rw [F.list2] at hs
    obtain ⟨r, hr, hsr⟩ := List.mem_flatten.1 hs
    obtain ⟨b, hb, rfl⟩ := List.mem_map.1 hr
    exact (list2_struct hw F.row_slnws (F.ttp_lt hb) hsr).1
  refine ⟨fun perLevel => ?_, fun A _ angle => ?_⟩
  · unfold buildTranslationClasses
    rw [computeClassesF32 hw hL fl c0 _ _ _ _ _ hl fun s hs => F.ttp_lt hs]
  · unfold buildRotationClasses
    rw [computeClassesF32 hw hL fl c0 _ _ _ _ _ hl fun s hs => F.ttp_lt hs]

/-- The hypotheses hold for the example in single precision. -/
example : RoundedArea Ex.exTree (roundEven 24) (roundEven 53)
      (fun _ => rootCenterF (roundEven 24) 0 16) Ex.exBmin (1 / 2 ^ 24) 24 ∧
    Ex.exTree.nlevels ≤ 30 ∧ Ex.exTree.LeavesNear (20 * (1 / 2 ^ 24 * 24)) :=
  ⟨Ex.exArea, by decide, Ex.exTree_near⟩

/-- A ball in the center of the box on level 30 of the chain, in double precision. -/
example : ∃ aq, areaQuery Ex.chain (fun _ => 0) [⟨Ex.chain.center 30, 0⟩] none
      (guidingBoxF32 Ex.chain (roundEven 53) (roundEven 53) fun _ => 0)
      (ballOverlapsF32 Ex.chain (roundEven 53) (Ex.chain.center 0))
      (adjacentF32 Ex.chain (roundEven 53) (Ex.chain.center 0)) = .ok aq ∧ 30 ∉ aq.row 0 :=
  ⟨_, rfl, C100_rounded_small_ball (roundEven_rounds (p := 53) (by decide)) Ex.chain_wf _ none
    (by simp) _ rfl 30 rfl 0 (by decide) (by decide +kernel)⟩

end Boxtree
