import Verif.Lemmas.AreaF
import Verif.Props.AreaQuery
import Verif.Props.ClassesF

/-!
# Peer lists, area queries, leaves-to-balls lookups, space invader queries with rounding (C68)
-/

set_option linter.unusedSimpArgs false
set_option linter.unusedVariables false

namespace Boxtree
open BoxTree Build Area

variable {t : BoxTree} {fl hf : ℚ → ℚ} {c0 bmin : Nat → ℚ} {u M : ℚ}

namespace RoundedArea
variable (h : RoundedArea t fl hf c0 bmin u M)
include h

open scoped Classical in
theorem count_walk (hfl : t.ChildFlagsOK) {ball : Ball} {b : Nat} (hb : b < t.nboxes) :
    (areaWalk t bmin (peerLists t) ball (guidingBoxF t fl hf bmin) (ballOverlapsF t fl c0)).count b =
      if (∃ q, t.IsPeer (guidingBoxF t fl hf bmin ball) q ∧ t.IsAncOrSelf q b) ∧ t.IsLeaf b ∧
        ballOverlapsF t fl c0 ball b = true then 1 else 0 :=
  count_areaWalkBy h.wf hfl _ (h.guidingBoxF_spec ball).1 (peerLists_row t) hb

theorem walk_nodup (hfl : t.ChildFlagsOK) (ball : Ball) :
    (areaWalk t bmin (peerLists t) ball (guidingBoxF t fl hf bmin) (ballOverlapsF t fl c0)).Nodup := by
  rw [List.nodup_iff_count_le_one]
  intro a
  by_cases ha : a ∈ areaWalk t bmin (peerLists t) ball (guidingBoxF t fl hf bmin)
      (ballOverlapsF t fl c0)
  · rw [h.count_walk hfl (areaWalk_ltBy h.wf (h.guidingBoxF_spec ball).1 (peerLists_row t) ha)]
    split <;> omega
  · rw [List.count_eq_zero.2 ha]; omega

theorem walk_sound (hfl : t.ChildFlagsOK) {ball : Ball} (hr : 0 ≤ ball.radius) {b : Nat}
    (hm : b ∈ areaWalk t bmin (peerLists t) ball (guidingBoxF t fl hf bmin)
      (ballOverlapsF t fl c0)) :
    b < t.nboxes ∧ t.IsLeaf b ∧
      t.MeetsBall b ball.center (ball.radius + ballTol t u M ball.radius) := by
  have hb := areaWalk_ltBy h.wf (h.guidingBoxF_spec ball).1 (peerLists_row t) hm
  have hc := h.count_walk hfl (ball := ball) hb
  have hp := List.count_pos_iff.2 hm
  split at hc
  · rename_i hx
    exact ⟨hb, hx.2.1, h.meets_of_overlapsF hr hb hx.2.2⟩
  · omega

theorem tol_nonneg {r : ℚ} (hr : 0 ≤ r) : 0 ≤ ballTol t u M r := by
  have hu := h.rounds.u_nonneg
  have hM := h.M_pos
  unfold ballTol
  positivity

theorem walk_complete (hfl : t.ChildFlagsOK) (hocc : t.LeavesNear (20 * (u * M))) {ball : Ball}
    (hr : 0 ≤ ball.radius) {b : Nat} (hb : b < t.nboxes) (hl : t.IsLeaf b)
    (hm : t.MeetsBall b ball.center (ball.radius - ballTol t u M ball.radius)) :
    b ∈ areaWalk t bmin (peerLists t) ball (guidingBoxF t fl hf bmin) (ballOverlapsF t fl c0) := by
  rw [← List.count_pos_iff, h.count_walk hfl hb, if_pos]
  · omega
  · refine ⟨h.exists_peer hocc hb hl (meets_mono ?_ hm), hl, h.overlapsF_of_meets hr hb hm⟩
    linarith [h.tol_nonneg hr]

theorem query_ok (balls : List Ball) {peers : Option BuiltList}
    (hp : peers = none ∨ peers = some (peerLists t (adjacentF t fl c0))) :
    areaQuery t bmin balls peers (guidingBoxF t fl hf bmin) (ballOverlapsF t fl c0)
      (adjacentF t fl c0) = .ok (buildLists (balls.map fun ball => areaWalk t bmin (peerLists t) ball
        (guidingBoxF t fl hf bmin) (ballOverlapsF t fl c0))) := by
  have : peers.getD (peerLists t (adjacentF t fl c0)) = peerLists t := by
    rcases hp with rfl | rfl <;> exact peerLists_rounded h
  unfold areaQuery
  simp only [this, peerLists_starts_length, ne_eq, not_true_eq_false, if_false]

end RoundedArea

/-- C68: in floating point arithmetic the peer list of every box still consists of exactly its
peers, each once. -/
theorem C68_peer_lists (h : RoundedArea t fl hf c0 bmin u M) (hfl : t.ChildFlagsOK) (b : Nat)
    (hb : b < t.nboxes) :
    ((peerLists t (adjacentF t fl c0)).row b).Nodup ∧
      ∀ q, q ∈ (peerLists t (adjacentF t fl c0)).row b ↔ t.IsPeer b q := by
  rw [peerLists_rounded h]
  exact C31_peer_lists h.wf hfl b hb

/-- C68: an area query in floating point arithmetic lists for each ball, each once, only leaf boxes
that meet a ball with a slightly larger radius, and all leaf boxes that meet a ball with a slightly
smaller radius, wherever the ball lies. -/
theorem C68_area_query (h : RoundedArea t fl hf c0 bmin u M) (hfl : t.ChildFlagsOK)
    (hocc : t.LeavesNear (20 * (u * M))) (balls : List Ball) {peers : Option BuiltList}
    (hp : peers = none ∨ peers = some (peerLists t (adjacentF t fl c0))) :
    ∃ aq, areaQuery t bmin balls peers (guidingBoxF t fl hf bmin) (ballOverlapsF t fl c0)
        (adjacentF t fl c0) = .ok aq ∧ aq.starts.length = balls.length + 1 ∧
      ∀ (i : Nat) (hi : i < balls.length), 0 ≤ balls[i].radius →
        (aq.row i).Nodup ∧
        (∀ b ∈ aq.row i, b < t.nboxes ∧ t.IsLeaf b ∧
          t.MeetsBall b balls[i].center (balls[i].radius + ballTol t u M balls[i].radius)) ∧
        ∀ b, b < t.nboxes → t.IsLeaf b →
          t.MeetsBall b balls[i].center (balls[i].radius - ballTol t u M balls[i].radius) →
          b ∈ aq.row i := by
  refine ⟨_, h.query_ok balls hp, by simp [buildLists, length_prefixSums], ?_⟩
  intro i hi hr
  rw [row_build _ _ (by simpa using hi), List.getD_eq_getElem _ _ (by simpa using hi),
    List.getElem_map]
  exact ⟨h.walk_nodup hfl _, fun b hb => h.walk_sound hfl hr hb,
    fun b hb hl hm => h.walk_complete hfl hocc hr hb hl hm⟩

/-- C68: so does the lookup table from leaf boxes to balls. -/
theorem C68_leaves_to_balls (h : RoundedArea t fl hf c0 bmin u M) (hfl : t.ChildFlagsOK)
    (hocc : t.LeavesNear (20 * (u * M))) (balls : List Ball) (hr : ∀ ball ∈ balls, 0 ≤ ball.radius)
    {argsort : List Nat → List Nat} (ha : IsArgsort argsort) {peers : Option BuiltList}
    (hp : peers = none ∨ peers = some (peerLists t (adjacentF t fl c0))) :
    ∃ lb, leavesToBalls t argsort bmin balls peers (guidingBoxF t fl hf bmin)
        (ballOverlapsF t fl c0) (adjacentF t fl c0) = .ok (some lb) ∧
      lb.starts.length = t.nboxes + 1 ∧
      ∀ b, b < t.nboxes → (lb.row b).Nodup ∧
        (∀ i ∈ lb.row b, ∃ h : i < balls.length, t.IsLeaf b ∧
          t.MeetsBall b balls[i].center (balls[i].radius + ballTol t u M balls[i].radius)) ∧
        ∀ (i : Nat) (hi : i < balls.length), t.IsLeaf b →
          t.MeetsBall b balls[i].center (balls[i].radius - ballTol t u M balls[i].radius) →
          i ∈ lb.row b := by
  obtain ⟨ex, hex, hspec⟩ := transpose_row ha (balls.map fun ball => areaWalk t bmin (peerLists t)
    ball (guidingBoxF t fl hf bmin) (ballOverlapsF t fl c0)) t.nboxes
  refine ⟨keyValueSort argsort (buildLists (balls.map fun ball => areaWalk t bmin (peerLists t)
      ball (guidingBoxF t fl hf bmin) (ballOverlapsF t fl c0))).lists ex t.nboxes, ?_, ?_, ?_⟩
  · unfold leavesToBalls
    rw [h.query_ok balls hp]
    simp only [bind, Except.bind, pure, Except.pure]
    rw [hex]; rfl
  · simp [keyValueSort]
  · intro b hb
    obtain ⟨h1, h2⟩ := hspec b hb
    refine ⟨h2 ?_, fun i hi => ?_, fun i hi hl hm => ?_⟩
    · intro r hrm
      obtain ⟨ball, hball, rfl⟩ := List.mem_map.1 hrm
      exact h.walk_nodup hfl ball
    · obtain ⟨h3, hm⟩ := (h1 i).1 hi
      have h' : i < balls.length := by simpa using h3
      rw [List.getElem_map] at hm
      obtain ⟨-, hl, hm⟩ := h.walk_sound hfl (hr _ (List.getElem_mem h')) hm
      exact ⟨h', hl, hm⟩
    · refine (h1 i).2 ⟨by simpa using hi, ?_⟩
      rw [List.getElem_map]
      exact h.walk_complete hfl hocc (hr _ (List.getElem_mem hi)) hb hl hm

/-- C68: and a space invader query, whatever the order of its atomic updates, returns for each leaf
a distance `D` that is at least (up to the tolerance) the center distance of every ball that meets
the leaf with a slightly smaller radius, and is 0 or (up to the tolerance) the center distance of a
ball that meets it with a slightly larger radius. -/
theorem C68_space_invader (h : RoundedArea t fl hf c0 bmin u M) (hfl : t.ChildFlagsOK)
    (hocc : t.LeavesNear (20 * (u * M))) (balls : List Ball) (hr : ∀ ball ∈ balls, 0 ≤ ball.radius)
    {asInt : ℚ → ℤ} (h0 : asInt 0 = 0)
    (hmono : ∀ x y, 0 ≤ x → x ≤ y → asInt x ≤ asInt y) (schedule : List (Nat × ℤ))
    (hs : schedule.Perm (balls.flatMap fun ball => invaderUpdates t asInt bmin
      (peerLists t (adjacentF t fl c0)) ball (guidingBoxF t fl hf bmin) (ballOverlapsF t fl c0)
      (fun ball leaf => t.linfF fl ball.center (t.storedCenter fl c0 leaf)))) :
    (spaceInvader t schedule).length = t.nboxes ∧
    ∀ b, b < t.nboxes → ∃ D, (spaceInvader t schedule).getD b 0 = asInt D ∧
      (∀ ball ∈ balls, t.IsLeaf b →
        t.MeetsBall b ball.center (ball.radius - ballTol t u M ball.radius) →
        ∀ i, i < t.dims → |ball.center i - t.center b i| - ballTol t u M ball.radius ≤ D) ∧
      (D = 0 ∨ t.IsLeaf b ∧ ∃ ball ∈ balls,
        t.MeetsBall b ball.center (ball.radius + ballTol t u M ball.radius) ∧
        ∃ i, i < t.dims ∧ |D - (|ball.center i - t.center b i|)| ≤ ballTol t u M ball.radius) := by
  rw [peerLists_rounded h] at hs
  obtain ⟨hlen, hall⟩ := spaceInvaderBy h.wf balls (fun _ _ => linfF_nonneg _ _ _ _) h0 hmono
    schedule hs
  refine ⟨hlen, fun b hb => ?_⟩
  obtain ⟨D, hres, hD0, hDle, hDin⟩ := hall b hb
  refine ⟨D, hres, fun ball hball hl hm i hi => ?_, ?_⟩
  · have h1 := hDle ball hball (h.walk_complete hfl hocc (hr ball hball) hb hl hm)
    have h2 := ((linfF_le_iff _ _ _).1 h1).2 i hi
    have h3 := h.distF_err (hr ball hball) hb
      (meets_mono (by linarith [h.tol_nonneg (hr ball hball)]) hm) hi
    rw [abs_le] at h3
    linarith [h3.1]
  · rcases hDin with hD | ⟨ball, hball, hm, hD⟩
    · exact Or.inl hD
    · obtain ⟨-, hl, hm⟩ := h.walk_sound hfl (hr ball hball) hm
      rcases linfF_attained t fl ball.center (t.storedCenter fl c0 b) with hz | ⟨i, hi, hz⟩
      · left; rw [hD, hz]
      · right
        refine ⟨hl, ball, hball, hm, i, hi, ?_⟩
        rw [hD, hz]
        exact h.distF_err (hr ball hball) hb hm hi

/-! ### the hypotheses can be met, and the last one is needed -/

namespace Ex

theorem halves24 (l : Nat) : roundEven 24 (16 / 2 ^ l) = 16 / 2 ^ l := by
  refine roundBy_of_representable near_even (by norm_num) ⟨16, -(l : ℤ), by norm_num, ?_⟩
  rw [zpow_neg, zpow_natCast]
  push_cast
  rw [div_eq_mul_inv]

theorem farTree_wf (s : ℚ) : (farTree s).WF where
  ext_pos := exTree_wf.ext_pos
  nboxes_pos := exTree_wf.nboxes_pos
  level_root := exTree_wf.level_root
  parent_root := exTree_wf.parent_root
  parent_lt := exTree_wf.parent_lt
  level_parent := exTree_wf.level_parent
  level_lt := exTree_wf.level_lt
  child_lt := exTree_wf.child_lt
  child_parent := exTree_wf.child_parent
  child_inj := exTree_wf.child_inj
  parent_child := exTree_wf.parent_child
  center_child := by
    intro m hm b hb hc a ha
    have := exTree_wf.center_child m hm b hb hc a ha
    show exTree.center (exTree.child m b) a + s = exTree.center b a + s +
      mortonSign exTree.dims m a * exTree.rad (exTree.level b + 1)
    rw [this]
    ring

theorem farTree_fine (s : ℚ) (hs : 0 ≤ s)
    (hc : |rootCenterF (roundEven 24) s 16 - (s + 8)| ≤ 5 * (1 / 2 ^ 24) * (s + 24))
    (hs2 : s ≤ 80000) :
    FineEnough (farTree s) (fun _ => rootCenterF (roundEven 24) s 16) (1 / 2 ^ 24) (s + 24) 1 where
  size := by
    intro a ha
    have h1 : (farTree s).center 0 a = 8 + s := rfl
    have h2 : (farTree s).rootExtent = 16 := rfl
    rw [h1, h2, abs_of_nonneg (by linarith)]; linarith
  root := by
    intro a ha
    have h1 : (farTree s).center 0 a = 8 + s := rfl
    rw [h1, add_comm 8 s]; exact hc
  fine := by
    show (5 * (4 * ((4 : Nat) : ℚ) + ((1 : Nat) : ℚ) + 16) * (1 / 2 ^ 24) * (s + 24) : ℚ)
      < 16 / 2 ^ (4 - 1 + 1)
    norm_num
    linarith

/-- The example in single precision, moved by `s`. -/
theorem farArea (s : ℚ) (hs : 0 ≤ s)
    (hc : |rootCenterF (roundEven 24) s 16 - (s + 8)| ≤ 5 * (1 / 2 ^ 24) * (s + 24))
    (hs2 : s ≤ 1000) :
    RoundedArea (farTree s) (roundEven 24) (roundEven 53)
      (fun _ => rootCenterF (roundEven 24) s 16) (fun _ => s) (1 / 2 ^ 24) (s + 24) where
  rounds := roundEven_rounds (by norm_num)
  host := roundEven_coarser
  wf := farTree_wf s
  dims := by show 0 < 1; decide
  fine := farTree_fine s hs hc (by linarith)
  bmin := by
    intro i hi
    show s = 8 + s - 16 / 2 ^ (0 + 1)
    norm_num
  halves := halves24
  stretch := by
    show 200000 * (1 / 2 ^ 24) * (s + 24) ≤ 16
    norm_num
    linarith

/-- The example in single precision. -/
theorem exArea : RoundedArea exTree (roundEven 24) (roundEven 53)
    (fun _ => rootCenterF (roundEven 24) 0 16) exBmin (1 / 2 ^ 24) 24 where
  rounds := roundEven_rounds (by norm_num)
  host := roundEven_coarser
  wf := exTree_wf
  dims := by decide
  fine := ⟨(exInputF_rounded none).fine.size, (exInputF_rounded none).fine.root, by
    show (5 * (4 * ((4 : Nat) : ℚ) + ((1 : Nat) : ℚ) + 16) * (1 / 2 ^ 24) * 24 : ℚ)
      < 16 / 2 ^ (4 - 1 + 1)
    norm_num⟩
  bmin := exBmin_ok
  halves := halves24
  stretch := by norm_num [exTree]

theorem _root_.Boxtree.BoxTree.LeavesOccupied.near {t : BoxTree} (h : t.LeavesOccupied) {e : ℚ}
    (he : 0 ≤ e) : t.LeavesNear e := by
  intro b hb hl
  obtain ⟨x, hx⟩ := h b hb hl
  refine ⟨x, fun i hi => ?_⟩
  obtain ⟨⟨h1, h2⟩, h3⟩ := hx i hi
  exact ⟨⟨by linarith, by linarith⟩, by linarith⟩

theorem exTree_near : exTree.LeavesNear (20 * (1 / 2 ^ 24 * 24)) :=
  exTree_occupied.near (by norm_num)

example : (areaQuery exTree exBmin exBalls none
    (guidingBoxF exTree (roundEven 24) (roundEven 53) exBmin)
    (ballOverlapsF exTree (roundEven 24) (fun _ => rootCenterF (roundEven 24) 0 16))
    (adjacentF exTree (roundEven 24) (fun _ => rootCenterF (roundEven 24) 0 16))).toOption.map
    (fun aq => (List.range 3).map aq.row) = some [[7], [5, 7, 8], []] := by decide +kernel

example := C68_peer_lists exArea exTree_childFlags 7 (by decide)

example := C68_area_query exArea exTree_childFlags exTree_near exBalls (Or.inl rfl)

example := C68_leaves_to_balls exArea exTree_childFlags exTree_near exBalls exBalls_radii
  stableArgsort_ok (Or.inl rfl)

example := C68_space_invader exArea exTree_childFlags exTree_near exBalls exBalls_radii
  (asInt := fun x => ⌊x * 8⌋) (by norm_num) (fun x y _ h => Int.floor_le_floor (by linarith)) _
  (List.Perm.refl _)

/-- Finding **gg**, the hypothesis `stretch` is needed: in single precision at `[65536, 65552]` the
stretch of the bounding box is lost by rounding, a query at the upper end is not clamped to the
inside of the root box, its Morton numbers wrap around, and the query misses the leaf box around
its center (box 8), although the boxes are large compared with rounding errors. -/
theorem C68_no_stretch_fails :
    FineEnough (farTree 65536) (fun _ => rootCenterF (roundEven 24) 65536 16) (1 / 2 ^ 24)
      (65536 + 24) 1 ∧
    (∀ l, roundEven 24 ((farTree 65536).rootExtent / 2 ^ l) = (farTree 65536).rootExtent / 2 ^ l) ∧
    (farTree 65536).IsLeaf 8 ∧
    (farTree 65536).MeetsBall 8 (fun _ => 65552)
      (1 / 2 - ballTol (farTree 65536) (1 / 2 ^ 24) (65536 + 24) (1 / 2)) ∧
    (areaQuery (farTree 65536) (fun _ => 65536) [⟨fun _ => 65552, 1 / 2⟩] none
      (guidingBoxF (farTree 65536) (roundEven 24) (roundEven 53) (fun _ => 65536))
      (ballOverlapsF (farTree 65536) (roundEven 24) (fun _ => rootCenterF (roundEven 24) 65536 16))
      (adjacentF (farTree 65536) (roundEven 24)
        (fun _ => rootCenterF (roundEven 24) 65536 16))).toOption.map (·.row 0) = some [] ∧
    (areaQuery (farTree 65536) (fun _ => 65536) [⟨fun _ => 65552, 1 / 2⟩] none).toOption.map
      (·.row 0) = some [8] := by
  refine ⟨farTree_fine 65536 (by norm_num) (by decide +kernel) (by norm_num), halves24, ?_, ?_,
    by decide +kernel, by decide +kernel⟩
  · exact (exTree_leaf 8).2 (by decide)
  · refine ⟨fun _ => 65552, fun i hi => ⟨?_, ?_⟩⟩
    · have h1 : (farTree 65536).lo 8 i = 65550 := by
        show exTree.center 8 i + 65536 - 16 / 2 ^ (exTree.level 8 + 1) = 65550
        norm_num [exTree]
      have h2 : (farTree 65536).hi 8 i = 65552 := by
        show exTree.center 8 i + 65536 + 16 / 2 ^ (exTree.level 8 + 1) = 65552
        norm_num [exTree]
      rw [h1, h2]; norm_num
    · have : ((farTree 65536).nlevels : ℚ) = 4 := by show ((4 : Nat) : ℚ) = 4; norm_num
      rw [sub_self, abs_zero]
      unfold ballTol
      rw [this]
      norm_num

example := C68_area_query (farArea 1000 (by norm_num) (by decide +kernel) (by norm_num))

end Ex
end Boxtree
