import Verif.Lemmas.Rounded32
import Verif.Model.AreaF32

/-! With at most 30 levels the rounded area queries with 32-bit shifts are those with powers of two. -/

namespace Boxtree.Area
open BoxTree

variable {t : BoxTree}

/-- The peer lists only depend on what the adjacency test says about boxes and their levels. -/
theorem peerLists_same (hw : t.WF) {adj adj' : AdjTest}
    (h : ∀ a b, a < t.nboxes → b < t.nboxes →
      adj a (t.level a) b (t.level b) = adj' a (t.level a) b (t.level b)) :
    peerLists t adj = peerLists t adj' := by
  unfold peerLists
  congr 1
  apply List.map_congr_left
  intro b hb
  rw [List.mem_range] at hb
  unfold peerKernel
  by_cases h0 : b = 0
  · rw [if_pos h0, if_pos h0]
  rw [if_neg h0, if_neg h0]
  apply walk_congr hw _ _ hw.nboxes_pos
  intro j c hc hc0 hl
  rw [hw.level_root] at hl
  have e1 := h b c hb hc
  rw [hl, show 0 + j + 1 = j + 1 by omega] at e1
  have e2 : mustBePeer t b j c adj = mustBePeer t b j c adj' := by
    unfold mustBePeer
    apply foldl_congr_mem
    intro m hm a
    rw [List.mem_range] at hm
    by_cases hcm : t.child m c = 0
    · simp [hcm]
    · have e3 := h b _ hb (hw.child_lt m hm c hc)
      rw [hw.level_child hm hc hcm, hl, show 0 + j + 1 + 1 = j + 2 by omega] at e3
      simp only [e3]
  unfold peerVisit
  rw [e1, e2]

theorem peerLists_lt (hw : t.WF) (adj : AdjTest) : ∀ q ∈ (peerLists t adj).lists, q < t.nboxes := by
  intro q h
  obtain ⟨r, hr, hqr⟩ := List.mem_flatten.1 h
  obtain ⟨b, hb, rfl⟩ := List.mem_map.1 hr
  have hb := List.mem_range.1 hb
  unfold peerKernel at hqr
  split at hqr
  · rw [List.mem_singleton.1 hqr]; exact hb
  · obtain ⟨k, c, hc, _, he⟩ := mem_walk _ hw q hw.nboxes_pos hqr
    unfold peerVisit at he
    split at he
    · split at he
      · simp at he; omega
      · split at he
        · simp at he; omega
        · split at he <;> simp at he
          omega
    · simp at he

theorem areaWalk_same (hw : t.WF) {ov ov' : Ball → Nat → Bool}
    (h : ∀ ball c, c < t.nboxes → ov ball c = ov' ball c) {g g' : Ball → Nat} (hg : ∀ ball, g ball = g' ball)
    (bmin : Nat → ℚ) {P : BuiltList} (hP : ∀ q ∈ P.lists, q < t.nboxes) (ball : Ball) :
    areaWalk t bmin P ball g ov = areaWalk t bmin P ball g' ov' := by
  unfold areaWalk
  rw [hg]
  apply List.flatMap_congr
  intro q hqm
  have hq := hP q (List.mem_of_mem_drop (List.mem_of_mem_take hqm))
  unfold areaPeer
  rw [h ball q hq]
  split
  · rfl
  · refine walk_congr hw _ _ hq fun j c hc _ _ => ?_
    unfold areaVisit
    rw [h ball c hc]

theorem areaPeer_found (hw : t.WF) {ov : Ball → Nat → Bool} {ball : Ball} {q b : Nat} (hq : q < t.nboxes)
    (h : b ∈ areaPeer t ball q ov) : b < t.nboxes ∧ ov ball b = true := by
  unfold areaPeer at h
  split at h
  · split at h
    · rename_i ho
      rw [List.mem_singleton.1 h]
      exact ⟨hq, ho⟩
    · simp at h
  · obtain ⟨k, c, hc, _, he⟩ := mem_walk _ hw b hq h
    unfold areaVisit at he
    split at he
    · split at he
      · rename_i ho
        rw [List.mem_singleton.1 he]
        exact ⟨hc, ho⟩
      · simp at he
    · simp at he

section
variable (hw : t.WF) (hL : t.nlevels ≤ 30) (fl hf : ℚ → ℚ) (c0 bmin : Nat → ℚ)
include hw hL

omit hw hL in
theorem queryMortonF32_eq (x : Nat → ℚ) {l : Nat} (hl : l ≤ 30) :
    queryMortonF32 t fl bmin x l = queryMortonF t fl bmin x l := by
  unfold queryMortonF32 queryMortonF
  rw [Build.shift32_small hl]

omit hw hL in
theorem queryMortonF_lt (x : Nat → ℚ) (l : Nat) : queryMortonF t fl bmin x l < t.nch := by
  unfold nch
  apply Nat.lt_pow_two_of_testBit
  intro j hj
  rw [Bool.eq_false_iff]
  intro h
  unfold queryMortonF at h
  rw [testBit_morton_fold] at h
  obtain ⟨i, h1, h2, _⟩ := h
  omega

theorem guidingLoopF32 (x : Nat → ℚ) (qr : ℚ) : ∀ (fuel b : Nat), b < t.nboxes →
    guidingLoopBy t (t.radF32 fl) (queryMortonF32 t fl bmin x) qr fuel (t.level b) b
      = guidingLoopBy t (t.radF fl) (queryMortonF t fl bmin x) qr fuel (t.level b) b := by
  intro fuel
  induction fuel with
  | zero => intro b _; rfl
  | succ fuel ih =>
    intro b hb
    have hl := hw.level_lt b hb
    unfold guidingLoopBy
    rw [radF32_eq fl (by omega), queryMortonF32_eq fl bmin x (by omega)]
    split
    · rfl
    · dsimp only
      split
      · rename_i hne
        have hm := queryMortonF_lt (t := t) fl bmin x (t.level b)
        rw [← hw.level_child hm hb hne]
        exact ih _ (hw.child_lt _ hm b hb)
      · rfl

theorem guidingBoxF32_eq (ball : Ball) :
    guidingBoxF32 t fl hf bmin ball = guidingBoxF t fl hf bmin ball := by
  have h := guidingLoopF32 hw hL fl bmin (clampF t fl hf bmin ball.center) (queryRadiusF t fl hf bmin ball)
    (t.nlevels + 1) 0 hw.nboxes_pos
  rw [hw.level_root] at h
  unfold guidingBoxF32 guidingBoxF
  dsimp only
  rw [radF32_eq fl (by omega), h]

theorem ballOverlapsF32_eq (ball : Ball) {c : Nat} (hc : c < t.nboxes) :
    ballOverlapsF32 t fl c0 ball c = ballOverlapsF t fl c0 ball c := by
  have hl := hw.level_lt c hc
  unfold ballOverlapsF32 ballOverlapsF
  rw [radF32_eq fl (by omega), storedCenter32_eq fl c0 (by omega)]

theorem peerListsF32 : peerLists t (adjacentF32 t fl c0) = peerLists t (adjacentF t fl c0) := by
  refine peerLists_same hw fun a b ha hb => ?_
  have hl := hw.level_lt a ha
  have hl' := hw.level_lt b hb
  unfold adjacentF32 adjacentF adjF32 adjF
  rw [radF32_eq fl (by omega), radF32_eq fl (by omega), storedCenter32_eq fl c0 (by omega),
    storedCenter32_eq fl c0 (by omega)]

theorem areaQueryF32 (balls : List Ball) (peers : Option BuiltList)
    (hp : ∀ P, peers = some P → ∀ q ∈ P.lists, q < t.nboxes) :
    areaQuery t bmin balls peers (guidingBoxF32 t fl hf bmin) (ballOverlapsF32 t fl c0)
        (adjacentF32 t fl c0)
      = areaQuery t bmin balls peers (guidingBoxF t fl hf bmin) (ballOverlapsF t fl c0)
        (adjacentF t fl c0) := by
  unfold areaQuery
  rw [peerListsF32 hw hL]
  have hq : ∀ q ∈ (peers.getD (peerLists t (adjacentF t fl c0))).lists, q < t.nboxes := by
    cases peers with
    | some P => exact hp P rfl
    | none => exact peerLists_lt hw _
  generalize peers.getD (peerLists t (adjacentF t fl c0)) = P at hq
  dsimp only
  split
  · rfl
  · congr 2
    apply List.map_congr_left
    intro ball _
    exact areaWalk_same hw (fun ball c hc => ballOverlapsF32_eq hw hL fl c0 ball hc)
      (guidingBoxF32_eq hw hL fl hf bmin) bmin hq ball

end

end Boxtree.Area
