import Verif.Lemmas.LocalTree
import Verif.Lemmas.Tree
import Verif.Spec.LocalTree
import Verif.Props.Tools
import Verif.Examples

/-!
# C39: local trees

The arrays of `construct_local_particles_and_lists`, the target flags of the local tree and the
list of users of each multipole expansion.
-/

namespace Boxtree
open Dist

variable {α : Type} (zero : α) (n nboxes : Nat) (boxMask : Nat → Bool) (part : Nat → α)
  (starts counts cumul : Nat → Nat)

/-- **C39** (what is kept): `particle_idx` lists, in increasing order, exactly the particles that
belong to a box of the mask, and the local particles are these particles in that order. -/
theorem C39_particles_kept :
    let l := constructLocal zero n nboxes boxMask part starts counts cumul
    l.particleIdx.Pairwise (· < ·) ∧
    (∀ p, p ∈ l.particleIdx ↔
      p < n ∧ ∃ b, b < nboxes ∧ boxMask b = true ∧ InRange starts counts b p) ∧
    l.particles = l.particleIdx.map part := by
  intro l
  refine ⟨List.Pairwise.filter _ (List.pairwise_lt_range), fun p => ?_, ?_⟩
  · change p ∈ (List.range n).filter (maskedAt n nboxes boxMask starts counts) ↔ _
    rw [List.mem_filter, List.mem_range]
    constructor
    · rintro ⟨h1, h2⟩
      obtain ⟨b, hb, hm, h⟩ := (maskedAt_iff h1).1 h2
      exact ⟨h1, b, hb, hm, h⟩
    · rintro ⟨h1, b, hb, hm, h⟩
      exact ⟨h1, (maskedAt_iff h1).2 ⟨b, hb, hm, h⟩⟩
  · exact fetchParticles_spec zero n _ _ part (maskedAt n nboxes boxMask starts counts)
      (fun i _ => rfl) (fun i hi => scan_spec n nboxes boxMask starts counts hi)

/-- **C39** (ranges of masked boxes): the local range of a box of the mask selects exactly the
particles of its global range, in order. -/
theorem C39_masked_box (b : Nat) (hb : b < nboxes) (hm : boxMask b = true)
    (hle : starts b + counts b ≤ n) :
    let l := constructLocal zero n nboxes boxMask part starts counts cumul
    (l.particleIdx.drop (l.starts b)).take (l.countsNonchild b) =
      List.range' (starts b) (counts b) ∧
    (l.particles.drop (l.starts b)).take (l.countsNonchild b) =
      (List.range' (starts b) (counts b)).map part := by
  intro l
  have hall : ∀ i, starts b ≤ i → i < starts b + counts b →
      maskedAt n nboxes boxMask starts counts i = true := fun i h1 h2 =>
    (maskedAt_iff (by omega)).2 ⟨b, hb, hm, h1, h2⟩
  have key : (l.particleIdx.drop (l.starts b)).take (l.countsNonchild b) =
      List.range' (starts b) (counts b) := by
    have h1 : l.starts b = rankOf (maskedAt n nboxes boxMask starts counts) (starts b) :=
      scan_spec n nboxes boxMask starts counts (by omega)
    have h2 : l.countsNonchild b = counts b := if_pos hm
    have h3 := filter_slice (maskedAt n nboxes boxMask starts counts)
      (a := starts b) (b := starts b + counts b) (n := n) (by omega) hle
    rw [rankOf_add_of_all _ _ hall, Nat.add_sub_cancel_left, Nat.add_sub_cancel_left] at h3
    rw [h1, h2]
    refine h3.trans (List.filter_eq_self.2 fun i hi => ?_)
    rw [List.mem_range'_1] at hi
    exact hall i hi.1 hi.2
  refine ⟨key, ?_⟩
  rw [(C39_particles_kept zero n nboxes boxMask part starts counts cumul).2.2, ← key,
    List.map_take, List.map_drop]

/-- **C39** (ranges of other boxes): a box outside the mask has no local particles of its own. -/
theorem C39_unmasked_box (b : Nat) (hm : boxMask b = false) :
    (constructLocal zero n nboxes boxMask part starts counts cumul).countsNonchild b = 0 := by
  simp [constructLocal, hm]

/-- **C39** (cumulative ranges): the local cumulative range of any box selects exactly the kept
particles of its global cumulative range, in order. -/
theorem C39_cumulative (b : Nat) (hle : starts b + cumul b ≤ n) :
    let l := constructLocal zero n nboxes boxMask part starts counts cumul
    (l.particleIdx.drop (l.starts b)).take (l.countsCumul b) =
      l.particleIdx.filter (fun p => decide (InRange starts cumul b p)) ∧
    l.starts b + l.countsCumul b ≤ l.particleIdx.length := by
  intro l
  set p := maskedAt n nboxes boxMask starts counts with hp
  have h1 : l.starts b = rankOf p (starts b) := scan_spec n nboxes boxMask starts counts (by omega)
  have h2 : l.countsCumul b = rankOf p (starts b + cumul b) - rankOf p (starts b) := by
    rw [hp, ← scan_spec n nboxes boxMask starts counts (show starts b ≤ n by omega),
      ← scan_spec n nboxes boxMask starts counts hle]
    rfl
  have h3 : l.particleIdx = (List.range n).filter p := rfl
  constructor
  · rw [h1, h2, h3, filter_slice p (by omega) hle, Nat.add_sub_cancel_left, List.filter_filter,
      range_split (show starts b ≤ starts b + cumul b by omega) hle, List.filter_append,
      List.filter_append, Nat.add_sub_cancel_left]
    have e1 : (List.range (starts b)).filter
        (fun a => decide (InRange starts cumul b a) && p a) = [] := by
      rw [List.filter_eq_nil_iff]
      intro a ha
      have := List.mem_range.1 ha
      have hn : ¬ InRange starts cumul b a := by unfold InRange; omega
      simp [hn]
    have e3 : (List.range' (starts b + cumul b) (n - (starts b + cumul b))).filter
        (fun a => decide (InRange starts cumul b a) && p a) = [] := by
      rw [List.filter_eq_nil_iff]
      intro a ha
      have := List.mem_range'_1.1 ha
      have hn : ¬ InRange starts cumul b a := by unfold InRange; omega
      simp [hn]
    rw [e1, e3, List.nil_append, List.append_nil]
    apply List.filter_congr
    intro a ha
    have := List.mem_range'_1.1 ha
    have : InRange starts cumul b a := this
    simp [this]
  · rw [h1, h2, h3]
    have ha := rankOf_le_of_le p (show starts b ≤ starts b + cumul b by omega)
    have hb := rankOf_le_of_le p hle
    have : ((List.range n).filter p).length = rankOf p n := rfl
    omega

/-! ### target flags -/

section flags
variable {t : BoxTree}

/-- Every particle of the cumulative range of `b` is owned by `b` or a descendant of `b`. -/
theorem RangesOK.owner {n : Nat} {start count cumul : Nat → Nat} (hw : t.WF)
    (hr : RangesOK t n start count cumul) :
    ∀ k b, t.nlevels ≤ k + t.level b → b < t.nboxes → ∀ p, InRange start cumul b p →
      ∃ d, d < t.nboxes ∧ t.IsAncOrSelf b d ∧ InRange start count d p := by
  intro k
  induction k with
  | zero => intro b hk hb; have := hw.level_lt b hb; omega
  | succ k ih =>
    intro b hk hb p hp
    by_cases hown : InRange start count b p
    · exact ⟨b, hb, ⟨le_rfl, by simp [BoxTree.ancAt]⟩, hown⟩
    · obtain ⟨h1, h2⟩ := hp
      obtain ⟨c, hc, hc0, hpc, hin⟩ := hr.exhaustive b hb p (by unfold InRange at hown; omega) h2
      have hl := hw.level_parent c hc hc0
      rw [hpc] at hl
      obtain ⟨d, hd, hanc, hown'⟩ := ih c (by omega) hc p hin
      refine ⟨d, hd, ⟨by have := hanc.1; omega, ?_⟩, hown'⟩
      have hl2 := hanc.1
      have h3 := BoxTree.ancAt_parent t (b := d) (l := t.level b) (by omega)
      rw [← h3, show t.level b + 1 = t.level c by omega, hanc.2, hpc]

/-- The cumulative range of a box contains the range of each box below it. -/
theorem RangesOK.below {n : Nat} {start count cumul : Nat → Nat} (hw : t.WF)
    (hr : RangesOK t n start count cumul) :
    ∀ k b d, t.level d = k + t.level b → d < t.nboxes → t.ancAt d (t.level b) = b →
      (start b ≤ start d ∧ start d + cumul d ≤ start b + cumul b) ∧
      (0 < k → start b + count b ≤ start d) := by
  intro k
  induction k with
  | zero =>
    intro b d hl hd ha
    have : d = b := by rw [← ha, BoxTree.ancAt]; simp [show t.level d - t.level b = 0 by omega]
    subst this
    exact ⟨⟨le_rfl, le_rfl⟩, fun h => absurd h (by omega)⟩
  | succ k ih =>
    intro b d hl hd ha
    have hd0 : d ≠ 0 := by rintro rfl; rw [hw.level_root] at hl; omega
    have hlp := hw.level_parent d hd hd0
    have hpn := hw.parent_lt d hd
    have ha' : t.ancAt (t.parent d) (t.level b) = b := by
      rw [hw.parent_ancAt hd (by omega), ha]
    obtain ⟨⟨h1, h2⟩, h3⟩ := ih b (t.parent d) (by omega) hpn ha'
    obtain ⟨h4, h5⟩ := hr.child d hd hd0
    refine ⟨⟨by omega, by omega⟩, fun _ => ?_⟩
    rcases Nat.eq_zero_or_pos k with rfl | hk
    · have : t.parent d = b := by
        rw [← ha', BoxTree.ancAt]; simp [show t.level (t.parent d) - t.level b = 0 by omega]
      rw [← this]; exact h4
    · have := h3 hk; omega

variable (g : GlobalParticles) (trav : Traversal) (ext : Bool) (boxes : List Nat)

/-- The local target flag of a box says whether the rank is responsible for the box and the box
has targets of its own; source flags are those of the global tree. -/
theorem local_flags_own (b : Nat) :
    let l := generateLocalTree t g trav ext boxes
    (l.tree.isTarget b = true ↔ b ∈ boxes ∧ g.tgtCount b ≠ 0) ∧
    l.tree.isSource b = t.isSource b ∧ l.tree.hasSourceChild b = t.hasSourceChild b := by
  intro l
  have h := fun j => modifyTargetFlags_testBit l.targets.countsNonchild l.targets.countsCumul
    t.flags b j
  refine ⟨?_, ?_, ?_⟩
  · unfold BoxTree.isTarget
    rw [show flagIsTarget = 2 ^ 1 from rfl, hasFlag_eq_testBit]
    change (modifyTargetFlags l.targets.countsNonchild l.targets.countsCumul t.flags b).testBit 1
      = true ↔ _
    rw [h 1, if_pos rfl, decide_eq_true_iff]
    change (if listMask boxes b = true then g.tgtCount b else 0) ≠ 0 ↔ _
    by_cases hb : b ∈ boxes
    · simp [listMask, hb]
    · simp [listMask, hb]
  · unfold BoxTree.isSource
    rw [show flagIsSource = 2 ^ 0 from rfl, hasFlag_eq_testBit, hasFlag_eq_testBit]
    exact (h 0).trans (by simp)
  · unfold BoxTree.hasSourceChild
    rw [show flagHasSourceChild = 2 ^ 2 from rfl, hasFlag_eq_testBit, hasFlag_eq_testBit]
    exact (h 2).trans (by simp)

/-- **C39** (flags): in the local tree of a rank a box is a target box iff the rank is responsible
for it and it has targets of its own, and it is marked as having target boxes below it iff a
proper descendant is such a box.  Source flags are unchanged. -/
theorem C39_flags (hw : t.WF)
    (hr : RangesOK t g.ntargets g.tgtStart g.tgtCount g.tgtCumul) (b : Nat) (hb : b < t.nboxes) :
    let l := generateLocalTree t g trav ext boxes
    (l.tree.isTarget b = true ↔ b ∈ boxes ∧ g.tgtCount b ≠ 0) ∧
    (l.tree.hasTargetChild b = true ↔
      ∃ d, d < t.nboxes ∧ t.IsProperAnc b d ∧ d ∈ boxes ∧ g.tgtCount d ≠ 0) ∧
    l.tree.isSource b = t.isSource b ∧ l.tree.hasSourceChild b = t.hasSourceChild b := by
  intro l
  obtain ⟨f1, f2, f3⟩ := local_flags_own g trav ext boxes b (t := t)
  refine ⟨f1, ?_, f2, f3⟩
  have hflag : l.tree.hasTargetChild b = true ↔
      l.targets.countsNonchild b < l.targets.countsCumul b := by
    unfold BoxTree.hasTargetChild
    rw [show flagHasTargetChild = 2 ^ 3 from rfl, hasFlag_eq_testBit]
    change (modifyTargetFlags l.targets.countsNonchild l.targets.countsCumul t.flags b).testBit 3
      = true ↔ _
    rw [modifyTargetFlags_testBit, if_neg (by decide), if_pos rfl, decide_eq_true_iff]
  rw [hflag]
  have hwb := hr.within b hb
  have hcl := hr.count_le b hb
  set p := maskedAt g.ntargets t.nboxes (listMask boxes) g.tgtStart g.tgtCount with hp
  have hcount : l.targets.countsNonchild b = if listMask boxes b then g.tgtCount b else 0 := rfl
  have hcum : l.targets.countsCumul b =
      rankOf p (g.tgtStart b + g.tgtCumul b) - rankOf p (g.tgtStart b) := by
    rw [hp, ← scan_spec _ _ _ _ _ (show g.tgtStart b ≤ g.ntargets by omega),
      ← scan_spec _ _ _ _ _ hwb]
    rfl
  have hmask : ∀ {x}, listMask boxes x = true ↔ x ∈ boxes := by
    intro x; simp [listMask]
  -- the part of the cumulative range after the box's own particles
  have hsplit : l.targets.countsNonchild b < l.targets.countsCumul b ↔
      rankOf p (g.tgtStart b + g.tgtCount b) < rankOf p (g.tgtStart b + g.tgtCumul b) := by
    have hmono := rankOf_le_of_le p (show g.tgtStart b ≤ g.tgtStart b + g.tgtCumul b by omega)
    rw [hcum, hcount]
    by_cases hm : listMask boxes b = true
    · have := rankOf_add_of_all (p := p) (g.tgtStart b) (g.tgtCount b) fun i h1 h2 =>
        (maskedAt_iff (by omega)).2 ⟨b, hb, hm, h1, h2⟩
      rw [if_pos hm, this]
      omega
    · rw [if_neg hm]
      have : rankOf p (g.tgtStart b + g.tgtCount b) = rankOf p (g.tgtStart b) := by
        apply rankOf_add_of_none
        intro i h1 h2
        rw [← Bool.not_eq_true]
        intro hc
        obtain ⟨b', hb', hm', hin⟩ := (maskedAt_iff (by omega)).1 hc
        exact hm (hr.disjoint b hb b' hb' i ⟨h1, h2⟩ hin ▸ hm')
      omega
  rw [hsplit]
  constructor
  · intro hlt
    obtain ⟨i, h1, h2, h3⟩ := exists_of_rankOf_lt hlt
    obtain ⟨d', hd', hm', hin'⟩ := (maskedAt_iff (by omega)).1 h3
    obtain ⟨d, hd, hanc, hin⟩ := hr.owner hw t.nlevels b (by omega) hb i ⟨by omega, h2⟩
    have e := hr.disjoint d hd d' hd' i hin hin'
    subst e
    refine ⟨d, hd, ⟨?_, hanc.2⟩, hmask.1 hm', ?_⟩
    · rcases Nat.lt_or_ge (t.level b) (t.level d) with h | h
      · exact h
      · have hdb : d = b := by rw [← hanc.2, BoxTree.ancAt_ge t h]
        subst hdb
        unfold InRange at hin
        omega
    · unfold InRange at hin; omega
  · rintro ⟨d, hd, ⟨hl, ha⟩, hdb, hc⟩
    obtain ⟨⟨h1, h2⟩, h3⟩ := hr.below hw (t.level d - t.level b) b d (by omega) hd ha
    have h3 := h3 (by omega)
    have h4 := hr.count_le d hd
    have hi : p (g.tgtStart d) = true :=
      (maskedAt_iff (by omega)).2 ⟨d, hd, hmask.2 hdb, le_rfl, by omega⟩
    have h5 := rankOf_lt_of_lt hi (show g.tgtStart d < g.tgtStart b + g.tgtCumul b by omega)
    exact (rankOf_le_of_le p h3).trans_lt h5

end flags

/-! ### users of multipole expansions -/

/-- **C39** (users): row `b` of the list broadcast to all ranks holds, in increasing order, the
ranks that use the multipole expansion of box `b`. -/
theorem C39_users (size nboxes : Nat) (multipoleSrc : Nat → Nat → Bool) (b : Nat)
    (hb : b < nboxes) :
    ((boxToUserRank size nboxes multipoleSrc).row b).Pairwise (· < ·) ∧
    ∀ r, r ∈ (boxToUserRank size nboxes multipoleSrc).row b ↔
      r < size ∧ multipoleSrc r b = true := by
  obtain ⟨bl, h1, -, -, -, h2⟩ := C46_mask_matrix
    (fun k => multipoleSrc (k / (nboxes : Int)).toNat (k % (nboxes : Int)).toNat) nboxes size 1 nboxes
  have e : bl = boxToUserRank size nboxes multipoleSrc := by
    unfold boxToUserRank
    simp only [Tools.maskCompress] at h1
    injection h1 with h1
    injection h1 with h1
    exact h1.symm
  rw [e] at h2
  obtain ⟨-, h3, -, h4⟩ := h2 b hb
  refine ⟨h3, fun r => ?_⟩
  rw [h4 r]
  have hpos : (0 : Int) < nboxes := by omega
  have e1 : (1 * (b : Int) + nboxes * r) / nboxes = r := by
    rw [Int.one_mul, Int.add_mul_ediv_left _ _ (by omega), Int.ediv_eq_zero_of_lt (by omega) (by omega),
      Int.zero_add]
  have e2 : (1 * (b : Int) + nboxes * r) % nboxes = b := by
    rw [Int.one_mul, Int.add_mul_emod_self_left, Int.emod_eq_of_lt (by omega) (by omega)]
  rw [e1, e2]
  simp

/-- Seven particles in three boxes (2, 3 and 2 of them), boxes 0 and 2 in the mask. -/
example :
    let l := constructLocal 0 7 3 (fun b => b != 1) (fun p => 10 * p) (fun b => [0, 2, 5].getD b 0)
      (fun b => [2, 3, 2].getD b 0) (fun b => [7, 3, 2].getD b 0)
    l.particleIdx = [0, 1, 5, 6] ∧ l.particles = [0, 10, 50, 60] ∧
    (List.range 3).map l.starts = [0, 2, 2] ∧ (List.range 3).map l.countsNonchild = [2, 0, 2] ∧
    (List.range 3).map l.countsCumul = [4, 0, 2] := by
  decide

example : ((boxToUserRank 3 2 fun r b => r != 1 || b == 1).row 0,
    (boxToUserRank 3 2 fun r b => r != 1 || b == 1).row 1) = ([0, 2], [0, 1, 2]) := by
  decide

end Boxtree
