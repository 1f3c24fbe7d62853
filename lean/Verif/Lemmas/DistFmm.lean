import Verif.Spec.DistFmm
import Verif.Props.LocalTree
import Verif.Props.BoxMasks
import Verif.Props.Communicate

/-!
# Lemmas about the distributed FMM
-/

namespace Boxtree
open Dist BoxTree

namespace Dist.World
variable {W : World}

theorem isTarget_local (r b : Nat) :
    (W.localTree r).tree.isTarget b = true ↔ b ∈ W.boxes r ∧ W.g.tgtCount b ≠ 0 :=
  (local_flags_own W.g W.trav W.inp.targetsHaveExtent (W.boxes r) b).1

theorem isSource_local (r b : Nat) : (W.localTree r).tree.isSource b = W.inp.tree.isSource b :=
  (local_flags_own W.g W.trav W.inp.targetsHaveExtent (W.boxes r) b).2.1

theorem hasSourceChild_local (r b : Nat) :
    (W.localTree r).tree.hasSourceChild b = W.inp.tree.hasSourceChild b :=
  (local_flags_own W.g W.trav W.inp.targetsHaveExtent (W.boxes r) b).2.2

theorem hasTargetChild_local (hW : W.OK) (r b : Nat) (hb : b < W.inp.tree.nboxes) :
    (W.localTree r).tree.hasTargetChild b = true ↔
      ∃ d, d < W.inp.tree.nboxes ∧ W.inp.tree.IsProperAnc b d ∧ d ∈ W.boxes r ∧
        W.g.tgtCount d ≠ 0 :=
  (C39_flags W.g W.trav W.inp.targetsHaveExtent (W.boxes r) hW.ok.wf hW.tgt_ranges b hb).2.1

theorem responsible_iff (r b : Nat) :
    (W.localTree r).masks.responsible b = true ↔ b ∈ W.boxes r := by
  change listMask (W.boxes r) b = true ↔ _
  simp [listMask]

theorem localInput_ok (hW : W.OK) (r : Nat) : (W.localInput r).OK where
  wf := ⟨hW.ok.wf.1, hW.ok.wf.2, hW.ok.wf.3, hW.ok.wf.4, hW.ok.wf.5, hW.ok.wf.6, hW.ok.wf.7,
    hW.ok.wf.8, hW.ok.wf.9, hW.ok.wf.10, hW.ok.wf.11, hW.ok.wf.12⟩
  flags := by
    constructor
    · intro b hb h0 h
      change (W.localTree r).tree.isSource b = true ∨
        (W.localTree r).tree.hasSourceChild b = true at h
      change (W.localTree r).tree.hasSourceChild (W.inp.tree.parent b) = true
      rw [isSource_local, hasSourceChild_local] at h
      rw [hasSourceChild_local]
      exact hW.ok.flags.src b hb h0 h
    · intro b hb h0 h
      have hb' : b < W.inp.tree.nboxes := hb
      change (W.localTree r).tree.isTarget b = true ∨
        (W.localTree r).tree.hasTargetChild b = true at h
      change (W.localTree r).tree.hasTargetChild (W.inp.tree.parent b) = true
      rw [hasTargetChild_local hW r _ (hW.ok.wf.parent_lt b hb')]
      rw [isTarget_local, hasTargetChild_local hW r b hb'] at h
      rcases h with ⟨h1, h2⟩ | ⟨d, hd, h1, h2, h3⟩
      · exact ⟨b, hb', properAnc_parent hW.ok.wf hb' hb' h0 (Or.inl rfl), h1, h2⟩
      · exact ⟨d, hd, properAnc_parent hW.ok.wf hd hb' h0 (Or.inr h1), h2, h3⟩
  nAway_pos := hW.ok.nAway_pos
  stickOut_nonneg := hW.ok.stickOut_nonneg
  eps_small := hW.ok.eps_small
  srcTgt := by
    intro hs b hb hm
    change (W.localTree r).masks.responsible b = true at hm
    rw [responsible_iff] at hm
    change (W.localTree r).tree.isSource b = (W.localTree r).tree.isTarget b
    rw [isSource_local, hW.ok.srcTgt hs b hb (by rw [hW.noMask]; rfl), Bool.eq_iff_iff,
      isTarget_local, hW.tgt_flag b hb]
    simp [hm]
  srcTgtChild := fun _ h => by cases h
  tests := hW.ok.tests

theorem localInput_check (hW : W.OK) (r : Nat) :
    ∃ trav, buildTraversal (W.localInput r) = .ok trav := by
  have h := hW.built
  unfold buildTraversal at h ⊢
  have e : (W.localInput r).check = W.inp.check := rfl
  rw [e]
  cases hc : W.inp.check with
  | error e => rw [hc] at h; cases h
  | ok u => exact ⟨_, rfl⟩

theorem levels_local (hW : W.OK) (r : Nat) : (W.localInput r).tree.LevelsOK :=
  ⟨hW.levels.1, hW.levels.2⟩

theorem mem_targetBoxes_local (hW : W.OK) {r : Nat} {trav : Traversal}
    (h : buildTraversal (W.localInput r) = .ok trav) (b : Nat) :
    b ∈ trav.targetBoxes ↔ b < W.inp.tree.nboxes ∧ b ∈ W.boxes r ∧ W.g.tgtCount b ≠ 0 := by
  rw [(travFields h).targetBoxes]
  split
  · rename_i hs
    rw [mem_selSource]
    change b < W.inp.tree.nboxes ∧ (W.localTree r).tree.isSource b = true ∧
      (W.localTree r).masks.responsible b = true ↔ _
    rw [isSource_local, responsible_iff]
    constructor
    · rintro ⟨h1, h2, h3⟩
      rw [hW.ok.srcTgt hs b h1 (by rw [hW.noMask]; rfl), hW.tgt_flag b h1] at h2
      exact ⟨h1, h3, h2⟩
    · rintro ⟨h1, h2, h3⟩
      refine ⟨h1, ?_, h2⟩
      rw [hW.ok.srcTgt hs b h1 (by rw [hW.noMask]; rfl), hW.tgt_flag b h1]
      exact h3
  · rw [mem_selTarget]
    change b < W.inp.tree.nboxes ∧ (W.localTree r).tree.isTarget b = true ↔ _
    rw [isTarget_local]

theorem mem_targetBoxes_global (hW : W.OK) (b : Nat) :
    b ∈ W.trav.targetBoxes ↔ b < W.inp.tree.nboxes ∧ W.g.tgtCount b ≠ 0 := by
  rw [mem_targetBoxes_iff W.inp W.trav hW.ok hW.built hW.noMask]
  constructor
  · rintro ⟨h1, h2⟩; exact ⟨h1, (hW.tgt_flag b h1).1 h2⟩
  · rintro ⟨h1, h2⟩; exact ⟨h1, (hW.tgt_flag b h1).2 h2⟩

theorem sepSmaller_local (hW : W.OK) (r b s : Nat) :
    SepSmaller (W.localInput r) b s ↔ SepSmaller W.inp b s := by
  unfold SepSmaller
  refine forall_congr' fun he => ?_
  have h0 : W.inp.minNsources.getD 0 = 0 := hW.min_sources he
  have h1 : (W.localInput r).minNsources.getD 0 = 0 := h0
  rw [h0, h1]
  simp only [Nat.zero_le, and_true]
  exact Iff.rfl

/-- A source box whose particles a local traversal uses directly is one whose particles the global
traversal uses directly. -/
theorem usesSources_global (hW : W.OK) {r : Nat} {trav : Traversal}
    (h : buildTraversal (W.localInput r) = .ok trav) {tgt s : Nat}
    (htgt : tgt ∈ trav.targetBoxes) (hu : UsesSources trav (W.localInput r).tree tgt s) :
    UsesSources W.trav W.inp.tree tgt s := by
  have okl := localInput_ok hW r
  have F := travFields hW.built
  have Fl := travFields h
  obtain ⟨t1, t2, t3⟩ := (mem_targetBoxes_local hW h tgt).1 htgt
  have hg := (mem_targetBoxes_global hW tgt).2 ⟨t1, t3⟩
  rcases hu with hu | ⟨bl, hbl, hu⟩ | ⟨bl, hbl, hu⟩ | ⟨a, ha, hu⟩
  · left
    have := ((C03_list1_exact _ _ okl h tgt htgt).2 s).1 hu
    rw [(C03_list1_exact _ _ hW.ok hW.built tgt hg).2 s]
    exact ⟨this.1, (isSource_local r s).symm.trans this.2.1, this.2.2⟩
  · right; left
    have he : W.inp.targetsHaveExtent = true := by
      by_contra hc
      have hc' : ¬ (W.localInput r).targetsHaveExtent = true := hc
      rw [Fl.list3Close, if_neg hc'] at hbl
      cases hbl
    obtain ⟨bl', hbl', hx'⟩ := C06_list3_close_exact _ _ hW.ok hW.built he
    obtain ⟨bl2, hbl2, hx⟩ := C06_list3_close_exact _ _ okl h he
    rw [hbl2] at hbl; cases hbl
    obtain ⟨h1, h2, h3, h4, h5, h6, h7, h8⟩ := ((hx tgt htgt).2 s).1 hu
    refine ⟨bl', hbl', ((hx' tgt hg).2 s).2 ⟨h1, h2, (isSource_local r s).symm.trans h3, h4, h5, h6,
      fun hc => h7 ((sepSmaller_local hW r _ _).2 hc), fun l l1 l2 => ?_⟩⟩
    rcases h8 l l1 l2 with h9 | h9
    · exact Or.inl h9
    · exact Or.inr fun hc => h9 ((sepSmaller_local hW r _ _).2 hc)
  · right; right; left
    have he : W.inp.targetsHaveExtent = true := by
      by_contra hc
      have hc' : ¬ (W.localInput r).targetsHaveExtent = true := hc
      rw [Fl.list4Close, if_neg hc'] at hbl
      cases hbl
    obtain ⟨bl', hbl', hx'⟩ := C07_list4_close_exact _ _ hW.ok hW.built he
    obtain ⟨bl2, hbl2, hx⟩ := C07_list4_close_exact _ _ okl h he
    rw [hbl2] at hbl; cases hbl
    obtain ⟨h1, h2, h3⟩ := ((hx tgt htgt).2 s).1 hu
    exact ⟨bl', hbl', ((hx' tgt hg).2 s).2 ⟨h1, (isSource_local r s).symm.trans h2, h3⟩⟩
  · right; right; right
    obtain ⟨l, hl, rfl⟩ := List.mem_map.1 ha
    have hl' : l ≤ W.inp.tree.level tgt := by have := List.mem_range.1 hl; exact Nat.lt_succ_iff.1 this
    have a1 := F.anc_ttp hW.ok (F.target_sub hW.ok hg) hl'
    have a2 := Fl.anc_ttp okl (Fl.target_sub okl htgt) hl'
    obtain ⟨h1, h2, h3⟩ := ((C07_list4_exact _ _ okl h _ a2).2 s).1 hu
    exact ⟨_, List.mem_map.2 ⟨l, hl, rfl⟩, ((C07_list4_exact _ _ hW.ok hW.built _ a1).2 s).2
      ⟨h1, (isSource_local r s).symm.trans h2, h3⟩⟩

/-- The same for multipole expansions. -/
theorem usesMultipole_global (hW : W.OK) {r : Nat} {trav : Traversal}
    (h : buildTraversal (W.localInput r) = .ok trav) {tgt s : Nat}
    (htgt : tgt ∈ trav.targetBoxes) (hu : UsesMultipole trav (W.localInput r).tree tgt s) :
    UsesMultipole W.trav W.inp.tree tgt s := by
  have okl := localInput_ok hW r
  have F := travFields hW.built
  have Fl := travFields h
  obtain ⟨t1, t2, t3⟩ := (mem_targetBoxes_local hW h tgt).1 htgt
  have hg := (mem_targetBoxes_global hW tgt).2 ⟨t1, t3⟩
  rcases hu with ⟨a, ha, hu⟩ | ⟨l, hl, hu⟩
  · left
    obtain ⟨l, hl, rfl⟩ := List.mem_map.1 ha
    have hl' : l ≤ W.inp.tree.level tgt := by have := List.mem_range.1 hl; exact Nat.lt_succ_iff.1 this
    have a1 := F.anc_ttp hW.ok (F.target_sub hW.ok hg) hl'
    have a2 := Fl.anc_ttp okl (Fl.target_sub okl htgt) hl'
    have := ((C05_list2_exact _ _ okl h _ a2).2 s).1 hu
    exact ⟨_, List.mem_map.2 ⟨l, hl, rfl⟩, ((C05_list2_exact _ _ hW.ok hW.built _ a1).2 s).2 this⟩
  · right
    have e1 : trav.list3.length = W.inp.tree.nlevels := by rw [Fl.list3]; simp; rfl
    have e2 : W.trav.list3.length = W.inp.tree.nlevels := by rw [F.list3]; simp
    rw [e1] at hl
    obtain ⟨h1, h2, h3, h4, h5, h6, h7, h8, h9⟩ :=
      ((C06_list3_exact _ _ okl h tgt l htgt hl).2 s).1 hu
    refine ⟨l, by omega, ((C06_list3_exact _ _ hW.ok hW.built tgt l hg hl).2 s).2
      ⟨h1, h2, h3, ?_, h5, h6, h7, (sepSmaller_local hW r _ _).1 h8, fun k k1 k2 => ?_⟩⟩
    · rcases h4 with h4 | h4
      · exact Or.inl ((isSource_local r s).symm.trans h4)
      · exact Or.inr ((hasSourceChild_local r s).symm.trans h4)
    · rcases h9 k k1 k2 with h9 | h9
      · exact Or.inl h9
      · exact Or.inr fun hc => h9 ((sepSmaller_local hW r _ _).2 hc)

/-! ### weights and multipoles -/

section
variable {M : Type} [AddCommMonoid M]

/-- Weights in tree order. -/
def treeWeights (W : World) (weights : Nat → M) : Nat → M := fun i => weights (W.g.userSourceIds i)

theorem boxWeight_local (hW : W.OK) (weights : Nat → M) (r b : Nat) (hb : b < W.inp.tree.nboxes)
    (hm : (W.localTree r).masks.pointSrc b = true) :
    Fmm.boxWeight (W.localParticles r) (W.localWeights weights r) b =
      Fmm.boxWeight W.g.toParticles (W.treeWeights weights) b := by
  have hle : W.g.srcStart b + W.g.srcCount b ≤ W.g.nsources := by
    have h1 := hW.src_ranges.within b hb
    have h2 := hW.src_ranges.count_le b hb
    omega
  have key := (C39_masked_box () W.g.nsources W.inp.tree.nboxes (W.localTree r).masks.pointSrc
    (fun _ => ()) W.g.srcStart W.g.srcCount W.g.srcCumul b hb hm hle).1
  change ((W.localTree r).sources.particleIdx.drop ((W.localTree r).sources.starts b)).take
    ((W.localTree r).sources.countsNonchild b) = _ at key
  have hc : (W.localTree r).sources.countsNonchild b = W.g.srcCount b := if_pos hm
  unfold Fmm.boxWeight
  change (List.map _ (List.range ((W.localTree r).sources.countsNonchild b))).sum = _
  rw [hc]
  congr 1
  apply List.map_congr_left
  intro j hj
  have hj := List.mem_range.1 hj
  change W.treeWeights weights _ = W.treeWeights weights _
  congr 1
  rw [hc] at key
  have h2 := congrArg (fun l : List Nat => l[j]?) key
  simp only [List.getElem?_take, if_pos hj, List.getElem?_drop, List.getElem?_range' hj,
    Nat.one_mul] at h2
  change (W.localTree r).sources.particleIdx.getD _ 0 = _
  rw [List.getD_eq_getElem?_getD]
  change ((W.localTree r).sources.particleIdx[(W.localTree r).sources.starts b + j]?).getD 0 = _
  rw [h2]
  rfl

theorem subtreeSum_local (r : Nat) (V : Nat → M) (b : Nat) :
    subtreeSum (W.localTree r).tree V b = subtreeSum W.inp.tree V b := by
  classical
  unfold subtreeSum
  refine Finset.sum_congr rfl fun s _ => ?_
  rw [isSource_local]
  rfl

/-- The weights of the boxes of rank `r`. -/
def rankWeight (W : World) (weights : Nat → M) (r x : Nat) : M :=
  if x ∈ W.boxes r then Fmm.boxWeight W.g.toParticles (W.treeWeights weights) x else 0

theorem ancestor_local (hW : W.OK) (r b : Nat) (hb : b < W.inp.tree.nboxes) :
    (W.localTree r).masks.ancestor b = true ↔
      ∃ d, d < W.inp.tree.nboxes ∧ d ∈ W.boxes r ∧ W.inp.tree.IsProperAnc b d := by
  rw [show (W.localTree r).masks.ancestor = ancestorMask W.inp.tree (listMask (W.boxes r)) from rfl,
    (C38_ancestor_mask W.inp.tree hW.ok.wf _).2 b hb]
  constructor
  · rintro ⟨d, h1, h2, h3⟩; exact ⟨d, h1, by simpa [listMask] using h2, h3⟩
  · rintro ⟨d, h1, h2, h3⟩; exact ⟨d, h1, by simpa [listMask] using h2, h3⟩

theorem subtreeSum_self {t : BoxTree} (V : Nat → M) {b : Nat} (hb : b < t.nboxes)
    (h : ∀ s, s < t.nboxes → t.IsAncOrSelf b s → s ≠ b → V s = 0) :
    subtreeSum t V b = if t.isSource b = true then V b else 0 := by
  classical
  unfold subtreeSum
  rw [Finset.sum_eq_single b]
  · have : t.IsAncOrSelf b b := ⟨le_rfl, ancAt_self t b⟩
    simp [this]
  · intro s hs hne
    split
    · rename_i hc
      exact h s (Finset.mem_range.1 hs) hc.2 hne
    · rfl
  · intro hc
    exact absurd (Finset.mem_range.2 hb) hc

theorem not_mem_of_no_ancestor (hW : W.OK) {r b s : Nat} (hb : b < W.inp.tree.nboxes)
    (hs : s < W.inp.tree.nboxes) (ha : (W.localTree r).masks.ancestor b = false)
    (hanc : W.inp.tree.IsAncOrSelf b s) (hne : s ≠ b) : s ∉ W.boxes r := by
  intro hm
  have : (W.localTree r).masks.ancestor b = true := by
    rw [ancestor_local hW r b hb]
    refine ⟨s, hs, hm, ?_, hanc.2⟩
    rcases Nat.lt_or_ge (W.inp.tree.level b) (W.inp.tree.level s) with h | h
    · exact h
    · exact absurd (hanc.2 ▸ (ancAt_ge W.inp.tree h).symm) hne
  rw [ha] at this
  cases this

/-- The multipoles of rank `r` before the reduction: on levels from 2 on, the weights of the
responsible boxes below. -/
theorem localMpoles_eq (hW : W.OK) (weights : Nat → M) (travs : Nat → Traversal) (r : Nat)
    (h : buildTraversal (W.localInput r) = .ok (travs r)) (b : Nat)
    (hb : b < W.inp.tree.nboxes) (i : Nat) :
    W.localMpoles travs weights r b i =
      if 2 ≤ W.inp.tree.level b then subtreeSum W.inp.tree (W.rankWeight weights r) b
      else if W.inp.tree.isSource b = true then W.rankWeight weights r b else 0 := by
  have okl := localInput_ok hW r
  have F := travFields h
  have hw := okl.wf
  unfold localMpoles Fmm.upward
  have hpar : ∀ b, b ∈ (travs r).sourceParentBoxes ↔
      b < W.inp.tree.nboxes ∧ W.inp.tree.hasSourceChild b = true ∧
        (W.localTree r).masks.ancestor b = true := by
    intro b
    rw [F.sourceParentBoxes, mem_selSourceParent]
    change b < W.inp.tree.nboxes ∧ (W.localTree r).tree.hasSourceChild b = true ∧
      (W.localTree r).masks.ancestor b = true ↔ _
    rw [hasSourceChild_local]
  have hsrc : ∀ b, b < W.inp.tree.nboxes →
      Fmm.formMultipoles (W.localParticles r) (travs r).sourceBoxes (W.localWeights weights r) b =
        if W.inp.tree.isSource b = true then W.rankWeight weights r b else 0 := by
    intro b hb
    rw [formMultipoles_at _ _ (by rw [F.sourceBoxes]; exact nodup_selSource _ _)]
    have : b ∈ (travs r).sourceBoxes ↔ W.inp.tree.isSource b = true ∧ b ∈ W.boxes r := by
      rw [F.sourceBoxes, mem_selSource]
      change b < W.inp.tree.nboxes ∧ (W.localTree r).tree.isSource b = true ∧
        (W.localTree r).masks.responsible b = true ↔ _
      rw [isSource_local, responsible_iff]
      simp [hb]
    by_cases hs : W.inp.tree.isSource b = true
    · by_cases hm : b ∈ W.boxes r
      · rw [if_pos (this.2 ⟨hs, hm⟩), if_pos hs, rankWeight, if_pos hm]
        apply boxWeight_local hW weights r b hb
        apply (C38_point_sources_exact W.inp W.trav hW.built (W.boxes r) b).2
        exact Or.inl hm
      · rw [if_neg fun hc => hm (this.1 hc).2, if_pos hs, rankWeight, if_neg hm]
    · rw [if_neg fun hc => hs (this.1 hc).1, if_neg hs]
  have key := coarsen_spec (M := M) hw (levels_local hW r) (par := (travs r).sourceParentBoxes)
    (by
      rw [F.sourceParentBoxes]
      exact ⟨List.pairwise_lt_range.filter _,
        fun _ hb => List.mem_range.1 (List.mem_filter.1 hb).1⟩)
    (Fmm.formMultipoles (W.localParticles r) (travs r).sourceBoxes (W.localWeights weights r))
    (subtreeSum W.inp.tree (W.rankWeight weights r)) (by
      intro x hx
      have hxlt := ((hpar x).1 hx).1
      rw [hsrc x hxlt, subtreeSum_rec hW.ok.wf _ hxlt]
      rfl) (by
      intro x hx hnx
      have hx : x < W.inp.tree.nboxes := hx
      rw [hsrc x hx]
      by_cases hc : W.inp.tree.hasSourceChild x = true
      · apply subtreeSum_self _ hx
        intro s hs hanc hne
        rw [rankWeight, if_neg]
        refine not_mem_of_no_ancestor hW hx hs ?_ hanc hne
        rw [← Bool.not_eq_true]
        exact fun ha => hnx ((hpar x).2 ⟨hx, hc, ha⟩)
      · exact subtreeSum_leaf hW.ok.wf hW.ok.flags _ hx (by simpa using hc)) b hb
  rw [F.lsSourceParent]
  refine key.trans ?_
  rw [hsrc b hb]
  rfl

/-- A rank starts the reduction with zeros except in its boxes and their ancestors. -/
theorem localMpoles_zero (hW : W.OK) (weights : Nat → M) (travs : Nat → Traversal) (r : Nat)
    (h : buildTraversal (W.localInput r) = .ok (travs r)) (b : Nat)
    (hb : b < W.inp.tree.nboxes) (ha : (W.localTree r).masks.ancestor b = false)
    (hm : b ∉ W.boxes r) (i : Nat) : W.localMpoles travs weights r b i = 0 := by
  have hz : W.rankWeight weights r b = 0 := by rw [rankWeight, if_neg hm]
  rw [localMpoles_eq hW weights travs r h b hb i, subtreeSum_self _ hb, hz]
  · simp
  · intro s hs hanc hne
    rw [rankWeight, if_neg (not_mem_of_no_ancestor hW hb hs ha hanc hne)]

/-- The rank sums add up to the multipole of the shared-memory FMM. -/
theorem sum_rankWeight (hW : W.OK) (weights : Nat → M) (b : Nat) :
    ∑ r ∈ Finset.range W.size, subtreeSum W.inp.tree (W.rankWeight weights r) b =
      subtreeSum W.inp.tree (Fmm.boxWeight W.g.toParticles (W.treeWeights weights)) b := by
  classical
  unfold subtreeSum
  rw [Finset.sum_comm]
  refine Finset.sum_congr rfl fun s hs => ?_
  have hs := Finset.mem_range.1 hs
  by_cases hc : W.inp.tree.isSource s = true ∧ W.inp.tree.IsAncOrSelf b s
  · simp only [if_pos hc]
    obtain ⟨r, hr, hm⟩ := hW.owned s hs
    rw [Finset.sum_eq_single r]
    · rw [rankWeight, if_pos hm]
    · intro r' hr' hne
      rw [rankWeight, if_neg]
      exact fun hm' => hne (hW.owner_unique s r' r (Finset.mem_range.1 hr') hr hm' hm)
    · intro hc'
      exact absurd (Finset.mem_range.2 hr) hc'
  · simp [if_neg hc]

/-! ### targets -/

omit [AddCommMonoid M] in
theorem foldl_assignAt (idx : Nat → List Nat) (vals : Nat → Nat → M) (p r : Nat)
    (hp : p ∈ idx r) (hun : ∀ r', p ∈ idx r' → r' = r) (n : Nat) (hr : r < n) (junk : Nat → M) :
    (List.range n).foldl (fun out r => assignAt out (idx r) (vals r)) junk p =
      vals r ((idx r).idxOf p) := by
  induction n with
  | zero => omega
  | succ n ih =>
    rw [List.range_succ, List.foldl_append, List.foldl_cons, List.foldl_nil]
    by_cases h : p ∈ idx n
    · have := hun n h
      subst this
      unfold assignAt
      rw [if_pos h]
    · have : r < n := by
        rcases Nat.lt_or_ge r n with h' | h'
        · exact h'
        · have : r = n := by omega
          exact absurd (this ▸ hp) h
      rw [← ih this]
      conv_lhs => rw [assignAt]
      rw [if_neg h]

end

end Dist.World
end Boxtree
