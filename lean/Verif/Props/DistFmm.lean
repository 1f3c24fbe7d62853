import Verif.Lemmas.DistFmm
import Verif.Props.Fmm

/-!
# C40: the distributed FMM computes what the shared-memory FMM computes
-/

namespace Boxtree
open Dist BoxTree World

variable {M : Type} [AddCommMonoid M]

/-- Which rank computes the potential of target `i`, and where: `tgt` is the box of the target, `r`
the rank responsible for it, `k` the number of the target on that rank. -/
theorem World.gather_spec {W : World} (hW : W.OK) (travs : Nat → Traversal)
    (ht : ∀ r, r < W.size → buildTraversal (W.localInput r) = .ok (travs r))
    (i : Nat) (hi : i < W.g.ntargets) :
    ∃ tgt r k, r < W.size ∧ tgt < W.inp.tree.nboxes ∧ tgt ∈ W.boxes r ∧
      InRange W.g.tgtStart W.g.tgtCount tgt (W.g.sortedTargetIds i) ∧
      tgt ∈ (travs r).targetBoxes ∧
      (∀ b ∈ (travs r).targetBoxes, InTgt (W.localParticles r) b k ↔ b = tgt) ∧
      (W.localTree r).targets.particleIdx[k]? = some (W.g.sortedTargetIds i) ∧
      ∀ {P : Type} (vals : Nat → Nat → P) (junk : Nat → P),
        (List.range W.size).foldl (fun out r =>
          assignAt out (W.localTree r).targets.particleIdx (vals r)) junk
          (W.g.sortedTargetIds i) = vals r k := by
  set p := W.g.sortedTargetIds i with hpdef
  have hp : p < W.g.ntargets := hW.particles.sorted_lt i hi
  obtain ⟨tgt, h1, h2, h3, h4⟩ := hW.particles.tgt_cover p hp
  obtain ⟨r, hr, hm⟩ := hW.owned tgt h1
  have hcnt : W.g.tgtCount tgt ≠ 0 := (hW.tgt_flag tgt h1).1 h2
  have hin : InRange W.g.tgtStart W.g.tgtCount tgt p := ⟨h3, h4⟩
  have hkept := fun r => (C39_particles_kept () W.g.ntargets W.inp.tree.nboxes
    (W.localTree r).masks.responsible (fun _ => ()) W.g.tgtStart W.g.tgtCount W.g.tgtCumul).2.1 p
  have hmem : p ∈ (W.localTree r).targets.particleIdx :=
    (hkept r).2 ⟨hp, tgt, h1, (responsible_iff r tgt).2 hm, hin⟩
  -- position of `p` among the local targets
  set mask := maskedAt W.g.ntargets W.inp.tree.nboxes (W.localTree r).masks.responsible
    W.g.tgtStart W.g.tgtCount with hmask
  have hpm : mask p = true :=
    (maskedAt_iff hp).2 ⟨tgt, h1, (responsible_iff r tgt).2 hm, h3, h4⟩
  have hget0 : (W.localTree r).targets.particleIdx[rankOf mask p]? = some p :=
    filter_getElem? hpm hp
  have hidx : (W.localTree r).targets.particleIdx.idxOf p = rankOf mask p := by
    have hnd : (W.localTree r).targets.particleIdx.Nodup :=
      (List.nodup_range).filter _
    obtain ⟨hlt, hget⟩ := List.getElem?_eq_some_iff.1 hget0
    rw [← hnd.idxOf_getElem (rankOf mask p) hlt, hget]
  refine ⟨tgt, r, rankOf mask p, hr, h1, hm, hin,
    (mem_targetBoxes_local hW (ht r hr) tgt).2 ⟨h1, hm, hcnt⟩, ?_, hget0, ?_⟩
  · intro b hb
    obtain ⟨b1, b2, b3⟩ := (mem_targetBoxes_local hW (ht r hr) b).1 hb
    have hbm := (responsible_iff r b).2 b2
    have hw1 := hW.tgt_ranges.within b b1
    have hw2 := hW.tgt_ranges.count_le b b1
    have e1 : (W.localParticles r).tgtStart b = rankOf mask (W.g.tgtStart b) :=
      scan_spec _ _ _ _ _ (by omega)
    have e2 : (W.localParticles r).tgtCount b = W.g.tgtCount b := if_pos hbm
    have e3 : rankOf mask (W.g.tgtStart b + W.g.tgtCount b) =
        rankOf mask (W.g.tgtStart b) + W.g.tgtCount b :=
      rankOf_add_of_all _ _ fun j j1 j2 => (maskedAt_iff (by omega)).2 ⟨b, b1, hbm, j1, j2⟩
    unfold InTgt
    rw [e1, e2, ← e3]
    constructor
    · rintro ⟨c1, c2⟩
      rw [rankOf_lt_iff hpm] at c2
      have c3 : W.g.tgtStart b ≤ p := by
        by_contra hc
        exact absurd (rankOf_lt_of_lt hpm (Nat.lt_of_not_le hc)) (Nat.not_lt.2 c1)
      exact hW.tgt_ranges.disjoint b b1 tgt h1 p ⟨c3, c2⟩ hin
    · rintro rfl
      exact ⟨rankOf_le_of_le mask h3, rankOf_lt_of_lt hpm h4⟩
  · -- the last assignment to `p` is the one of rank `r`
    intro P vals junk
    rw [← hidx]
    have := foldl_assignAt (M := P)
      (fun r' => if r' < W.size then (W.localTree r').targets.particleIdx else [])
      vals p r (by simp only [if_pos hr]; exact hmem) (by
        intro r' hr'
        by_cases hlt : r' < W.size
        · rw [if_pos hlt] at hr'
          obtain ⟨-, b, hb, hmb, hbin⟩ := (hkept r').1 hr'
          have := hW.tgt_ranges.disjoint b hb tgt h1 p hbin hin
          subst this
          exact hW.owner_unique b r' r hlt hr ((responsible_iff r' b).1 hmb) hm
        · rw [if_neg hlt] at hr'
          cases hr') W.size hr junk
    rw [if_pos hr] at this
    rw [← this]
    have hcongr : ∀ (l : List Nat) (o : Nat → P), (∀ x ∈ l, x < W.size) →
        l.foldl (fun out r => assignAt out (W.localTree r).targets.particleIdx (vals r)) o =
        l.foldl (fun out r => assignAt out
          (if r < W.size then (W.localTree r).targets.particleIdx else []) (vals r)) o := by
      intro l
      induction l with
      | nil => intros; rfl
      | cons a l ih =>
        intro o hl
        rw [List.foldl_cons, List.foldl_cons, if_pos (hl a (by simp)),
          ih _ fun x hx => hl x (by simp [hx])]
    rw [hcongr _ _ fun x hx => List.mem_range.1 hx]

/-- The potential of each target, if the multipole array of each rank holds, for the boxes whose
multipole the rank uses, the sum over all ranks. -/
theorem World.result_eq {W : World} (hW : W.OK) (travs : Nat → Traversal)
    (ht : ∀ r, r < W.size → buildTraversal (W.localInput r) = .ok (travs r)) (weights : Nat → M)
    (mp : Nat → Nat → Nat → M)
    (hmp : ∀ r, r < W.size → ∀ b, b < W.inp.tree.nboxes →
      (W.localTree r).masks.multipoleSrc b = true →
      mp r b 0 = ∑ s ∈ Finset.range W.size, W.localMpoles travs weights s b 0)
    (junk : Nat → M) (i : Nat) (hi : i < W.g.ntargets) :
    W.result travs weights mp junk i =
      Fmm.driveFmm W.inp.tree W.g.toParticles W.trav weights i := by
  rw [C02_drive_fmm_total W.inp W.trav hW.ok hW.levels hW.built hW.noMask hW.noParentMask
    W.g.toParticles hW.particles weights i hi]
  obtain ⟨tgt, r, k, hr, h1, hm, -, htgt, hk, -, hfold⟩ := World.gather_spec hW travs ht i hi
  unfold World.result
  refine (hfold (W.localPotentials travs weights mp) junk).trans ?_
  unfold World.localPotentials
  have okl := localInput_ok hW r
  have key := evaluate_total okl (levels_local hW r) (ht r hr) (W.localParticles r)
    (W.localWeights weights r) (fun b => mp r b 0)
    (Fmm.boxWeight W.g.toParticles (W.treeWeights weights)) tgt k htgt hk (by
      intro s hs
      obtain ⟨s1, -⟩ := usesSources_is okl (ht r hr) htgt hs
      exact boxWeight_local hW weights r s s1 (pointSrc_of_uses W.inp W.trav hW.ok.wf hW.built
        (W.boxes r) h1 hm (usesSources_global hW (ht r hr) htgt hs))) (by
      intro s hs
      obtain ⟨s1, s2⟩ := usesMultipole_is okl (ht r hr) htgt hs
      have s1' : s < W.inp.tree.nboxes := s1
      change mp r s 0 = subtreeSum (W.localTree r).tree _ s
      rw [subtreeSum_local, ← sum_rankWeight hW weights s,
        hmp r hr s s1' (multipoleSrc_of_uses W.inp W.trav hW.ok.wf hW.built (W.boxes r) h1 hm
          (usesMultipole_global hW (ht r hr) htgt hs))]
      refine Finset.sum_congr rfl fun r' hr' => ?_
      rw [localMpoles_eq hW weights travs r' (ht r' (Finset.mem_range.1 hr')) s s1' 0]
      exact if_pos s2)
  refine key.trans ?_
  have : (∑ s ∈ Finset.range (W.localInput r).tree.nboxes,
      if (W.localInput r).tree.isSource s = true then
        Fmm.boxWeight W.g.toParticles (W.treeWeights weights) s else 0) =
      ∑ s ∈ Finset.range W.inp.tree.nboxes,
        if W.inp.tree.isSource s = true then
          Fmm.boxWeight W.g.toParticles (W.treeWeights weights) s else 0 := by
    refine Finset.sum_congr rfl fun s _ => ?_
    rw [show (W.localInput r).tree.isSource s = W.inp.tree.isSource s from isSource_local r s]
  rw [this, boxWeight_total hW.particles]
  exact sum_perm_range W.g.nsources W.g.userSourceIds hW.particles.user_lt
    hW.particles.user_inj weights

theorem World.layout_ok {W : World} (hW : W.OK) : W.setup.layout.OK W.setup.nboxes where
  mono := hW.levelStart_mono
  cover := by
    intro b hb
    have hl := hW.ok.wf.level_lt b hb
    exact ⟨W.inp.tree.level b, hl, hW.levels.start_le b hb,
      hW.levels.lt_start b hb _ (Nat.lt_succ_self _) hl⟩

/-- **C40** (local traversals): if the global traversal could be built, so can the traversal of
each local tree. -/
theorem C40_local_traversals_build (W : World) (hW : W.OK) (r : Nat) :
    ∃ trav, buildTraversal (W.localInput r) = .ok trav :=
  localInput_check hW r

/-- **C40**: in every run of the distributed FMM - every order in which the ranks progress, every
delay of messages, buffered sends or not - in which all ranks finish the multipole reduction, the
potential gathered on the root is, at every target, the one the shared-memory FMM returns.  (That
every run comes to this point is C36.) -/
theorem C40_distributed_equals_shared (W : World) (hW : W.OK) (travs : Nat → Traversal)
    (ht : ∀ r, r < W.size → buildTraversal (W.localInput r) = .ok (travs r)) (weights : Nat → M)
    (rendezvous : Bool) (n : Nat) (σ : NetState M)
    (hrun : Steps rendezvous W.setup n (W.startState travs weights) σ)
    (hfin : ∀ r, r < W.size → (σ.ranks r).finished)
    (junk : Nat → M) (i : Nat) (hi : i < W.g.ntargets) :
    W.result travs weights (fun r => (σ.ranks r).data.mp) junk i =
      Fmm.driveFmm W.inp.tree W.g.toParticles W.trav weights i := by
  refine World.result_eq hW travs ht weights _ (fun r hr b hb hm => ?_) junk i hi
  have hl := hW.ok.wf.level_lt b hb
  exact C36_used_multipoles_are_summed W.setup (World.layout_ok hW) (W.localMpoles travs weights)
    (fun r => (W.localTree r).masks.ancestor) W.boxes
    (fun r' hr' b' hb' ha hm' j => localMpoles_zero hW weights travs r' (ht r' hr') b' hb' ha hm' j)
    hW.levelStart_le rendezvous n σ hrun r hr (hfin r hr) b hb
    (((C39_users W.size W.inp.tree.nboxes _ b hb).2 r).2 ⟨hr, hm⟩) (W.inp.tree.level b)
    ⟨hl, hW.levels.start_le b hb, hW.levels.lt_start b hb _ (Nat.lt_succ_self _) hl⟩ 0
    (by change 0 < 1; omega)

/-- **C40** with `communicate_mpoles_via_allreduce`. -/
theorem C40_distributed_equals_shared_allreduce (W : World) (hW : W.OK) (travs : Nat → Traversal)
    (ht : ∀ r, r < W.size → buildTraversal (W.localInput r) = .ok (travs r)) (weights : Nat → M)
    (junk : Nat → M) (i : Nat) (hi : i < W.g.ntargets) :
    W.result travs weights (allreduce W.size (W.localMpoles travs weights)) junk i =
      Fmm.driveFmm W.inp.tree W.g.toParticles W.trav weights i :=
  World.result_eq hW travs ht weights _
    (fun r _ b _ _ => C36_allreduce W.size (W.localMpoles travs weights) r b 0) junk i hi

/-! ### An instance, and the case the hypothesis `min_sources` excludes -/

namespace Ex

def exGlobal : GlobalParticles :=
  { exParticles with
    srcCumul := fun b => [5, 2, 3, 1, 1, 1, 2, 1, 1].getD b 0
    tgtCumul := fun b => [5, 2, 3, 1, 1, 1, 2, 1, 1].getD b 0 }

/-- `exTree` with target extents; the last argument is `_from_sep_smaller_min_nsources_cumul`. -/
def exInputMin (k : Nat) : TravInput := { exInputExt with minNsources := some k }

def exEmptyTraversal : Traversal :=
  ⟨[], [], [], [], [], [], [], [], ⟨[], []⟩, ⟨[], []⟩, ⟨[], []⟩, [], [], none, ⟨[], []⟩, none⟩

def exBoxes : Nat → List Nat := fun r => [[0, 2, 6, 8, 7, 5], [1, 4, 3]].getD r []

/-- Two ranks; rank 1 is responsible for boxes 1, 4 and 3. -/
def exWorld (k : Nat) : World :=
  ⟨exInputMin k, exGlobal, (buildTraversal (exInputMin k)).toOption.getD exEmptyTraversal, 2, exBoxes⟩

def exTravs (k r : Nat) : Traversal :=
  (buildTraversal ((exWorld k).localInput r)).toOption.getD exEmptyTraversal

/-- the child of `b` whose range holds particle `p` -/
def exChildAt (b p : Nat) : Nat :=
  ([[1, 1, 2, 2, 2], [3, 4], [0, 0, 5, 6, 6], [], [], [], [0, 0, 0, 7, 8]].getD b []).getD p 0

theorem exGlobal_ranges : RangesOK exTree 5 exGlobal.srcStart exGlobal.srcCount exGlobal.srcCumul where
  within := by decide
  count_le := by decide
  child := by decide
  exhaustive := by
    intro b hb p h1 h2
    have hw : ∀ b, b < 9 → exGlobal.srcStart b + exGlobal.srcCumul b ≤ 5 := by decide
    have hp : p < 5 := by have := hw b hb; omega
    have key : ∀ b, b < 9 → ∀ p, p < 5 → (exGlobal.srcStart b + exGlobal.srcCount b ≤ p ∧
        p < exGlobal.srcStart b + exGlobal.srcCumul b) →
        exChildAt b p < 9 ∧ exChildAt b p ≠ 0 ∧ exTree.parent (exChildAt b p) = b ∧
        InRange exGlobal.srcStart exGlobal.srcCumul (exChildAt b p) p := by decide
    exact ⟨_, key b hb p hp ⟨h1, h2⟩⟩
  disjoint := by
    intro b hb b' hb' j h1 h2
    have hle : ∀ b, b < 9 → exGlobal.srcStart b + exGlobal.srcCount b ≤ 5 := by decide
    have hj := hle b hb
    have key : ∀ j, j < 5 → ∀ b, b < 9 → InRange exGlobal.srcStart exGlobal.srcCount b j →
        b = [3, 4, 5, 7, 8].getD j 0 := by decide
    have h3 := h1.2
    rw [key j (by omega) b hb h1, key j (by omega) b' hb' h2]

theorem exWorld_ok : (exWorld 0).OK where
  ok := ⟨exTree_wf, exInputExt_ok.flags, exInputExt_ok.nAway_pos, exInputExt_ok.stickOut_nonneg,
    exInputExt_ok.eps_small, exInputExt_ok.srcTgt, exInputExt_ok.srcTgtChild, trivial⟩
  noMask := rfl
  noParentMask := rfl
  built := rfl
  levels := exTree_levels
  levelStart_mono := by change ∀ l, l < 4 → exTree.levelStart l ≤ exTree.levelStart (l + 1); decide
  levelStart_le := by change ∀ l, l < 4 → exTree.levelStart (l + 1) ≤ 9; decide
  particles := exParticles_ok
  src_ranges := exGlobal_ranges
  tgt_ranges := exGlobal_ranges
  tgt_flag := by
    change ∀ b, b < 9 → (exTree.isTarget b = true ↔ exGlobal.tgtCount b ≠ 0)
    decide
  owned := by
    change ∀ b, b < 9 → ∃ r, r < 2 ∧ b ∈ exBoxes r
    decide
  owner_unique := by
    intro b r r' hr hr' h1 h2
    have hr : r < 2 := hr
    have hr' : r' < 2 := hr'
    have key : ∀ b ∈ exBoxes 0, b ∉ exBoxes 1 := by decide
    have e : ∀ r, r < 2 → r = 0 ∨ r = 1 := by omega
    rcases e r hr with rfl | rfl <;> rcases e r' hr' with rfl | rfl
    · rfl
    · exact absurd h2 (key b h1)
    · exact absurd h1 (key b h2)
    · rfl
  min_sources := fun _ => rfl

def exWeights : Nat → Nat := fun j => 10 ^ j

/-- The hypotheses of C40 are met: this run has two ranks and reaches the end, and delivers
`1 + 10 + 100 + 1000 + 10000` at target 3. -/
example : ∃ n σ, Steps true (exWorld 0).setup n
      ((exWorld 0).startState (exTravs 0) exWeights) σ ∧
    (exWorld 0).result (exTravs 0) exWeights (fun r => (σ.ranks r).data.mp) (fun _ => 0) 3 = 11111 := by
  obtain ⟨n, σ, h1, h2⟩ := exists_complete (exWorld 0).setup
    ((exWorld 0).localMpoles (exTravs 0) exWeights) (fun r => ((exWorld 0).localTree r).masks.ancestor)
    (exWorld 0).boxes
  refine ⟨n, σ, h1, ?_⟩
  rw [C40_distributed_equals_shared (exWorld 0) exWorld_ok (exTravs 0) (fun r _ => by
    obtain ⟨trav, h⟩ := C40_local_traversals_build (exWorld 0) exWorld_ok r
    unfold exTravs
    rw [h]
    rfl) exWeights true n σ h1 h2 (fun _ => 0) 3 (by decide)]
  decide +kernel

end Ex

/-- What the hypothesis `min_sources` excludes: with target extents and
`_from_sep_smaller_min_nsources_cumul = 1`, the local trees count only local sources.  Here rank 1
no longer finds enough sources in boxes 7 and 8 to use their multipole expansions at box 4, moves
these boxes to the close list, but does not have their sources: the distributed FMM returns 11100
where the shared-memory FMM returns 11111. -/
theorem C40_min_nsources_loses_sources :
    ∃ W : World, buildTraversal W.inp = .ok W.trav ∧ W.inp.minNsources = some 1 ∧
      ∃ travs : Nat → Traversal,
        (∀ r, r < W.size → buildTraversal (W.localInput r) = .ok (travs r)) ∧
        ∃ weights : Nat → Nat,
          W.result travs weights (allreduce W.size (W.localMpoles travs weights)) (fun _ => 0) 3 =
            11100 ∧
          Fmm.driveFmm W.inp.tree W.g.toParticles W.trav weights 3 = 11111 := by
  refine ⟨Ex.exWorld 1, rfl, rfl, Ex.exTravs 1, ?_, Ex.exWeights, ?_, ?_⟩
  · intro r _
    have h : ∃ trav, buildTraversal ((Ex.exWorld 1).localInput r) = .ok trav := ⟨_, rfl⟩
    obtain ⟨trav, h⟩ := h
    unfold Ex.exTravs
    rw [h]
    rfl
  · decide +kernel
  · decide +kernel

end Boxtree
