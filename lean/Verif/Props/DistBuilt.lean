import Verif.Props.LevelEnds
import Verif.Props.BuiltTree
import Verif.Props.DistFmm
import Verif.Props.Partition

/-!
# C57: the distributed FMM on a built tree

The tree of the builder, the partition of `partition_work`, the local trees and traversals, the
reduction of the multipoles and the gathering of the potentials, put together.
-/

namespace Boxtree.Build
open BoxTree Boxtree.Dist

theorem built_ranges {inp : Input} (ok : inp.OK) (hr : inp.Regular) (hp : inp.skipPrune = false)
    {t : Built} (h : inp.build = .ok t) :
    RangesOK t.tree t.particles.nsources t.particles.srcStart t.particles.srcCount
      t.particles.srcCumul ∧
    RangesOK t.tree t.particles.ntargets t.particles.tgtStart t.particles.tgtCount
      t.particles.tgtCumul := by
  obtain ⟨L, s, rfl, hf, _⟩ := Input.build_fin ok hr h
  rw [hp] at hf ⊢
  have es := nsources_eq (C := inp.cloud) hf fun _ => ok.nsources_le
  have et := ntargets_eq (C := inp.cloud) hf fun _ => ok.nsources_le
  rw [es, et]
  exact ⟨ranges_of_kind hf (srcKind hf), ranges_of_kind hf (tgtKind hf)⟩

/-- The parts of a partition in which every rank has one: each box has exactly one rank. -/
theorem parts_owned {t : BoxTree} (hw : t.WF) {cost : Nat → ℚ} {size : Nat} (h0 : 0 < size)
    {parts : List (List Nat)} (hp : partitionWork t cost size = .ok (parts.map some)) :
    (∀ b, b < t.nboxes → ∃ r, r < size ∧ b ∈ parts.getD r []) ∧
    ∀ b r r', r < size → r' < size → b ∈ parts.getD r [] → b ∈ parts.getD r' [] → r = r' := by
  rcases Nat.lt_or_ge t.nboxes size with hs | hs
  · rw [C37_too_many_ranks t cost size hs] at hp
    cases hp
  obtain ⟨order, parts', rest, h1, h2, h3, _, _, h6⟩ := C37_segments t hw cost size h0 hs
  rw [h2] at hp
  simp only [Except.ok.injEq] at hp
  have hrest : rest = 0 := by
    by_contra h
    have : (none : Option (List Nat)) ∈ parts.map some := by
      rw [← hp]; simp [h]
    simp at this
  subst hrest
  simp only [List.replicate_zero, List.append_nil] at hp
  have hpp : parts' = parts := List.map_injective_iff.2 (Option.some_injective _) hp
  subst hpp
  have hnd : parts'.flatten.Nodup := by
    rw [h6]
    exact (h1.perm.nodup_iff).2 List.nodup_range
  have hdis := (List.nodup_flatten.1 hnd).2
  rw [List.pairwise_iff_getElem] at hdis
  constructor
  · intro b hb
    have hmem : b ∈ parts'.flatten := by
      rw [h6, h1.perm.mem_iff]
      exact List.mem_range.2 hb
    obtain ⟨l, hl, hbl⟩ := List.mem_flatten.1 hmem
    obtain ⟨r, hr, rfl⟩ := List.mem_iff_getElem.1 hl
    exact ⟨r, by omega, by rw [List.getD_eq_getElem _ _ hr]; exact hbl⟩
  · intro b r r' hr hr' hb hb'
    rw [List.getD_eq_getElem _ _ (by omega)] at hb hb'
    by_contra hne
    rcases Nat.lt_or_gt_of_ne hne with h | h
    · exact hdis r r' (by omega) (by omega) h hb hb'
    · exact hdis r' r (by omega) (by omega) h hb' hb

/-- The distributed FMM on the tree `t`, with the global traversal `trav` and the boxes of each rank
in `parts`. -/
def worldOf (t : Built) (tin : TravInput) (trav : Traversal) (size : Nat)
    (parts : List (List Nat)) : World where
  inp := tin
  g := t.particles
  trav := trav
  size := size
  boxes := fun r => parts.getD r []

/-- The global data of a built tree are in order.  (Without the excluded kinds of trees.) -/
theorem worldOf_ok {inp : Input} (ok : inp.OK) (hr : inp.Regular) (hp : inp.skipPrune = false)
    (ha : inp.adaptive = true ∨ inp.haveExtent = false) {t : Built} (h : inp.build = .ok t)
    {tin : TravInput} (hi : TravOf inp t tin)
    (hmin : tin.targetsHaveExtent = true → tin.minNsources.getD 0 = 0)
    {trav : Traversal} (ht : buildTraversal tin = .ok trav) {cost : Nat → ℚ} {size : Nat}
    (h0 : 0 < size) {parts : List (List Nat)}
    (hparts : partitionWork t.tree cost size = .ok (parts.map some)) :
    (worldOf t tin trav size parts).OK := by
  have hwf := C52_built_tree_wf inp ok t h
  obtain ⟨_, l2, l3, _⟩ := C55_level_starts_partial inp ok t h (Or.inr ha)
  obtain ⟨r1, r2⟩ := built_ranges ok hr hp h
  obtain ⟨p1, p2⟩ := parts_owned hwf.1 h0 hparts
  have hl2 : ∀ l l', l ≤ l' → tin.tree.levelStart l ≤ tin.tree.levelStart l' := by
    rw [hi.tree]; exact l2
  have hl3 : tin.tree.levelStart tin.tree.nlevels = tin.tree.nboxes := by rw [hi.tree]; exact l3
  exact
  { ok := hi.ok ok h
    noMask := hi.noMask
    noParentMask := hi.noParentMask
    built := ht
    levels := by show tin.tree.LevelsOK; rw [hi.tree]; exact hwf.2.1
    levelStart_mono := fun l _ => hl2 l (l + 1) (Nat.le_succ l)
    levelStart_le := fun l hl => by
      show tin.tree.levelStart (l + 1) ≤ tin.tree.nboxes
      rw [← hl3]
      exact hl2 _ _ hl
    particles := by
      show t.particles.toParticles.OK tin.tree
      rw [hi.tree]
      obtain ⟨L, s, rfl, hf, _⟩ := Input.build_fin ok hr h
      exact finish_particles hf fun _ => ok.nsources_le
    src_ranges := by
      show RangesOK tin.tree _ _ _ _
      rw [hi.tree]; exact r1
    tgt_ranges := by
      show RangesOK tin.tree _ _ _ _
      rw [hi.tree]; exact r2
    tgt_flag := fun b _ => by
      show tin.tree.isTarget b = true ↔ _
      rw [hi.tree, (C25_flags inp ok t h).2.1 b]
      exact Nat.pos_iff_ne_zero
    owned := fun b hb => p1 b (by
      have : b < tin.tree.nboxes := hb
      rwa [hi.tree] at this)
    owner_unique := p2
    min_sources := hmin }

/-- **C57.** From particles to potentials on many ranks: the tree is built, its boxes are partitioned
with any costs such that every rank gets boxes, the local trees and traversals are made, and the
multipoles are reduced in any order of events until nothing more can happen.  Then the root has, at
every user target, the sum of the weights of all user sources.

Partial: without level restriction together with extents (`C20_restricted_extent_loses_particles`),
non-adaptive trees with extents (`C55_stale_level_counts`), unpruned trees (internal argument), and
`_from_sep_smaller_min_nsources_cumul` together with extents (`C40_min_nsources_loses_sources`). -/
theorem C57_distributed_on_built_tree_partial {M : Type} [AddCommMonoid M] (inp : Input)
    (ok : inp.OK) (hr : inp.Regular) (hp : inp.skipPrune = false)
    (ha : inp.adaptive = true ∨ inp.haveExtent = false) (t : Built) (h : inp.build = .ok t)
    (tin : TravInput) (hi : TravOf inp t tin)
    (hmin : tin.targetsHaveExtent = true → tin.minNsources.getD 0 = 0)
    (trav : Traversal) (ht : buildTraversal tin = .ok trav) (cost : Nat → ℚ) (size : Nat)
    (h0 : 0 < size) (parts : List (List Nat))
    (hparts : partitionWork t.tree cost size = .ok (parts.map some)) (weights : Nat → M) :
    ∃ travs : Nat → Traversal,
      (∀ r, r < size →
        buildTraversal ((worldOf t tin trav size parts).localInput r) = .ok (travs r)) ∧
      ∀ (rendezvous : Bool) (n : Nat) (σ : NetState M),
        Steps rendezvous (worldOf t tin trav size parts).setup n
          ((worldOf t tin trav size parts).startState travs weights) σ →
        (∀ τ, ¬ Step rendezvous (worldOf t tin trav size parts).setup σ τ) →
        ∀ (junk : Nat → M) (i : Nat), i < t.particles.ntargets →
          (worldOf t tin trav size parts).result travs weights (fun r => (σ.ranks r).data.mp) junk i
            = ∑ j ∈ Finset.range t.particles.nsources, weights j := by
  have hW := worldOf_ok ok hr hp ha h hi hmin ht h0 hparts
  choose travs htr using C40_local_traversals_build _ hW
  refine ⟨travs, fun r _ => htr r, fun rv n σ hrun hmax junk i hit => ?_⟩
  have hfin : ∀ r, r < (worldOf t tin trav size parts).size → (σ.ranks r).finished := fun r hr =>
    C36_maximal_runs_finish _ _ _ _ rv n σ hrun hmax r hr
  have h1 := C40_distributed_equals_shared _ hW travs (fun r _ => htr r) weights rv n σ hrun hfin
    junk i hit
  rw [h1]
  have h2 := C53_fmm_on_built_tree_partial inp ok hr t h tin hi trav ht weights i hit
  rw [← h2, ← hi.tree]
  rfl

/-- Such runs exist: every run can be continued to one that cannot be continued. -/
theorem C57_maximal_run_exists {V : Type} [AddCommMonoid V] (E : Setup) (mp : Nat → Nat → Nat → V)
    (ancestor : Nat → Nat → Bool) (responsible : Nat → List Nat) (w : Bool) :
    ∃ n σ, Steps w E n (start E mp ancestor responsible) σ ∧ ∀ τ, ¬ Step w E σ τ := by
  by_contra hno
  push Not at hno
  have hlong : ∀ n, ∃ σ, Steps w E n (start E mp ancestor responsible) σ := by
    intro n
    induction n with
    | zero => exact ⟨_, .nil _⟩
    | succ n ih =>
      obtain ⟨σ, hσ⟩ := ih
      obtain ⟨τ, hτ⟩ := hno n σ hσ
      exact ⟨τ, .snoc hσ hτ⟩
  obtain ⟨σ, hσ⟩ := hlong (E.size * (4 * E.size + 3) + 1)
  have := C36_terminates E mp ancestor responsible w _ σ hσ
  omega

/-- An instance: the tree of `Ex.plane` has five boxes, and two ranks both get boxes. -/
example : Ex.plane.OK ∧ Ex.plane.Regular ∧ Ex.plane.skipPrune = false ∧ Ex.plane.adaptive = true ∧
    Ex.look Ex.plane.build (fun t => match buildTraversal (Ex.travInput Ex.plane t) with
      | .ok _ => [partitionWork t.tree (fun _ => 1) 2]
      | .error _ => []) = [.ok [some [0, 2, 4], some [3, 1]]] :=
  ⟨Ex.plane_ok, Ex.plane_regular, rfl, rfl, by decide +kernel⟩

end Boxtree.Build
