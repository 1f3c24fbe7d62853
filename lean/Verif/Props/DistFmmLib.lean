import Verif.Lemmas.DistFmmLib
import Verif.Props.FmmLibChain

/-!
# C62: the distributed FMM with the `pyfmmlib` wrangler
-/

namespace Boxtree.FmmLib
open Boxtree BoxTree Boxtree.Dist World

variable {A W D C P : Type}

section
variable [AddCommMonoid C] [AddCommMonoid P] {V : World} {R : Lib A W D C P} {w : Wrangler A D}
  {dip : Nat → Option (Nat → D)} {rot : Nat → Option (List ℤ × List A)} {travs : Nat → Traversal}
  {weights : Nat → W} {src : Nat → Src W D} {x : Nat → Nat → ℚ} {angle : Nat → Nat → A}
  {PV : Nat → P → Multiset Nat → Prop} {MP LOC : Nat → List C → Multiset Nat → Prop}

/-- The multipole arrays of the ranks after the reduction: for the boxes whose multipole expansion
the rank uses, the sum over all ranks. -/
def Reduced (V : World) (R : Lib A W D C P) (w : Wrangler A D) (dip : Nat → Option (Nat → D))
    (rot : Nat → Option (List ℤ × List A)) (travs : Nat → Traversal) (weights : Nat → W)
    (mp : Nat → Nat → Nat → C) : Prop :=
  ∀ r, r < V.size → ∀ b, b < V.inp.tree.nboxes → (V.localTree r).masks.multipoleSrc b = true →
    ∀ i, i < w.size V.inp.tree (V.inp.tree.level b) →
      mp r b i = ∑ s ∈ Finset.range V.size,
        viewOf w V.inp.tree (rankMpoles V R w dip rot travs weights s) b i

theorem rank_upward (hV : V.OK)
    (hE : Respects V.inp V.g.toParticles R w src x angle PV MP LOC)
    (hH : DistHolds V w dip weights src x) {s : Nat} (hs : s < V.size)
    (ht : buildTraversal (V.localInput s) = .ok (travs s)) {b : Nat} (hb : b < V.inp.tree.nboxes) :
    MP b (getExpn V.inp.tree w (rankMpoles V R w dip rot travs weights s) (V.inp.tree.level b) b)
      (V.localMpoles travs (fun j => ({j} : Multiset Nat)) s b 0) := by
  rw [← getExpn_local w dip rot s]
  refine upward_rel (hE.local hV dip rot s) (localInput_ok hV s) (levels_local hV s) ht ?_ b hb
  intro c hc
  rw [(travFields ht).sourceBoxes, mem_selSource] at hc
  obtain ⟨c1, -, c2⟩ := hc
  apply present_local hV hH hs c1
  apply (C38_point_sources_exact V.inp V.trav hV.built (V.boxes s) c).2
  exact Or.inl ((responsible_iff s c).1 c2)

theorem dist_core (hV : V.OK)
    (ht : ∀ r, r < V.size → buildTraversal (V.localInput r) = .ok (travs r))
    (hdim : V.inp.tree.dims = 2 ∨ V.inp.tree.dims = 3)
    (hE : Respects V.inp V.g.toParticles R w src x angle PV MP LOC)
    (hH : DistHolds V w dip weights src x)
    (hrot : ∀ r, r < V.size → RotationOK (travs r) (rankWrangler V w dip rot r) angle)
    {mp : Nat → Nat → Nat → C} (hmp : Reduced V R w dip rot travs weights mp) (junk : Nat → P) :
    ∃ pot, distResult V R w dip rot travs weights mp junk = .ok pot ∧
      ∀ i, i < V.g.ntargets → ∃ p, pot i = R.scale w.kernel V.inp.tree.dims p ∧
        PV i p (Multiset.range V.g.nsources) := by
  have hno : ((List.range V.size).any fun r =>
      (dip r).isSome && !w.dipolesAlreadyReordered) = false := by
    rw [List.any_eq_false]
    intro r hr hc
    rw [Bool.and_eq_true] at hc
    have := hH.reordered r (List.mem_range.1 hr) hc.1
    rw [this] at hc
    exact absurd hc.2 (by simp)
  unfold distResult
  rw [if_pos hdim, hno]
  refine ⟨_, rfl, fun i hi => ⟨_, rfl, ?_⟩⟩
  obtain ⟨tgt, r, k, hr, h1, hm, hin, htgt, hk, hget, hfold⟩ := World.gather_spec hV travs ht i hi
  rw [hfold (rankPotentials V R w dip rot travs weights mp) junk]
  -- the companion run
  set units : Nat → Multiset Nat := fun j => {j} with hunits
  set cm : Nat → Nat → Nat → Multiset Nat := fun _ b _ =>
    ∑ s ∈ Finset.range V.size, V.localMpoles travs units s b 0 with hcm
  have htot : V.localPotentials travs units cm r k = Multiset.range V.g.nsources := by
    have e1 := World.result_eq hV travs ht units cm (fun _ _ _ _ _ => rfl) (fun _ => 0) i hi
    rw [C02_drive_fmm_total V.inp V.trav hV.ok hV.levels hV.built hV.noMask hV.noParentMask
      V.g.toParticles hV.particles units i hi, Finset.sum_multiset_singleton] at e1
    unfold World.result at e1
    rw [← hfold (V.localPotentials travs units cm) (fun _ => 0)]
    exact e1
  rw [← htot]
  have okl := localInput_ok hV r
  have hEl := hE.local hV dip rot r
  have hx : (rankWrangler V w dip rot r).targets k = x i := by
    have hpart := (C39_particles_kept (fun _ => (0 : ℚ)) V.g.ntargets V.inp.tree.nboxes
      (V.localTree r).masks.responsible w.targets V.g.tgtStart V.g.tgtCount V.g.tgtCumul).2.2
    unfold rankWrangler
    simp only
    rw [hpart]
    change (((V.localTree r).targets.particleIdx.map w.targets).getD _ _) = _
    rw [List.getD_eq_getElem?_getD, List.getElem?_map, hget]
    exact hH.target i hi
  have hsrc : ∀ t', t' ∈ (travs r).targetBoxes → ∀ s,
      UsesSources (travs r) (V.localInput r).tree t' s →
      Present (V.localParticles r) V.g.toParticles (rankSrc V w dip rot weights r) src
        (V.localWeights units r) s := by
    intro t' ht' s hs
    obtain ⟨g1, g2, -⟩ := (mem_targetBoxes_local hV (ht r hr) t').1 ht'
    exact present_local hV hH hr (usesSources_is okl (ht r hr) ht' hs).1
      (pointSrc_of_uses V.inp V.trav hV.ok.wf hV.built (V.boxes r) g1 g2
        (usesSources_global hV (ht r hr) ht' hs))
  have hmul : ∀ t', t' ∈ (travs r).targetBoxes → ∀ s,
      UsesMultipole (travs r) (V.localInput r).tree t' s →
      MP s (getExpn V.inp.tree w (packOf w V.inp.tree (mp r)) (V.inp.tree.level s) s) (cm r s 0) := by
    intro t' ht' s hs
    obtain ⟨g1, g2, -⟩ := (mem_targetBoxes_local hV (ht r hr) t').1 ht'
    have hsn : s < V.inp.tree.nboxes := (usesMultipole_is okl (ht r hr) ht' hs).1
    have hmask := multipoleSrc_of_uses V.inp V.trav hV.ok.wf hV.built (V.boxes r) g1 g2
      (usesMultipole_global hV (ht r hr) ht' hs)
    rw [getExpn_pack hV.ok.wf hV.levels _ hsn]
    have e : (List.range (w.size V.inp.tree (V.inp.tree.level s))).map (mp r s) =
        (List.range (w.size V.inp.tree (V.inp.tree.level s))).map fun i =>
          ∑ s' ∈ Finset.range V.size,
            viewOf w V.inp.tree (rankMpoles V R w dip rot travs weights s') s i :=
      List.map_congr_left fun i hi => hmp r hr s hsn hmask i (List.mem_range.1 hi)
    rw [e]
    refine mp_sum (X := MP s) (hE.mp_zero s) (hE.mp_add s) _ _ V.size ?_
    intro s' hs'
    rw [view_map]
    exact rank_upward hV hE hH hs' (ht s' hs') hsn
  refine evaluate_rel hEl okl (levels_local hV r) (ht r hr) (hrot r hr) hx hi htgt hin hk ?_
    (hsrc tgt htgt) ?_ ?_
  · intro b hb s hs
    obtain ⟨t', g1, g2⟩ := ttp_has_target hV (ht r hr) hb
    exact hsrc t' g1 s (Or.inr (Or.inr (Or.inr ⟨b, g2, hs⟩)))
  · intro b hb s hs
    obtain ⟨t', g1, g2⟩ := ttp_has_target hV (ht r hr) hb
    rw [getExpn_local]
    exact hmul t' g1 s (Or.inl ⟨b, g2, hs⟩)
  · intro l hl s hs
    rw [getExpn_local]
    refine hmul tgt htgt s (Or.inr ⟨l, ?_, hs⟩)
    by_contra hc
    rw [List.getD_eq_default _ _ (by omega)] at hs
    unfold BuiltList.rowFor BuiltList.row at hs
    simp at hs

/-- The multipole arrays at the end of a run of `communicate_mpoles`. -/
theorem reduced_of_run (hV : V.OK)
    (ht : ∀ r, r < V.size → buildTraversal (V.localInput r) = .ok (travs r))
    {rendezvous : Bool} {n : Nat} {σ : NetState C}
    (hrun : Steps rendezvous (distSetup V w) n (distStart V R w dip rot travs weights) σ)
    (hfin : ∀ r, r < V.size → (σ.ranks r).finished) :
    Reduced V R w dip rot travs weights fun r => (σ.ranks r).data.mp := by
  intro r hr b hb hm i hi
  have hl := hV.ok.wf.level_lt b hb
  have hL : (distSetup V w).layout.OK (distSetup V w).nboxes :=
    ⟨(layout_ok hV).mono, (layout_ok hV).cover⟩
  refine C36_used_multipoles_are_summed (distSetup V w) hL
    (fun r => viewOf w V.inp.tree (rankMpoles V R w dip rot travs weights r))
    (fun r => (V.localTree r).masks.ancestor) V.boxes ?_
    hV.levelStart_le rendezvous n σ hrun r hr (hfin r hr) b hb
    (((C39_users V.size V.inp.tree.nboxes _ b hb).2 r).2 ⟨hr, hm⟩) (V.inp.tree.level b)
    ⟨hl, hV.levels.start_le b hb, hV.levels.lt_start b hb _ (Nat.lt_succ_self _) hl⟩ i hi
  intro s hs c hc ha hb' j
  have F := travFields (ht s hs)
  rw [← viewOf_local w dip rot s]
  refine upward_zero (R := R) (inp := V.localInput s) (w := rankWrangler V w dip rot s)
    (localInput_ok hV s) (levels_local hV s) (ht s hs) hc ?_ ?_ j
  · rw [F.sourceBoxes, mem_selSource]
    rintro ⟨-, -, h⟩
    exact hb' ((responsible_iff s c).1 h)
  · rw [F.sourceParentBoxes, mem_selSourceParent]
    rintro ⟨-, -, h⟩
    have h : (V.localTree s).masks.ancestor c = true := h
    rw [ha] at h
    exact absurd h (by simp)

omit [AddCommMonoid P] in
theorem reduced_of_allreduce :
    Reduced V R w dip rot travs weights (allreduce V.size fun r =>
      viewOf w V.inp.tree (rankMpoles V R w dip rot travs weights r)) :=
  fun r _ b _ _ i _ => C36_allreduce V.size _ r b i

end

/-- **C62 (any relation).** For every tree, every way of distributing the boxes over ranks, every
order in which the ranks progress and every delay of messages: in a run of the distributed FMM with
the `pyfmmlib` wrangler in which all ranks finish the multipole reduction, the number returned on the
root at a target is (before the final scaling) related to the set of all sources, each taken once, by
every relation that the routines of the library keep. -/
theorem C62_distributed_respects [AddCommMonoid C] [AddCommMonoid P] (V : World) (hV : V.OK)
    (travs : Nat → Traversal)
    (ht : ∀ r, r < V.size → buildTraversal (V.localInput r) = .ok (travs r))
    (hdim : V.inp.tree.dims = 2 ∨ V.inp.tree.dims = 3)
    (R : Lib A W D C P) (w : Wrangler A D) (dip : Nat → Option (Nat → D))
    (rot : Nat → Option (List ℤ × List A)) (weights : Nat → W)
    (src : Nat → Src W D) (x : Nat → Nat → ℚ) (angle : Nat → Nat → A)
    (PV : Nat → P → Multiset Nat → Prop) (MP LOC : Nat → List C → Multiset Nat → Prop)
    (hE : Respects V.inp V.g.toParticles R w src x angle PV MP LOC)
    (hH : DistHolds V w dip weights src x)
    (hrot : ∀ r, r < V.size → RotationOK (travs r) (rankWrangler V w dip rot r) angle)
    (rendezvous : Bool) (n : Nat) (σ : NetState C)
    (hrun : Steps rendezvous (distSetup V w) n (distStart V R w dip rot travs weights) σ)
    (hfin : ∀ r, r < V.size → (σ.ranks r).finished) (junk : Nat → P) :
    ∃ pot, distResult V R w dip rot travs weights (fun r => (σ.ranks r).data.mp) junk = .ok pot ∧
      ∀ i, i < V.g.ntargets → ∃ p, pot i = R.scale w.kernel V.inp.tree.dims p ∧
        PV i p (Multiset.range V.g.nsources) :=
  dist_core hV ht hdim hE hH hrot (reduced_of_run hV ht hrun hfin) junk

/-- **C62.** With a library that is exact, the distributed FMM returns at every target the scaled sum
over all sources of the potential of that source, which is what the shared-memory FMM returns. -/
theorem C62_distributed_exact [AddCommMonoid C] [AddCommMonoid P] (V : World) (hV : V.OK)
    (travs : Nat → Traversal)
    (ht : ∀ r, r < V.size → buildTraversal (V.localInput r) = .ok (travs r))
    (hdim : V.inp.tree.dims = 2 ∨ V.inp.tree.dims = 3)
    (R : Lib A W D C P) (w : Wrangler A D) (dip : Nat → Option (Nat → D))
    (rot : Nat → Option (List ℤ × List A)) (weights : Nat → W)
    (src : Nat → Src W D) (x : Nat → Nat → ℚ) (angle : Nat → Nat → A) (K : Nat → Nat → P)
    (MP LOC : Nat → List C → Multiset Nat → Prop)
    (hE : Exact V.inp V.g.toParticles R w src x angle K MP LOC)
    (hH : DistHolds V w dip weights src x)
    (hrot : ∀ r, r < V.size → RotationOK (travs r) (rankWrangler V w dip rot r) angle)
    (rendezvous : Bool) (n : Nat) (σ : NetState C)
    (hrun : Steps rendezvous (distSetup V w) n (distStart V R w dip rot travs weights) σ)
    (hfin : ∀ r, r < V.size → (σ.ranks r).finished) (junk : Nat → P) :
    ∃ pot, distResult V R w dip rot travs weights (fun r => (σ.ranks r).data.mp) junk = .ok pot ∧
      (∀ i, i < V.g.ntargets → pot i =
        R.scale w.kernel V.inp.tree.dims (∑ j ∈ Finset.range V.g.nsources, K i j)) ∧
      ∀ wS : Wrangler A D, wS.kernel = w.kernel → wS.rscaleFactor = w.rscaleFactor →
        wS.order = w.order → Holds V.g.toParticles wS weights src x →
        RotationOK V.trav wS angle →
        ∃ pot', drive V.inp.tree V.g.toParticles R wS V.trav weights = .ok pot' ∧
          ∀ i, i < V.g.ntargets → pot i = pot' i := by
  obtain ⟨pot, h1, h2⟩ := C62_distributed_respects V hV travs ht hdim R w dip rot weights src x angle
    _ MP LOC hE hH hrot rendezvous n σ hrun hfin junk
  have h3 : ∀ i, i < V.g.ntargets → pot i =
      R.scale w.kernel V.inp.tree.dims (∑ j ∈ Finset.range V.g.nsources, K i j) := by
    intro i hi
    obtain ⟨p, h3, h4⟩ := h2 i hi
    rw [h3, h4]
    rfl
  refine ⟨pot, h1, h3, ?_⟩
  rintro ⟨k, rs, o, a1, a2, a3, a4, a5, a6⟩ rfl rfl rfl hHS hrS
  obtain ⟨pot', g1, g2⟩ := C58_fmmlib_exact V.inp V.trav hV.ok hV.levels hV.built hV.noMask
    hV.noParentMask hdim V.g.toParticles hV.particles R
    ⟨w.kernel, w.rscaleFactor, w.order, a1, a2, a3, a4, a5, a6⟩ src x angle K MP LOC
    ⟨hE.pv_zero, hE.pv_add, hE.mp_len, hE.mp_zero, hE.mp_add, hE.loc_len, hE.loc_zero, hE.loc_add,
      hE.formmp, hE.mpmp, hE.mploc, hE.formta, hE.locloc, hE.mpeval, hE.taeval, hE.direct⟩
    weights hHS hrS
  exact ⟨pot', g1, fun i hi => by rw [h3 i hi, g2 i hi]⟩

/-- **C62 (error bound).** With a library that is linear but has errors: if every chain of
translations from one source to one target is within `ε i j` of the potential `K i j`, the result of
the distributed FMM at target `i` is within the sum of the `ε i j` of the sum of the `K i j`, however
the boxes are distributed and whatever the order of the messages: the reduction of partial multipole
expansions does not cost accuracy. -/
theorem C62_error_bound [AddCommMonoid C] [AddCommGroup P] [LinearOrder P] [IsOrderedAddMonoid P]
    (V : World) (hV : V.OK) (travs : Nat → Traversal)
    (ht : ∀ r, r < V.size → buildTraversal (V.localInput r) = .ok (travs r))
    (hdim : V.inp.tree.dims = 2 ∨ V.inp.tree.dims = 3)
    (R : Lib A W D C P) (w : Wrangler A D) (hR : Linear V.inp.tree w R)
    (dip : Nat → Option (Nat → D)) (rot : Nat → Option (List ℤ × List A)) (weights : Nat → W)
    (src : Nat → Src W D) (x : Nat → Nat → ℚ) (angle : Nat → Nat → A)
    (hH : DistHolds V w dip weights src x)
    (hrot : ∀ r, r < V.size → RotationOK (travs r) (rankWrangler V w dip rot r) angle)
    (K ε : Nat → Nat → P)
    (hacc : ∀ i j p, i < V.g.ntargets → j < V.g.nsources →
      Chain V.inp V.g.toParticles R w src x angle i j p → |p - K i j| ≤ ε i j)
    (rendezvous : Bool) (n : Nat) (σ : NetState C)
    (hrun : Steps rendezvous (distSetup V w) n (distStart V R w dip rot travs weights) σ)
    (hfin : ∀ r, r < V.size → (σ.ranks r).finished) (junk : Nat → P) :
    ∃ pot, distResult V R w dip rot travs weights (fun r => (σ.ranks r).data.mp) junk = .ok pot ∧
      ∀ i, i < V.g.ntargets → ∃ p, pot i = R.scale w.kernel V.inp.tree.dims p ∧
        |p - ∑ j ∈ Finset.range V.g.nsources, K i j| ≤ ∑ j ∈ Finset.range V.g.nsources, ε i j := by
  obtain ⟨pot, h1, h2⟩ := C62_distributed_respects V hV travs ht hdim R w dip rot weights src x angle
    _ _ _ (chain_respects V.inp hV.ok.wf V.g.toParticles R w hR src x angle) hH hrot rendezvous n σ
    hrun hfin junk
  refine ⟨pot, h1, fun i hi => ?_⟩
  obtain ⟨p, h3, L, h4, h5, rfl⟩ := h2 i hi
  obtain ⟨g, hg, hs⟩ := sum_of_perm L _ h4
  refine ⟨_, h3, ?_⟩
  rw [hs, ← Finset.sum_sub_distrib]
  refine (Finset.abs_sum_le_sum_abs _ _).trans (Finset.sum_le_sum fun j hj => ?_)
  have hj := Finset.mem_range.1 hj
  exact hacc i j _ hi hj (h5 _ (hg j hj))

/-- **C62** with `communicate_mpoles_via_allreduce`. -/
theorem C62_distributed_respects_allreduce [AddCommMonoid C] [AddCommMonoid P] (V : World)
    (hV : V.OK) (travs : Nat → Traversal)
    (ht : ∀ r, r < V.size → buildTraversal (V.localInput r) = .ok (travs r))
    (hdim : V.inp.tree.dims = 2 ∨ V.inp.tree.dims = 3)
    (R : Lib A W D C P) (w : Wrangler A D) (dip : Nat → Option (Nat → D))
    (rot : Nat → Option (List ℤ × List A)) (weights : Nat → W)
    (src : Nat → Src W D) (x : Nat → Nat → ℚ) (angle : Nat → Nat → A)
    (PV : Nat → P → Multiset Nat → Prop) (MP LOC : Nat → List C → Multiset Nat → Prop)
    (hE : Respects V.inp V.g.toParticles R w src x angle PV MP LOC)
    (hH : DistHolds V w dip weights src x)
    (hrot : ∀ r, r < V.size → RotationOK (travs r) (rankWrangler V w dip rot r) angle)
    (junk : Nat → P) :
    ∃ pot, distResult V R w dip rot travs weights
        (allreduce V.size fun r =>
          viewOf w V.inp.tree (rankMpoles V R w dip rot travs weights r)) junk = .ok pot ∧
      ∀ i, i < V.g.ntargets → ∃ p, pot i = R.scale w.kernel V.inp.tree.dims p ∧
        PV i p (Multiset.range V.g.nsources) :=
  dist_core hV ht hdim hE hH hrot reduced_of_allreduce junk

/-- **C62 (rotation data).** Rotation data that every rank makes from its own traversal meets the
requirement of the theorems above. -/
theorem C62_rotation_data (V : World) (hV : V.OK) (travs : Nat → Traversal)
    (ht : ∀ r, r < V.size → buildTraversal (V.localInput r) = .ok (travs r))
    (hfit : (4 * V.inp.nAway + 3) ^ V.inp.tree.dims ≤ 2 ^ 31) [DecidableEq ℝ]
    (rc : Nat → RotationClasses ℝ)
    (hrc : ∀ r, r < V.size →
      buildRotationClasses exactAngle (V.localTree r).tree V.inp.nAway (travs r) = .ok (rc r))
    (w : Wrangler ℝ D) (dip : Nat → Option (Nat → D)) (r : Nat) (hr : r < V.size) :
    RotationOK (travs r)
      (rankWrangler V w dip (fun r => some ((rc r).classes, (rc r).angles)) r)
      (pairAngle V.inp.tree) :=
  C58_rotation_data (V.localInput r) (travs r) (localInput_ok hV r) (ht r hr) hfit (rc r) (hrc r hr)
    _ rfl

/-- With dipole vectors that still have to be sorted, `DistributedFMMLibExpansionWrangler` cannot be
made: its constructor uses the communicator before it is stored. -/
theorem C62_unsorted_dipoles_rejected [AddCommMonoid C] [AddCommMonoid P] (V : World)
    (R : Lib A W D C P) (w : Wrangler A D) (dip : Nat → Option (Nat → D))
    (rot : Nat → Option (List ℤ × List A)) (travs : Nat → Traversal) (weights : Nat → W)
    (mp : Nat → Nat → Nat → C) (junk : Nat → P)
    (hdim : V.inp.tree.dims = 2 ∨ V.inp.tree.dims = 3) (r : Nat) (hr : r < V.size)
    (hd : (dip r).isSome = true) (hw : w.dipolesAlreadyReordered = false) :
    distResult V R w dip rot travs weights mp junk = .error "AttributeError: comm" := by
  unfold distResult
  rw [if_pos hdim, if_pos]
  rw [List.any_eq_true]
  exact ⟨r, List.mem_range.2 hr, by rw [hd, hw]; rfl⟩

end Boxtree.FmmLib
