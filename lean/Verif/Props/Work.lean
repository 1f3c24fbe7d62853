import Verif.Spec.Work
import Verif.Lemmas.Work
import Verif.Props.Leaves

/-!
# C79: the work of an FMM is linear in the number of particles and boxes
-/

namespace Boxtree.Build
open BoxTree Cost

section
variable {inp : Input} {t : Built}

/-- With unit weights, a box holds at most `max_particles_in_box` sources of its own, and as many
targets. -/
theorem own_le_limit (ok : inp.OK) (hw : inp.WeightsOK) (ha : inp.adaptive = true)
    (he : inp.haveExtent = false) (hone : ∀ p < inp.n, inp.weight p = 1) (h : inp.build = .ok t) {b : Nat}
    (hb : b < t.tree.nboxes) :
    t.particles.srcCount b ≤ inp.maxWeight ∧ t.particles.tgtCount b ≤ inp.maxWeight := by
  obtain ⟨n1, n2⟩ := C20_nested_ranges_partial inp ok (.inr he) t h
  obtain ⟨e1, e2, p1, p2, _⟩ := C19_order_is_permutation inp ok t h
  have hns := ok.nsources_le
  have hcount : ∀ ps : List Nat, (∀ p ∈ ps, p < inp.n) → (ps.map inp.weight).sum = ps.length := by
    intro ps hps
    rw [List.map_congr_left (g := fun _ => 1) fun p hp => hone p (hps p hp)]
    simp
  constructor
  · rcases Nat.eq_zero_or_pos (t.particles.srcCount b) with h0 | h0
    · omega
    have hleaf := leaf_of_own ok he h hb (.inl h0)
    set ps := (span t.particles.srcStart t.particles.srcCount b).map t.particles.userSourceIds with hps
    have hlt : ∀ i ∈ span t.particles.srcStart t.particles.srcCount b, i < t.particles.nsources :=
      n1.owned_lt b hb
    have := C22_leaf_weight_points inp ok hw ha he t h b hb hleaf ps
      (List.Nodup.map_on (fun i hi j hj hij => p1.2.1 i (hlt i hi) j (hlt j hj) hij) List.nodup_range')
      (fun p hp => by
        obtain ⟨i, hi, rfl⟩ := List.mem_map.1 hp
        refine Or.inl ⟨i, ?_, rfl⟩
        rw [n1.nested b hb]
        exact List.mem_append_left _ hi)
    rw [hcount ps (fun p hp => by
      obtain ⟨i, hi, rfl⟩ := List.mem_map.1 hp
      have := p1.1 i (hlt i hi)
      rw [e1] at this
      split at this <;> omega), hps, List.length_map] at this
    simpa [span] using this
  · rcases Nat.eq_zero_or_pos (t.particles.tgtCount b) with h0 | h0
    · omega
    have hleaf := leaf_of_own ok he h hb (.inr h0)
    have hlt : ∀ i ∈ span t.particles.tgtStart t.particles.tgtCount b, i < t.particles.ntargets :=
      n2.owned_lt b hb
    have hinv : ∀ i : Nat, ∃ j, i < t.particles.ntargets → j < t.particles.ntargets ∧
        t.particles.sortedTargetIds j = i := by
      intro i
      by_cases hi : i < t.particles.ntargets
      · obtain ⟨j, hj, e⟩ := p2.2.2 i hi
        exact ⟨j, fun _ => ⟨hj, e⟩⟩
      · exact ⟨0, fun h => absurd h hi⟩
    choose inv hinv using hinv
    have hinj : ∀ j j', inp.targetNumber j = inp.targetNumber j' → j = j' := by
      intro j j' e
      unfold Input.targetNumber at e
      split at e <;> omega
    set ps := (span t.particles.tgtStart t.particles.tgtCount b).map
      fun i => inp.targetNumber (inv i) with hps
    have := C22_leaf_weight_points inp ok hw ha he t h b hb hleaf ps
      (List.Nodup.map_on (fun i hi j hj hij => by
        have e := hinj _ _ hij
        rw [← (hinv i (hlt i hi)).2, ← (hinv j (hlt j hj)).2, e]) List.nodup_range')
      (fun p hp => by
        obtain ⟨i, hi, rfl⟩ := List.mem_map.1 hp
        refine Or.inr ⟨inv i, (hinv i (hlt i hi)).1, rfl, ?_⟩
        rw [(hinv i (hlt i hi)).2, n2.nested b hb]
        exact List.mem_append_left _ hi)
    rw [hcount ps (fun p hp => by
      obtain ⟨i, hi, rfl⟩ := List.mem_map.1 hp
      have := (hinv i (hlt i hi)).1
      rw [e2] at this
      unfold Input.targetNumber
      split at this <;> rename_i hh <;> simp only [hh] <;> simp <;> omega), hps, List.length_map] at this
    simpa [span] using this

end

section
variable {K : Type} [CommSemiring K] [PartialOrder K] [IsOrderedRing K]

variable {c : Call} {ns nt : Nat} {dtype : String} {t : Built} {tin : TravInput} {trav : Traversal}

/-- **C79**, stages: for a tree of points with at most `m` particles in a box, and operations that cost
at most `C` each, the costs of the stages are at most `C` times these numbers of operations. -/
theorem C79_stages (hd : c.Documented ns nt dtype) (hw : c.SomeWeight) (hsl : c.SmallLimit)
    (hr : c.args.sourceRadii = none ∧ c.args.targetRadii = none) (hk : c.args.kind ≠ "non-adaptive")
    {m : ℚ} (hm : c.args.maxParticlesInBox = some m)
    (h : c.run = .ok t) (hi : CallTrav c t tin) (he : tin.targetsHaveExtent = false)
    (ht : buildTraversal tin = .ok trav) {f : Factors K} {C : K} (hf : AtMost f C) :
    let s := perStage t.tree t.particles.toParticles trav t.particles.tgtCount f
    let M := ⌊m⌋.toNat
    let B := t.tree.nboxes
    let d := t.tree.dims
    let n := tin.nAway
    s.formMultipoles ≤ (t.particles.nsources : K) * C ∧
    s.coarsenMultipoles ≤ (B : K) * C ∧
    s.evalDirect ≤ ((M ^ 2 * (2 * 3 ^ d * B) : Nat) : K) * C ∧
    s.multipoleToLocal ≤ ((((4 * n + 2) ^ d - (2 * n + 1) ^ d) * B : Nat) : K) * C ∧
    s.evalMultipoles ≤ ((M * ((2 * n + 1) ^ d * B) : Nat) : K) * C ∧
    s.formLocals ≤ ((M * (((2 * n + 2) ^ d - 3 ^ d) * B) : Nat) : K) * C ∧
    s.refineLocals ≤ (B : K) * C ∧
    s.evalLocals ≤ (t.particles.ntargets : K) * C := by
  obtain ⟨inp, h1, ok, hwt, hin⟩ := C56_documented_call c ns nt dtype hd hw
  rw [h1] at h
  have hne : inp.haveExtent = false := by
    unfold Input.haveExtent
    rw [hin.sourcesHaveExtent, hin.targetsHaveExtent, hr.1, hr.2]
    rfl
  have had : inp.adaptive = true := by
    cases ha : inp.adaptive
    · exact absurd (hin.adaptive.1 ha) hk
    · rfl
  obtain ⟨hmw, hone⟩ := hin.maxParticles m hm
  have hto : TravOf inp t tin := ⟨hi.tree, by rw [hi.sourcesAreTargets, hin.sourcesAreTargets],
    hi.nAway, hi.stickOut, hi.eps, hi.noMask, hi.noParentMask, hi.tests⟩
  have tok := hto.ok ok h
  obtain ⟨l1, l2⟩ := leaves_only ok hne h hto ht
  have hlev : tin.tree.LevelsOK := by rw [hi.tree]; exact (C52_built_tree_wf inp ok t h).2.1
  have F := travFields ht
  obtain ⟨n1, n2⟩ := C20_nested_ranges_partial inp ok (.inr hne) t h
  have hown := fun b hb => own_le_limit ok (hwt hsl) had hne (by rw [hin.n]; exact hone) h (b := b) hb
  have hbs : BoxListOK tin.tree trav.sourceBoxes := by rw [F.sourceBoxes]; exact boxListOK_of _ _
  have key := stage_bounds tok hlev ht he l1 l2 t.particles.toParticles t.particles.tgtCount
    (m := inp.maxWeight) (ns := t.particles.nsources) (nt := t.particles.ntargets)
    (fun b hb _ => (hown b (by rw [← hi.tree]; exact hb)).1)
    (fun b hb => (hown b (by rw [← hi.tree]; exact F.target_lt hb)).2)
    (sum_own_le n1 (hbs.sorted.imp fun h => Nat.ne_of_lt h) fun b hb => by
      rw [← hi.tree]; exact hbs.lt b hb)
    (sum_own_le n2 F.nodup_target fun b hb => by rw [← hi.tree]; exact F.target_lt hb)
    hf.nonneg hf.p2m hf.m2m hf.p2p hf.m2l hf.m2p hf.p2l hf.l2l hf.l2p
  rw [hmw, hi.tree] at key
  exact key

/-- **C79.** The cost of all stages of an FMM is at most a constant times the number of particles plus
the number of boxes, however the particles are distributed; the constant depends only on the dimension,
the well-separatedness parameter, the limit of particles in a box and the cost of the most expensive
operation.  For a pruned tree the number of boxes is at most the number of particles times that of
levels. -/
theorem C79_linear_work (hd : c.Documented ns nt dtype) (hw : c.SomeWeight) (hsl : c.SmallLimit)
    (hr : c.args.sourceRadii = none ∧ c.args.targetRadii = none) (hk : c.args.kind ≠ "non-adaptive")
    {m : ℚ} (hm : c.args.maxParticlesInBox = some m)
    (h : c.run = .ok t) (hi : CallTrav c t tin) (he : tin.targetsHaveExtent = false)
    (ht : buildTraversal tin = .ok trav) {f : Factors K} {C : K} (hf : AtMost f C) :
    total (perStage t.tree t.particles.toParticles trav t.particles.tgtCount f) ≤
      ((t.particles.nsources + t.particles.ntargets +
        (2 + (4 * tin.nAway + 2) ^ t.tree.dims
          + ⌊m⌋.toNat * ((2 * tin.nAway + 1) ^ t.tree.dims + (2 * tin.nAway + 2) ^ t.tree.dims)
          + ⌊m⌋.toNat ^ 2 * (2 * 3 ^ t.tree.dims)) * t.tree.nboxes : Nat) : K) * C ∧
    (c.skipPrune = false → t.tree.nboxes ≤ t.tree.nlevels * (ns + nt)) := by
  refine ⟨?_, fun hs => (C72_list_entries hd hw hr hs h hi he ht).1⟩
  obtain ⟨b1, b2, b3, b4, b5, b6, b7, b8⟩ := C79_stages hd hw hsl hr hk hm h hi he ht hf
  unfold total
  refine (add_le_add (add_le_add (add_le_add (add_le_add (add_le_add (add_le_add (add_le_add b1 b2) b3)
    b4) b5) b6) b7) b8).trans ?_
  simp only [← add_mul, ← Nat.cast_add]
  refine mul_le_mul_of_nonneg_right (Nat.mono_cast ?_) hf.nonneg
  set B := t.tree.nboxes
  set M := ⌊m⌋.toNat
  have x1 : ((4 * tin.nAway + 2) ^ t.tree.dims - (2 * tin.nAway + 1) ^ t.tree.dims) * B ≤
    (4 * tin.nAway + 2) ^ t.tree.dims * B := Nat.mul_le_mul_right _ (Nat.sub_le _ _)
  have x2 : M * (((2 * tin.nAway + 2) ^ t.tree.dims - 3 ^ t.tree.dims) * B) ≤
    M * ((2 * tin.nAway + 2) ^ t.tree.dims * B) :=
    Nat.mul_le_mul_left _ (Nat.mul_le_mul_right _ (Nat.sub_le _ _))
  nlinarith [x1, x2]

end

namespace Ex

/-- Every operation costs one. -/
def unitFactors : Factors ℕ :=
  ⟨fun _ => 1, fun _ => 1, 1, fun _ => 1, fun _ => 1, fun _ => 1, fun _ => 1, fun _ => 1⟩

end Ex

/-- The hypotheses hold for eight evenly spaced particles, at most one per box.  With a cost of one for
each operation, the FMM costs 84; the bound is 331. -/
example : Ex.evenly.Documented 8 0 "float64" ∧ Ex.evenly.SomeWeight ∧ Ex.evenly.SmallLimit ∧
    Ex.evenly.args.sourceRadii = none ∧ Ex.evenly.args.targetRadii = none ∧
    Ex.evenly.args.kind ≠ "non-adaptive" ∧ Ex.evenly.args.maxParticlesInBox = some 1 ∧
    AtMost Ex.unitFactors 1 ∧
    ∃ t trav, Ex.evenly.run = .ok t ∧ CallTrav Ex.evenly t (Ex.travOf 53 t) ∧
      (Ex.travOf 53 t).targetsHaveExtent = false ∧
      buildTraversal (Ex.travOf 53 t) = .ok trav ∧ t.tree.nlevels = 4 ∧
      total (perStage t.tree t.particles.toParticles trav t.particles.tgtCount Ex.unitFactors) = 84 ∧
      t.particles.nsources + t.particles.ntargets +
        (2 + (4 * 1 + 2) ^ t.tree.dims + 1 * ((2 * 1 + 1) ^ t.tree.dims + (2 * 1 + 2) ^ t.tree.dims)
          + 1 ^ 2 * (2 * 3 ^ t.tree.dims)) * t.tree.nboxes = 331 := by
  have key : Ex.look Ex.evenly.run (fun t => [match buildTraversal (Ex.travOf 53 t) with
      | .ok trav => decide (t.tree.nlevels = 4 ∧
          total (perStage t.tree t.particles.toParticles trav t.particles.tgtCount Ex.unitFactors) = 84 ∧
          t.particles.nsources + t.particles.ntargets +
            (2 + (4 * 1 + 2) ^ t.tree.dims +
              1 * ((2 * 1 + 1) ^ t.tree.dims + (2 * 1 + 2) ^ t.tree.dims)
              + 1 ^ 2 * (2 * 3 ^ t.tree.dims)) * t.tree.nboxes = 331)
      | .error _ => false]) = [true] := by decide +kernel
  unfold Ex.look at key
  split at key
  · rename_i t ht
    simp only [List.cons.injEq, and_true] at key
    split at key
    · rename_i trav htr
      have hall := of_decide_eq_true key
      have hfl : Rounds Ex.evenly.arith.fl (1 / 2 ^ 53) := roundEven_rounds (by decide)
      have hl : t.LargeBoxes (1 / 2 ^ 53) (5 * 7) 1 :=
        C71_large_boxes Ex.evenly_documented (Or.inl (by decide)) ht hfl rfl (W := 7)
          (by decide +kernel) ⟨0, by decide, 7, by decide, 0, by decide, by decide +kernel⟩
          (by norm_num) (by norm_num) 1 (by rw [hall.1]; norm_num)
      refine ⟨Ex.evenly_documented, Or.inl (by decide), ⟨?_, ?_⟩, rfl, rfl, by decide, rfl, ?_, t, trav,
        ht, C71_traversal_ok Ex.evenly_documented (Or.inl (by decide)) ht (Ex.evenly_travOf t) hfl hl,
        rfl, htr, hall⟩
      · intro m hm
        cases hm
        norm_num
      · intro m hm
        cases hm
      · constructor <;> first | exact zero_le_one | exact fun _ => le_refl _ | exact le_refl _
    · cases key
  · cases key

end Boxtree.Build
