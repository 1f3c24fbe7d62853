import Verif.Lemmas.Stored
import Verif.Props.Leaves

/-!
# Level-restricted trees are balanced
-/

namespace Boxtree.Build

section
variable {P : Params} {skip : Bool} {len : Nat → Nat} {L : Nat} {s : State}

/-- Without extents, pruning does not turn boxes into leaves. -/
theorem FinOK.leaf_of_fin (h : FinOK P skip len L s) (hh : skip = true ∨ P.haveExtent = false)
    {l k : Nat} (hk : Kept skip s l k)
    (hl : ∀ m < P.nch, (fin P skip len L s).child m (nid skip len L s l k) = 0) : Leaf s l k := by
  refine ⟨hk.1, ?_⟩
  by_contra hc
  rw [Bool.not_eq_false] at hc
  obtain ⟨hsum, base, _, hb, hch⟩ := h.inv.children l k hc
  have hrem : ∀ m < P.nch, skip = false ∧ (s.bins l k).pcnt m = 0 := by
    intro m hm
    obtain ⟨h1, h2, h3, _⟩ := hch m hm
    have hnk : ¬ Kept skip s (l + 1) (base + m) := by
      intro hkc
      have h4 := hl m hm
      rw [h.fin_child_kept hk h1 hkc] at h4
      exact h.nid_ne_zero hkc h4
    unfold Kept at hnk
    rw [not_and, not_or, not_not] at hnk
    have := hnk (by omega)
    exact ⟨by simpa using this.1, by rw [← h3]; exact this.2⟩
  have hs := (hrem 0 (nch_pos P)).1
  have he : P.haveExtent = false := by
    rcases hh with hh | hh
    · rw [hh] at hs; cases hs
    · exact hh
  have hz : ((List.range P.nch).map (s.bins l k).pcnt).sum = 0 := by
    apply List.sum_eq_zero
    intro x hx
    obtain ⟨m, hm, rfl⟩ := List.mem_map.1 hx
    exact (hrem m (List.mem_range.1 hm)).2
  have hn : (s.bins l k).nonchild = s.count l k := by
    unfold Bins.total at hsum
    omega
  have hcount : s.count l k ≠ 0 := by
    rcases hk.2 with h1 | h1
    · rw [hs] at h1; cases h1
    · exact h1
  have hown : own s l k = s.count l k := by unfold own; rw [hc]; simpa using hn
  obtain ⟨hi, hbx⟩ := h.inv.own_mem (i := 0) hk.1 (by omega)
  have hst := h.inv.stay _ hi (by rw [hbx]; exact hc)
  exact h.moves he _ hi _ hst

end

/-- Leaves of the tree that touch are near leaves of the level loop's result. -/
theorem balanced {inp : Input} (ok : inp.OK) (hr : inp.levelRestrict = true) {t : Built}
    {L : Nat} {s : State}
    (e : t = finish inp.params inp.cloud inp.skipPrune (fun l => s.used l + inp.pad l) L s)
    (hf : FinOK inp.params inp.skipPrune (fun l => s.used l + inp.pad l) L s)
    (hs : buildLevels inp.params = .ok (L, s))
    (hadj : ∀ n, 1 ≤ n → n ≤ L + 1 → AdjOK inp.params n)
    (hh : inp.skipPrune = true ∨ inp.haveExtent = false) {b c : Nat}
    (hb : IsLeaf t.tree b) (hc : IsLeaf t.tree c) (ht : Touch t.tree b c) :
    t.tree.level c ≤ t.tree.level b + 1 := by
  subst e
  obtain ⟨l, k, hk, rfl⟩ := hf.exists_nid hb.1
  obtain ⟨l', k', hk', rfl⟩ := hf.exists_nid hc.1
  have hlb := hf.fin_level hk
  have hlc := hf.fin_level hk'
  have hA := hf.leaf_of_fin hh hk hb.2
  have hB := hf.leaf_of_fin hh hk' hc.2
  change (FinOK.fin _ _ _ _ _).level _ ≤ (FinOK.fin _ _ _ _ _).level _ + 1
  rw [hlb, hlc]
  refine buildLevels_balanced (Input.mortOK inp) ok.ext_pos hr hs hadj (fun _ => hf.inv.linked) hA hB ?_
  intro a ha
  have h1 := ht a ha
  have h2 : (finish inp.params inp.cloud inp.skipPrune (fun l => s.used l + inp.pad l) L s).tree.center
      (nid inp.skipPrune (fun l => s.used l + inp.pad l) L s l k) = s.center l k := hf.fin_center hk
  have h3 : (finish inp.params inp.cloud inp.skipPrune (fun l => s.used l + inp.pad l) L s).tree.center
      (nid inp.skipPrune (fun l => s.used l + inp.pad l) L s l' k') = s.center l' k' :=
    hf.fin_center hk'
  have h4 : ∀ i, (finish inp.params inp.cloud inp.skipPrune (fun l => s.used l + inp.pad l) L s).tree.rad i
      = radius inp.params i := by
    intro i
    unfold BoxTree.rad radius
    rw [Nat.add_comm]
    rfl
  have h5 : (finish inp.params inp.cloud inp.skipPrune (fun l => s.used l + inp.pad l) L s).tree.level
      (nid inp.skipPrune (fun l => s.used l + inp.pad l) L s l k) = l := hlb
  have h6 : (finish inp.params inp.cloud inp.skipPrune (fun l => s.used l + inp.pad l) L s).tree.level
      (nid inp.skipPrune (fun l => s.used l + inp.pad l) L s l' k') = l' := hlc
  rw [h2, h3, h4, h4, h5, h6] at h1
  have hm : 0 < min (radius inp.params l) (radius inp.params l') :=
    lt_min (radius_pos ok.ext_pos l) (radius_pos ok.ext_pos l')
  linarith

/-- The adjacency test of the level restriction kernel is right. -/
theorem Input.Fine.adjOK {inp : Input} (ok : inp.OK) {u M : ℚ} {N : Nat} (hF : inp.Fine u M N)
    {n : Nat} (hn : 1 ≤ n) (hnN : n ≤ N) : AdjOK inp.params n := by
  have hM : 0 < M := by
    have := hF.size 0 ok.dims_pos
    have h2 := abs_nonneg (inp.lo 0 + inp.ext 0 / 2)
    have h3 := ok.ext_pos
    linarith
  refine adjOK_of_fine (u := u) (M := M) hF.rounds ok.dims_pos ok.ext_pos (fun a ha => ?_)
    (fun a ha => ?_) hn ?_
  · show |inp.lo a + inp.ext a / 2| + inp.ext 0 ≤ M
    rw [ok.cube a ha]; exact hF.size a ha
  · show |rootCenterF inp.arith.fl (inp.lo a) (inp.ext a) - (inp.lo a + inp.ext a / 2)| ≤ _
    rw [ok.cube a ha]; exact rootCenterF_err hF.rounds (hF.size a ha) ok.ext_pos
  · exact fine_mono hF.rounds.u_nonneg hM.le ok.ext_pos.le hnN hF.fine

/-- **C27** for particles without extents, with rounding: in a level-restricted tree whose smallest
boxes are large compared with rounding errors, the levels of two leaves that touch differ by at most
one.  Missing for the whole property: particles with extents, for which it is false
(`C27_restricted_extent_unbalanced`), and tiny boxes. -/
theorem C27_rounded_two_to_one_partial (inp : Input) (ok : inp.OK) (hr : inp.levelRestrict = true)
    (he : inp.haveExtent = false) (t : Built) (h : inp.build = .ok t) {u M : ℚ}
    (hF : inp.Fine u M t.tree.nlevels) (b c : Nat)
    (hb : IsLeaf t.tree b) (hc : IsLeaf t.tree c) (ht : Touch t.tree b c) :
    t.tree.level c ≤ t.tree.level b + 1 ∧ t.tree.level b ≤ t.tree.level c + 1 := by
  obtain ⟨L, s, e, hf, hs⟩ := Input.build_fin ok (.inr he) h
  have hn : t.tree.nlevels = L + 1 := by rw [e]; rfl
  have hadj : ∀ n, 1 ≤ n → n ≤ L + 1 → AdjOK inp.params n := fun n h1 h2 =>
    hF.adjOK ok h1 (by omega)
  refine ⟨balanced ok hr e hf hs hadj (.inr he) hb hc ht,
    balanced ok hr e hf hs hadj (.inr he) hc hb ?_⟩
  intro a ha
  rw [abs_sub_comm, add_comm]
  exact ht a ha

/-- Without rounding of centers and distances all boxes are large enough. -/
theorem Input.fine_exact {inp : Input} (ok : inp.OK) (hx : inp.arith.fl = id) (N : Nat) :
    ∃ M, inp.Fine 0 M N := by
  refine ⟨((List.range inp.dims).map fun a => |inp.lo a + inp.ext 0 / 2|).sum + inp.ext 0,
    by rw [hx]; exact rounds_id, fun a ha => ?_, ?_⟩
  · have := List.single_le_sum (l := (List.range inp.dims).map fun a => |inp.lo a + inp.ext 0 / 2|)
      (by intro x hx; obtain ⟨a, _, rfl⟩ := List.mem_map.1 hx; exact abs_nonneg _)
      _ (List.mem_map.2 ⟨a, List.mem_range.2 ha, rfl⟩)
    linarith
  · rw [mul_zero, zero_mul]
    have := ok.ext_pos
    positivity

/-- **C27** for particles without extents: in a level-restricted tree, the levels of two leaves that
touch differ by at most one.  Missing for the whole property: particles with extents, for which it
is false (`C27_restricted_extent_unbalanced`).  Centers and distances of boxes are exact, see
`C27_rounded_two_to_one_partial`; Morton numbers need not be. -/
theorem C27_two_to_one_partial (inp : Input) (ok : inp.OK) (hx : inp.arith.fl = id)
    (hr : inp.levelRestrict = true)
    (he : inp.haveExtent = false) (t : Built) (h : inp.build = .ok t) (b c : Nat)
    (hb : IsLeaf t.tree b) (hc : IsLeaf t.tree c) (ht : Touch t.tree b c) :
    t.tree.level c ≤ t.tree.level b + 1 ∧ t.tree.level b ≤ t.tree.level c + 1 := by
  obtain ⟨M, hF⟩ := Input.fine_exact ok hx t.tree.nlevels
  exact C27_rounded_two_to_one_partial inp ok hr he t h hF b c hb hc ht

instance (t : BoxTree) (b c : Nat) : Decidable (Touch t b c) := by unfold Touch; infer_instance

instance (t : BoxTree) (b : Nat) : Decidable (IsLeaf t b) := by unfold IsLeaf; infer_instance

namespace Ex

/-- Two particles close to the middle of the line and one on the left: the left half is split only
to keep the balance. -/
def graded : Input where
  dims := 1
  n := 3
  sourcesAreTargets := true
  nsources := 3
  x := fun _ p => [11 / 20, 13 / 20, 1 / 10].getD p 0
  radius := fun _ => 0
  sourcesHaveExtent := false
  targetsHaveExtent := false
  l2 := false
  stickOut := 0
  weight := fun _ => 1
  maxWeight := 1
  adaptive := true
  levelRestrict := true
  nlevelsMax := 106
  lo := fun _ => 0
  ext := fun _ => 1
  skipPrune := true
  pad := fun _ => 2

theorem graded_placed : graded.Placed where
  dims_pos := by decide
  n_pos := by decide
  nsources_le := by decide
  separate := by decide
  ext_pos := by decide +kernel
  cube := by decide +kernel
  radius_nonneg := by decide +kernel
  lower := by decide +kernel
  upper := by decide +kernel
  off_upper := by decide +kernel

theorem graded_ok : graded.OK := graded_placed.toOK

end Ex

/-- The levels of the leaves in a tree that is restricted and in the tree of
the same particles that is not. -/
example : Ex.graded.OK ∧ Ex.graded.levelRestrict = true ∧ Ex.graded.haveExtent = false ∧
    Ex.look Ex.graded.build (fun t => ((List.range t.tree.nboxes).filter (IsLeaf t.tree ·)).map
      t.tree.level) = [2, 2, 2, 3, 3] ∧
    Ex.look { Ex.graded with levelRestrict := false }.build
      (fun t => ((List.range t.tree.nboxes).filter (IsLeaf t.tree ·)).map t.tree.level) = [1, 2, 3, 3] :=
  ⟨Ex.graded_ok, rfl, rfl, by decide +kernel⟩

/-- **C27** is false for particles with extents: box 1 (the left half, a leaf on level 1) touches
box 4, a leaf on level 3. -/
theorem C27_restricted_extent_unbalanced : ∃ inp : Input, inp.Placed ∧ inp.levelRestrict = true ∧
    ∃ t, inp.build = .ok t ∧ IsLeaf t.tree 1 ∧ IsLeaf t.tree 4 ∧ Touch t.tree 1 4 ∧
      t.tree.level 1 = 1 ∧ t.tree.level 4 = 3 := by
  refine ⟨Ex.stuck, ?_, rfl, ?_⟩
  · exact
    { dims_pos := by decide
      n_pos := by decide
      nsources_le := by decide
      separate := by decide
      ext_pos := by decide +kernel
      cube := by decide +kernel
      radius_nonneg := by decide +kernel
      lower := by decide +kernel
      upper := by decide +kernel
      off_upper := by decide +kernel }
  · apply Ex.look_true
    decide +kernel

end Boxtree.Build
