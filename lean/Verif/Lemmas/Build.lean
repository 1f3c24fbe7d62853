import Verif.Lemmas.Morton
import Verif.Lemmas.FinishTree
import Verif.Lemmas.Tree

/-! Facts about the result of the tree builder. -/

namespace Boxtree.Build

theorem isPerm_of_inj {n : Nat} {f : Nat → Nat} (h1 : ∀ i < n, f i < n)
    (h2 : ∀ i < n, ∀ j < n, f i = f j → i = j) : IsPerm n f :=
  ⟨h1, h2, fun _ hj => perm_surj h1 h2 hj⟩

section
variable {P : Params} {C : Cloud} {skip : Bool} {len : Nat → Nat} {L : Nat} {s : State}

/-! ### Orders of the particles -/

theorem finish_order (h : FinOK P skip len L s)
    (hns : C.sourcesAreTargets = false → C.nsources ≤ P.n) :
    IsPerm (finish P C skip len L s).particles.nsources
      (finish P C skip len L s).particles.userSourceIds ∧
    IsPerm (finish P C skip len L s).particles.ntargets
      (finish P C skip len L s).particles.sortedTargetIds ∧
    ∀ j < (finish P C skip len L s).particles.ntargets,
      (∀ a, (finish P C skip len L s).targets a
        ((finish P C skip len L s).particles.sortedTargetIds j) = C.x a (C.firstTarget + j)) ∧
      (finish P C skip len L s).targetRadii
        ((finish P C skip len L s).particles.sortedTargetIds j)
        = if C.targetsHaveExtent then C.radius (C.firstTarget + j) else 0 := by
  have hok := finish_particles h hns
  refine ⟨isPerm_of_inj hok.user_lt hok.user_inj, isPerm_of_inj hok.sorted_lt ?_, ?_⟩
  · intro j hj j' hj' he
    obtain ⟨i, hi, hk, e⟩ := exists_target h hns hj
    obtain ⟨i', hi', hk', e'⟩ := exists_target h hns hj'
    have h1 := (sortedIds_eq h hi hk).2
    have h1' := (sortedIds_eq h hi' hk').2
    rw [e, Nat.add_sub_cancel_left] at h1
    rw [e', Nat.add_sub_cancel_left] at h1'
    rw [h1, h1'] at he
    have := count_inj hk hk' he
    subst this
    omega
  · intro j hj
    obtain ⟨i, hi, hk, e⟩ := exists_target h hns hj
    have h1 := (sortedIds_eq h hi hk).2
    rw [e, Nat.add_sub_cancel_left] at h1
    rw [h1]
    have h2 := targetIds_eq hi hk
    constructor
    · intro a
      show C.x a ((if C.sourcesAreTargets then s.ids else srcntgtTargetIds P.n C.nsources s.ids) _)
        = _
      rw [h2, e]
    · show (if C.targetsHaveExtent then
        C.radius ((if C.sourcesAreTargets then s.ids else srcntgtTargetIds P.n C.nsources s.ids) _)
        else 0) = _
      rw [h2, e]

/-! ### Ranges -/

theorem KindOK.nested {F : Flat} {kind : Nat → Prop} [DecidablePred kind] {st non cu : Nat → Nat}
    (hK : KindOK F kind st non cu) (hF : FlatOK P L F) {t : BoxTree} (hd : t.dims = P.dims)
    (hn : t.nboxes = F.nboxes) (hc : t.child = F.child) (hpos : 0 < P.n) :
    NestedRanges t (Nat.count kind P.n) st non cu where
  root := by
    unfold span
    have h0 : 0 < F.count 0 := by rw [hF.root_count]; exact hpos
    rw [hK.st_eq 0 hF.pos h0, hK.cu_eq 0 hF.pos h0, hF.root_start, hF.root_count, Nat.zero_add,
      Nat.count_zero, Nat.sub_zero, List.range_eq_range']
  nested := by
    intro b hb
    rw [hn] at hb
    rw [hc]
    rcases Nat.eq_zero_or_pos (F.count b) with h0 | h0
    · obtain ⟨e1, e2⟩ := hK.zero b hb h0
      unfold span
      rw [e1, e2]
      simp only [List.range'_zero, List.nil_append]
      symm
      rw [List.flatMap_eq_nil_iff]
      intro m _
      split
      · rfl
      · rename_i hne
        have hcl := hF.child_lt m b hb
        obtain ⟨hp, hm, hh⟩ := hF.child_parent m b hb hne
        have : F.count (F.child m b) = 0 := by
          by_contra hcp
          have := (hF.range hcl hne (Nat.pos_of_ne_zero hcp)).2.2
          rw [hp] at this
          omega
        rw [(hK.zero _ hcl this).2, List.range'_zero]
    · have hone : ∀ m, (if F.child m b = 0 then [] else span st cu (F.child m b)) =
          List.range' (Nat.count kind (F.start b + fown F b + ((List.range m).map (childCount F b)).sum))
            (Nat.count kind (F.start b + fown F b + ((List.range (m + 1)).map (childCount F b)).sum)
              - Nat.count kind (F.start b + fown F b + ((List.range m).map (childCount F b)).sum)) := by
        intro m
        rw [sum_range_succ]
        unfold childCount
        split
        · simp
        · rename_i hne
          have hcl := hF.child_lt m b hb
          rcases Nat.eq_zero_or_pos (F.count (F.child m b)) with hc0 | hc0
          · unfold span
            rw [(hK.zero _ hcl hc0).2, hc0]
            simp
          · have := hF.consecutive m b hb hne hc0
            unfold span
            rw [hK.st_eq _ hcl hc0, hK.cu_eq _ hcl hc0, this, ← Nat.add_assoc]
            rfl
      have hall : ∀ M, ((List.range M).flatMap fun m =>
          if F.child m b = 0 then [] else span st cu (F.child m b)) =
          List.range' (Nat.count kind (F.start b + fown F b))
            (Nat.count kind (F.start b + fown F b + ((List.range M).map (childCount F b)).sum)
              - Nat.count kind (F.start b + fown F b)) := by
        intro M
        induction M with
        | zero => simp
        | succ M ih =>
          rw [List.range_succ, List.flatMap_append, ih, List.flatMap_singleton, hone, ← List.range_succ]
          have m1 := count_mono (kind := kind) (show F.start b + fown F b ≤
            F.start b + fown F b + ((List.range M).map (childCount F b)).sum by omega)
          have m2 := count_mono (kind := kind) (show
            F.start b + fown F b + ((List.range M).map (childCount F b)).sum ≤
            F.start b + fown F b + ((List.range (M + 1)).map (childCount F b)).sum by
              rw [sum_range_succ]; omega)
          generalize Nat.count kind (F.start b + fown F b) = A at *
          generalize Nat.count kind
            (F.start b + fown F b + ((List.range M).map (childCount F b)).sum) = B at *
          generalize Nat.count kind
            (F.start b + fown F b + ((List.range (M + 1)).map (childCount F b)).sum) = D at *
          rw [show B = A + 1 * (B - A) by omega, show A + 1 * (B - A) - A = B - A by omega,
            List.range'_append]
          congr 1
          omega
      rw [show t.nch = P.nch by unfold BoxTree.nch Params.nch; rw [hd], hall P.nch]
      unfold span
      have hown := hF.own_le hb
      have e1 := hK.st_non hb h0
      have e2 := hK.st_cu hb h0
      have htot : F.start b + fown F b + ((List.range P.nch).map (childCount F b)).sum
          = F.start b + F.count b := by
        cases hh : F.hasCh b with
        | true => have := hF.total b hb hh; omega
        | false =>
          have hz : ((List.range P.nch).map (childCount F b)).sum = 0 := by
            apply List.sum_eq_zero
            intro v hv
            obtain ⟨m, _, rfl⟩ := List.mem_map.1 hv
            unfold childCount
            split
            · rfl
            · rename_i hne
              have := (hF.child_parent m b hb hne).2.2
              rw [hh] at this; cases this
          have : fown F b = F.count b := by unfold fown; rw [hh]; rfl
          omega
      rw [htot, ← e1, ← e2]
      have := hK.non_le hF hb
      have h3 := List.range'_append (s := st b) (m := non b) (n := cu b - non b) (step := 1)
      rw [Nat.one_mul] at h3
      rw [show st b + cu b - (st b + non b) = cu b - non b by omega, h3]
      congr 1
      omega
  partition := by
    intro i hi
    rw [hn]
    obtain ⟨b, hb, h1, h2⟩ := hK.cover hF hi
    refine ⟨b, hb, by unfold span; rw [List.mem_range'_1]; omega, fun b' hb' hi' => ?_⟩
    unfold span at hi'
    rw [List.mem_range'_1] at hi'
    exact hK.disjoint hF hb' hb hi'.1 hi'.2 h1 h2
  owned_lt := by
    intro b hb i hi
    rw [hn] at hb
    unfold span at hi
    rw [List.mem_range'_1] at hi
    have := hK.within hF hb (hK.non_pos_count hb (by omega))
    have := hK.non_le hF hb
    omega

/-! ### Boxes of a particle -/

/-- A particle in the range of a box belongs into all boxes down to this one. -/
theorem FinOK.path_of_mem (h : FinOK P skip len L s) {b q : Nat}
    (hb : b < (fin P skip len L s).nboxes) (hq : q < P.n)
    (h1 : (fin P skip len L s).start b ≤ q)
    (h2 : q < (fin P skip len L s).start b + (fin P skip len L s).count b) :
    ∃ l k, Kept skip s l k ∧ nid skip len L s l k = b ∧ PathOK P s.parent (s.ids q) l k := by
  have hF := h.flatOK
  obtain ⟨hle, hanc⟩ := hF.owner_below (L + 1) b q (by omega) hb h1 h2
  have key : ∀ j, j ≤ (fin P skip len L s).level ((fin P skip len L s).pbox q) →
      ∃ l k, Kept skip s l k ∧ nid skip len L s l k
        = (fin P skip len L s).parent^[j] ((fin P skip len L s).pbox q) ∧
        l + j = (fin P skip len L s).level ((fin P skip len L s).pbox q) ∧
        PathOK P s.parent (s.ids q) l k := by
    intro j
    induction j with
    | zero =>
      intro _
      have hk : Kept skip s (s.box q).1 (s.box q).2 := h.kept_box hq
      have e := h.fin_pbox hq
      refine ⟨_, _, hk, e.symm, ?_, h.inv.path q hq⟩
      rw [e, h.fin_level hk]; rfl
    | succ j ih =>
      intro hj
      obtain ⟨l, k, hk, e, el, hpath⟩ := ih (by omega)
      cases l with
      | zero => omega
      | succ l =>
        refine ⟨l, s.parent (l + 1) k, h.kept_parent hk, ?_, by omega, hpath.2⟩
        rw [Function.iterate_succ_apply', ← e, h.fin_parent hk]
  obtain ⟨l, k, hk, e, _, hpath⟩ := key _ (Nat.sub_le _ _)
  exact ⟨l, k, hk, e.trans hanc, hpath⟩

end

/-! ### Marks of boxes as having children -/

theorem climb_hasCh (F : Flat) (h : Nat → Bool) (cond : Nat → Bool) : ∀ fuel b,
    climb { F with hasCh := h } cond fuel b = climb F cond fuel b := by
  intro fuel
  induction fuel with
  | zero => intro b; rfl
  | succ fuel ih =>
    intro b
    unfold climb
    simp only [ih]

theorem startBoxes_hasCh (F : Flat) (h : Nat → Bool) :
    startBoxes { F with hasCh := h } = startBoxes F := funext fun _ => climb_hasCh F h _ _ _

theorem endBoxes_hasCh (F : Flat) (h : Nat → Bool) :
    endBoxes { F with hasCh := h } = endBoxes F := funext fun _ => climb_hasCh F h _ _ _

theorem boxStarts_hasCh (F : Flat) (h : Nat → Bool) (n ns : Nat) (ids : Nat → Nat) (src : Bool) :
    boxStarts { F with hasCh := h } n ns ids src = boxStarts F n ns ids src := by
  unfold boxStarts
  rw [startBoxes_hasCh]

theorem boxCounts_hasCh (F : Flat) (h : Nat → Bool) (n ns : Nat) (ids : Nat → Nat) (src : Bool) :
    boxCounts { F with hasCh := h } n ns ids src = boxCounts F n ns ids src := by
  unfold boxCounts
  rw [endBoxes_hasCh]
  rfl

/-- Marking boxes changes flags, counts of own particles and bounding boxes only. -/
theorem finish_hasCh {P : Params} (C : Cloud) (skip : Bool) (len : Nat → Nat) (L : Nat) (s : State)
    (h : Nat → Nat → Bool) (o : Bool) :
    (finish P C skip len L { s with hasCh := h, oversize := o }).particles.srcStart
      = (finish P C skip len L s).particles.srcStart ∧
    (finish P C skip len L { s with hasCh := h, oversize := o }).particles.tgtStart
      = (finish P C skip len L s).particles.tgtStart ∧
    (finish P C skip len L { s with hasCh := h, oversize := o }).particles.srcCumul
      = (finish P C skip len L s).particles.srcCumul ∧
    (finish P C skip len L { s with hasCh := h, oversize := o }).particles.tgtCumul
      = (finish P C skip len L s).particles.tgtCumul := by
  have e : ∀ src, boxStarts (prune (keeps skip len L { s with hasCh := h, oversize := o })
        (flatten P len L { s with hasCh := h, oversize := o })) P.n C.nsources s.ids src
      = boxStarts (prune (keeps skip len L s) (flatten P len L s)) P.n C.nsources s.ids src :=
    fun src => boxStarts_hasCh (prune (keeps skip len L s) (flatten P len L s)) _ _ _ _ _
  have e' : ∀ src, boxCounts (prune (keeps skip len L { s with hasCh := h, oversize := o })
        (flatten P len L { s with hasCh := h, oversize := o })) P.n C.nsources s.ids src
      = boxCounts (prune (keeps skip len L s) (flatten P len L s)) P.n C.nsources s.ids src :=
    fun src => boxCounts_hasCh (prune (keeps skip len L s) (flatten P len L s)) _ _ _ _ _
  unfold finish finishFlat
  simp only [e, e']
  exact ⟨rfl, rfl, rfl, rfl⟩

/-! ### The builder -/

namespace Input
variable {inp : Input} {t : Built}

theorem build_of_levels {L : Nat} {s : State} (h : buildLevels inp.params = .ok (L, s)) :
    inp.build =
      .ok (finish inp.params inp.cloud inp.skipPrune (fun l => s.used l + inp.pad l) L s) := by
  unfold build
  rw [h]

/-- The tree is made from a state of the level loop, up to marks of boxes as having children in
the level-restricted builder with extents. -/
theorem build_cases (ok : inp.OK) (h : inp.build = .ok t) :
    ∃ L s hc o, t = finish inp.params inp.cloud inp.skipPrune (fun l => s.used l + inp.pad l) L s ∧
      FinOK inp.params inp.skipPrune (fun l => s.used l + inp.pad l) L
        { s with hasCh := hc, oversize := o } ∧
      (∀ l k, hc l k = true → s.hasCh l k = true) ∧ buildLevels inp.params = .ok (L, s) ∧
      (inp.Regular → { s with hasCh := hc, oversize := o } = s) := by
  unfold build at h
  split at h
  · cases h
  · rename_i L s hs
    have hfin : ∀ s', Inv inp.params (L + 1) s' → s'.used = s.used →
        FinOK inp.params inp.skipPrune (fun l => s.used l + inp.pad l) L s' := fun s' hi hu =>
      { inv := hi
        len_ge := fun l _ => by rw [hu]; omega
        moves := fun he i _ l => morton_moves he _ _
        root := fun _ => ok.n_pos }
    rcases buildLevels_cases (mortOK inp) hs with hi | ⟨hl, he, hn, hc, o, hi, hle⟩
    · exact ⟨L, s, s.hasCh, s.oversize, (Except.ok.inj h).symm, hfin s hi rfl, fun _ _ h => h, hs,
        fun _ => rfl⟩
    · refine ⟨L, s, hc, o, (Except.ok.inj h).symm, hfin _ hi rfl, hle, hs, fun hr => ?_⟩
      rcases hr with h3 | h3
      · exact absurd hl (by show ¬ inp.levelRestrict = true; rw [h3]; simp)
      · exact absurd he (by show ¬ inp.haveExtent = true; rw [h3]; simp)

theorem build_fin (ok : inp.OK) (hr : inp.Regular) (h : inp.build = .ok t) :
    ∃ L s, t = finish inp.params inp.cloud inp.skipPrune (fun l => s.used l + inp.pad l) L s ∧
      FinOK inp.params inp.skipPrune (fun l => s.used l + inp.pad l) L s ∧
      buildLevels inp.params = .ok (L, s) := by
  obtain ⟨L, s, hc, o, e, hf, _, hs, hreg⟩ := build_cases ok h
  rw [hreg hr] at hf
  exact ⟨L, s, e, hf, hs⟩

end Input
end Boxtree.Build
