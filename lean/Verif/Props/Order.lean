import Verif.Lemmas.OrderFin
import Verif.Props.BuildCall
import Verif.Props.TreeBuild
import Verif.Spec.Order

/-!
# C73: the tree does not depend on the order of the particles
-/

namespace Boxtree.Build

theorem Input.reorder_params (inp : Input) (f : Nat → Nat) :
    (inp.reorder f).params = inp.params.reorder f := rfl

theorem Input.reorder_cloud (inp : Input) (f : Nat → Nat) :
    (inp.reorder f).cloud = inp.cloud.reorder f := rfl

theorem Input.OK.reorder {inp : Input} (ok : inp.OK) {f : Nat → Nat} (hf : IsPerm inp.n f) :
    (inp.reorder f).OK where
  dims_pos := ok.dims_pos
  n_pos := ok.n_pos
  nsources_le := ok.nsources_le
  separate := ok.separate
  ext_pos := ok.ext_pos
  cube := ok.cube
  radius_nonneg := fun p hp => ok.radius_nonneg (f p) (hf.1 p hp)

/-- The level loop with the particles in another order. -/
theorem Input.reorder_levels (inp : Input) (hw : ∀ p < inp.n, inp.weight p ≤ 2 ^ 31 - 1)
    {f : Nat → Nat} (hf : IsPerm inp.n f) :
    SameResult (buildLevels inp.params) (buildLevels (inp.reorder f).params) := by
  rw [Input.reorder_params]
  exact buildLevels_reorder (mortOK inp) hw hf

/-- **C73.** The tree does not depend on the order in which the particles are given: with the
particles in another order (sources still before targets) the builder returns the same boxes, with the
same parents, children, levels, centers, flags and bounding boxes, and each source and target in the
same boxes, and raises an exception only if it did before, the same one.  With any rounding.
Partial: without the level-restricted builder with extents, for which it is false
(`C73_restricted_extent_order`). -/
theorem C73_order_partial (inp : Input) (ok : inp.OK) (hr : inp.Regular)
    (hw : ∀ p < inp.n, inp.weight p ≤ 2 ^ 31 - 1) (f : Nat → Nat)
    (hf : Reorders inp.n inp.sourcesAreTargets inp.nsources f) :
    (∀ t, inp.build = .ok t → ∃ t', (inp.reorder f).build = .ok t' ∧ SameUpToOrder inp f t t') ∧
    ∀ e, inp.build = .error e → (inp.reorder f).build = .error e := by
  have hs := inp.reorder_levels hw hf.1
  constructor
  · intro t h
    obtain ⟨L, s, rfl, hfin, hl⟩ := Input.build_fin ok hr h
    rw [hl] at hs
    match hl' : buildLevels (inp.reorder f).params with
    | .error e => rw [hl'] at hs; exact hs.elim
    | .ok (L', s') =>
      rw [hl'] at hs
      obtain ⟨rfl, hsame⟩ := hs
      have hb := Input.build_of_levels hl'
      obtain ⟨L₂, s₂, e₂, hfin', hl₂⟩ := Input.build_fin (ok.reorder hf.1) hr hb
      rw [hl'] at hl₂
      cases hl₂
      have hlen : (fun l => s'.used l + (inp.reorder f).pad l) = fun l => s.used l + inp.pad l := by
        rw [hsame]; rfl
      rw [hlen] at hfin' hb
      have hR : Reord inp.params f inp.skipPrune (fun l => s.used l + inp.pad l) L' s s' :=
        { perm := hf.1, fin := hfin, fin' := hfin', same := hsame }
      have hk : Reord.Kinds inp.cloud inp.params.n f := hf.2
      have hns : inp.cloud.sourcesAreTargets = false → inp.cloud.nsources ≤ inp.params.n :=
        fun _ => ok.nsources_le
      obtain ⟨b1, b2, b3, b4, b5, b6⟩ := hR.boxes_eq hk
      refine ⟨_, hb, ?_⟩
      have e1 := hR.srcStart_eq hk
      have e2 := hR.srcCount_eq hk
      have e3 := hR.srcCumul_eq hk
      have e4 := hR.tgtStart_eq hk
      have e5 := hR.tgtCount_eq hk
      have e6 := hR.tgtCumul_eq hk
      change (finish (inp.reorder f).params (inp.reorder f).cloud (inp.reorder f).skipPrune _ L' s').particles.srcStart = _ at e1
      change (finish (inp.reorder f).params (inp.reorder f).cloud (inp.reorder f).skipPrune _ L' s').particles.srcCount = _ at e2
      change (finish (inp.reorder f).params (inp.reorder f).cloud (inp.reorder f).skipPrune _ L' s').particles.srcCumul = _ at e3
      change (finish (inp.reorder f).params (inp.reorder f).cloud (inp.reorder f).skipPrune _ L' s').particles.tgtStart = _ at e4
      change (finish (inp.reorder f).params (inp.reorder f).cloud (inp.reorder f).skipPrune _ L' s').particles.tgtCount = _ at e5
      change (finish (inp.reorder f).params (inp.reorder f).cloud (inp.reorder f).skipPrune _ L' s').particles.tgtCumul = _ at e6
      have ht : ∀ j, inp.cloud.firstTarget + j = inp.targetNumber j := by
        intro j
        unfold Cloud.firstTarget Input.targetNumber
        show (if inp.sourcesAreTargets then 0 else inp.nsources) + j = _
        split <;> simp
      exact
        { tree := hR.tree_eq hk
          stored := hR.stored_eq
          srcMin := b1
          srcMax := b2
          srcMinF := b3
          srcMaxF := b4
          tgtMinF := b5
          tgtMaxF := b6
          nsources := rfl
          ntargets := rfl
          srcStart := e1
          srcCount := e2
          srcCumul := e3
          tgtStart := e4
          tgtCount := e5
          tgtCumul := e6
          sources := by
            intro i hi i' hi' e b hb
            have := hR.sources_eq hk hns hi hi' e hb
            simp only [e1, e2, e3]
            exact this
          targets := by
            intro j hj j' hj' e b hb
            rw [← ht, ← ht] at e
            have := hR.targets_eq hk hns hj hj' e hb
            simp only [e4, e5, e6]
            exact this }
  · intro e h
    unfold Input.build at h ⊢
    match hl : buildLevels inp.params with
    | .ok (L, s) => rw [hl] at h; cases h
    | .error e₁ =>
      rw [hl] at h hs
      cases h
      match hl' : buildLevels (inp.reorder f).params with
      | .ok _ => rw [hl'] at hs; exact hs.elim
      | .error e₂ => rw [hl'] at hs; cases hs; rfl

/-- **C73**, the boxes, for every kind of tree: with the particles in another order the builder returns
the same boxes with the same parents, children, levels and centers, or raises the same exception. -/
theorem C73_boxes (inp : Input) (hw : ∀ p < inp.n, inp.weight p ≤ 2 ^ 31 - 1) (f : Nat → Nat)
    (hf : IsPerm inp.n f) :
    (∀ t, inp.build = .ok t → ∃ t', (inp.reorder f).build = .ok t' ∧ t'.stored = t.stored ∧
      t'.tree = { t.tree with
        flags := t'.tree.flags, srcCountCumul := t'.tree.srcCountCumul,
        tgtMin := t'.tree.tgtMin, tgtMax := t'.tree.tgtMax }) ∧
    ∀ e, inp.build = .error e → (inp.reorder f).build = .error e := by
  have hs := inp.reorder_levels hw hf
  constructor
  · intro t h
    unfold Input.build at h
    match hl : buildLevels inp.params with
    | .error e => rw [hl] at h; cases h
    | .ok (L, s) =>
      rw [hl] at h hs
      cases h
      match hl' : buildLevels (inp.reorder f).params with
      | .error e => rw [hl'] at hs; exact hs.elim
      | .ok (L', s') =>
        rw [hl'] at hs
        obtain ⟨rfl, hsame⟩ := hs
        refine ⟨_, Input.build_of_levels hl', ?_, ?_⟩
        · rw [hsame]; rfl
        · rw [hsame]; rfl
  · intro e h
    unfold Input.build at h ⊢
    match hl : buildLevels inp.params with
    | .ok (L, s) => rw [hl] at h; cases h
    | .error e₁ =>
      rw [hl] at h hs
      cases h
      match hl' : buildLevels (inp.reorder f).params with
      | .ok _ => rw [hl'] at hs; exact hs.elim
      | .error e₂ => rw [hl'] at hs; cases hs; rfl

namespace Ex

/-- Exchanges two sources and turns three targets of five particles around. -/
def turned (p : Nat) : Nat := [1, 0, 4, 3, 2].getD p p

theorem isPerm_of_list {n : Nat} {f : Nat → Nat} (h : (List.range n).all fun i =>
    decide (f i < n) && ((List.range n).all fun j => f i != f j || i == j)) : IsPerm n f := by
  rw [List.all_eq_true] at h
  have h1 : ∀ i < n, f i < n := fun i hi => by
    have := h i (List.mem_range.2 hi)
    rw [Bool.and_eq_true] at this
    exact of_decide_eq_true this.1
  refine isPerm_of_inj h1 fun i hi j hj e => ?_
  have := h i (List.mem_range.2 hi)
  rw [Bool.and_eq_true, List.all_eq_true] at this
  have := this.2 j (List.mem_range.2 hj)
  simpa [e] using this

end Ex

example : Ex.line.OK ∧ Ex.line.Regular ∧ (∀ p < Ex.line.n, Ex.line.weight p ≤ 2 ^ 31 - 1) ∧
    Reorders Ex.line.n Ex.line.sourcesAreTargets Ex.line.nsources Ex.turned ∧
    Ex.look Ex.line.build (fun t => (List.range 3).map fun i => t.targets 0 i)
      = [2 / 5, 3 / 5, 9 / 10] ∧
    Ex.look (Ex.line.reorder Ex.turned).build (fun t => (List.range 3).map fun i => t.targets 0 i)
      = [2 / 5, 3 / 5, 9 / 10] ∧
    Ex.look Ex.line.build (fun t => (List.range 3).map t.particles.sortedTargetIds) = [1, 2, 0] ∧
    Ex.look (Ex.line.reorder Ex.turned).build (fun t =>
      (List.range 3).map t.particles.sortedTargetIds) = [0, 2, 1] :=
  ⟨Ex.line_ok, Ex.line_regular, by decide, ⟨Ex.isPerm_of_list (by decide +kernel), by decide +kernel⟩,
    by decide +kernel⟩

namespace Ex

/-- As `stuck`, with one more target, which does not fit into a child of box 1. -/
def stuck2 : Input :=
  { stuck with
    n := 4
    x := fun _ p => [11 / 20, 14 / 25, 1 / 10, 1 / 4].getD p 0
    radius := fun p => [1 / 25, 1 / 25, 0, 1 / 5].getD p 0 }

/-- Exchanges the last two of four particles. -/
def exchanged (p : Nat) : Nat := [0, 1, 3, 2].getD p p

end Ex

/-- **C73** is false for the level-restricted builder with extents: box 1 (the left half) is marked to be
split, but the loop ends before its particles are sorted.  It has two targets and owns the first one in
the order of the user, whichever this is, so that the bounding box of its targets depends on the
order. -/
theorem C73_restricted_extent_order : ∃ inp : Input, inp.Placed ∧ ∃ f,
    Reorders inp.n inp.sourcesAreTargets inp.nsources f ∧ ∃ t t', inp.build = .ok t ∧
    (inp.reorder f).build = .ok t' ∧ t.tree.tgtMin 1 0 = 1 / 10 ∧ t'.tree.tgtMin 1 0 = 1 / 20 := by
  refine ⟨Ex.stuck2, ?_, Ex.exchanged, ⟨Ex.isPerm_of_list (by decide +kernel), by decide +kernel⟩, ?_⟩
  · exact
    { dims_pos := by decide
      n_pos := by decide
      nsources_le := by decide
      separate := by decide
      ext_pos := by decide +kernel
      cube := by decide +kernel
      radius_nonneg := by decide +kernel
      lower := by decide +kernel
      upper := by decide +kernel
      off_upper := by decide +kernel }
  · have h1 : Ex.look Ex.stuck2.build (fun t => [t.tree.tgtMin 1 0]) = [1 / 10] := by decide +kernel
    have h2 : Ex.look (Ex.stuck2.reorder Ex.exchanged).build (fun t => [t.tree.tgtMin 1 0])
        = [1 / 20] := by decide +kernel
    unfold Ex.look at h1 h2
    split at h1
    · rename_i t ht
      split at h2
      · rename_i t' ht'
        simp only [List.cons.injEq, and_true] at h1 h2
        exact ⟨t, t', ht, ht', h1, h2⟩
      · cases h2
    · cases h1

example : (∀ p < Ex.stuck2.n, Ex.stuck2.weight p ≤ 2 ^ 31 - 1) ∧ IsPerm Ex.stuck2.n Ex.exchanged ∧
    Ex.look Ex.stuck2.build (fun t => (List.range t.tree.nboxes).map t.tree.parent)
      = [0, 0, 0, 2, 3] :=
  ⟨by decide, Ex.isPerm_of_list (by decide +kernel), by decide +kernel⟩

/-! ### From the arguments -/

/-- The refine weights in another order. -/
def permuted (w : List ℤ) (f : Nat → Nat) : List ℤ :=
  (List.range w.length).map fun p => w.getD (f p) 0

theorem permuted_getD {w : List ℤ} {f : Nat → Nat} {n : Nat} (hn : w.length = n)
    (hout : ∀ p, n ≤ p → f p = p) (p : Nat) : (permuted w f).getD p 0 = w.getD (f p) 0 := by
  unfold permuted
  by_cases hp : p < n
  · rw [List.getD_eq_getElem _ _ (by simpa [hn] using hp)]
    simp
  · rw [hout p (by omega), List.getD_eq_default _ _ (by simpa [hn] using hp),
      List.getD_eq_default _ _ (by omega)]

theorem permuted_perm {w : List ℤ} {f : Nat → Nat} (hf : IsPerm w.length f) :
    (permuted w f).Perm w := by
  have h1 : w = (List.range w.length).map fun p => w.getD p 0 := by
    apply List.ext_getElem (by simp)
    intro i hi _
    rw [List.getElem_map, List.getElem_range, List.getD_eq_getElem _ _ hi]
  have h2 : permuted w f = ((List.range w.length).map f).map fun p => w.getD p 0 := by
    unfold permuted
    rw [List.map_map]
    rfl
  have h3 : ((List.range w.length).map f).Perm (List.range w.length) := by
    apply (List.perm_ext_iff_of_nodup ?_ List.nodup_range).2
    · intro a
      simp only [List.mem_map, List.mem_range]
      constructor
      · rintro ⟨i, hi, rfl⟩; exact hf.1 i hi
      · intro ha; exact hf.2.2 a ha
    · refine List.Nodup.map_on ?_ List.nodup_range
      intro x hx y hy e
      exact hf.2.1 x (List.mem_range.1 hx) y (List.mem_range.1 hy) e
  rw [h2]
  conv => rhs; rw [h1]
  exact h3.map _

theorem checkWeights_reorder {a : Args} {n : Nat} {w : List ℤ} {m : ℚ}
    (h : checkWeights a n = .ok (w, m)) (hn : w.length = n) {f : Nat → Nat} (hf : IsPerm n f) :
    checkWeights { a with refineWeights := a.refineWeights.map fun v => (v.1, permuted v.2 f) } n =
      .ok (permuted w f, m) := by
  have key : ∀ (w₀ : List ℤ) (m₀ : ℚ), (do
        let (w, m) ← (Except.ok (w₀, m₀) : Except String (List ℤ × ℚ))
        if m ≤ 0 then Except.error "ValueError"
        else if w = [] then .error "ValueError"
        else if w.any (fun x => decide (m < x)) then .error "ValueError"
        else if w.any (fun x => decide (x < 0)) then .error "ValueError"
        else return (w, m)) = Except.ok (w, m) → w₀ = w ∧ (do
        let (w, m) ← (Except.ok (permuted w₀ f, m₀) : Except String (List ℤ × ℚ))
        if m ≤ 0 then Except.error "ValueError"
        else if w = [] then .error "ValueError"
        else if w.any (fun x => decide (m < x)) then .error "ValueError"
        else if w.any (fun x => decide (x < 0)) then .error "ValueError"
        else return (w, m)) = Except.ok (permuted w f, m) := by
    intro w₀ m₀ h
    simp only [bind, Except.bind, pure, Except.pure] at h ⊢
    split at h
    · cases h
    split at h
    · cases h
    split at h
    · cases h
    split at h
    · cases h
    rename_i c1 c2 c3 c4
    cases h
    have hperm := permuted_perm (w := w) (f := f) (by rw [hn]; exact hf)
    refine ⟨rfl, ?_⟩
    rw [if_neg c1, if_neg (fun e : permuted w f = [] => c2 (e ▸ hperm).nil_eq.symm),
      if_neg (by rw [hperm.any_eq]; exact c3), if_neg (by rw [hperm.any_eq]; exact c4)]
  unfold checkWeights at h ⊢
  rcases a with ⟨_, _, mp, _, _, _, _, rw, ml, _⟩
  cases mp with
  | some m₀ =>
    have hrep : permuted (List.replicate n 1) f = List.replicate n 1 := by
      have := permuted_perm (w := List.replicate n 1) (f := f) (by simpa using hf)
      exact List.perm_replicate.1 this
    cases rw with
    | none => cases ml <;> · have := (key _ _ h).2; rw [hrep] at this; exact this
    | some v =>
      cases ml with
      | none => have := (key _ _ h).2; rw [hrep] at this; exact this
      | some _ => cases h
  | none =>
    cases rw with
    | none => cases ml <;> cases h
    | some v =>
      cases ml with
      | none => cases h
      | some m₀ =>
        obtain ⟨dt, w₀⟩ := v
        by_cases hdt : dt ≠ "int32"
        · simp [hdt, bind, Except.bind] at h
        · simp only [hdt, if_false] at h
          have := (key _ _ h).2
          simpa [hdt] using this

/-- The bounding box does not depend on the order. -/
theorem autoBox_reorder (fl : ℚ → ℚ) (x r : Nat → ℚ) (n : Nat) {f : Nat → Nat}
    (hf : IsPerm (n + 1) f) :
    autoBox fl (fun p => x (f p)) (fun p => r (f p)) n = autoBox fl x r n := by
  have h1 : ∀ i ≤ n, f i ≤ n := fun i hi => by have := hf.1 i (by omega); omega
  have h2 : ∀ j ≤ n, ∃ i ≤ n, f i = j := fun j hj => by
    obtain ⟨i, hi, e⟩ := hf.2.2 j (by omega)
    exact ⟨i, by omega, e⟩
  have a1 := autoBox_tight fl (fun p => x (f p)) (fun p => r (f p)) n _ _
    fun i hi => autoBox_mem fl x r n (f i) (h1 i hi)
  have a2 := autoBox_tight fl x r n _ _ fun j hj => by
    obtain ⟨i, hi, rfl⟩ := h2 j hj
    exact autoBox_mem fl (fun p => x (f p)) (fun p => r (f p)) n i hi
  exact Prod.ext (le_antisymm a2.1 a1.1) (le_antisymm a1.2 a2.2)

theorem rootBox_reorder (fl : ℚ → ℚ) (d n : Nat) (x : Nat → Nat → ℚ) (r : Nat → ℚ)
    (bbox : Option (List (ℚ × ℚ))) {f : Nat → Nat} (hf : IsPerm (n + 1) f) :
    rootBox fl d n (fun a p => x a (f p)) (fun p => r (f p)) bbox = rootBox fl d n x r bbox := by
  unfold rootBox
  simp only [autoBox_reorder fl _ _ n hf]

theorem check_reorder {a : Args} {k : Checked} (h : check a = .ok k)
    (hn : k.refineWeights.length = if a.targets.isNone then k.nsources else k.nsources + k.ntargets)
    {f : Nat → Nat} (hf : IsPerm k.refineWeights.length f) :
    check { a with refineWeights := a.refineWeights.map fun v => (v.1, permuted v.2 f) } =
      .ok { k with refineWeights := permuted k.refineWeights f } := by
  unfold check at h ⊢
  change (checkShapes a >>= _) = _
  cases h1 : checkShapes a with
  | error e => rw [h1] at h; cases h
  | ok v =>
    obtain ⟨norm, ns, nt, dtype, sof⟩ := v
    rw [h1] at h
    simp only [bind, Except.bind] at h ⊢
    have e2 : ∀ n, checkTargets { a with
        refineWeights := a.refineWeights.map fun v => (v.1, permuted v.2 f) } n dtype =
      checkTargets a n dtype := fun _ => rfl
    rw [e2]
    cases h2 : checkTargets a (if a.targets.isNone then ns else ns + nt) dtype with
    | error e => rw [h2] at h; cases h
    | ok _ =>
      rw [h2] at h
      dsimp only at h ⊢
      cases h3 : checkWeights a (if a.targets.isNone then ns else ns + nt) with
      | error e => rw [h3] at h; cases h
      | ok w =>
        obtain ⟨w, m⟩ := w
        rw [h3] at h
        cases h
        dsimp only at hn hf
        have := checkWeights_reorder h3 hn (hn ▸ hf)
        rw [this]
        rfl

theorem isNone_targets {c : Call} {ns nt : Nat} {dtype : String} (hd : c.Documented ns nt dtype)
    (h : c.args.targets.isNone = true) : nt = 0 := by
  have := hd.shapes.targets
  rw [Option.isNone_iff_eq_none] at h
  rw [h] at this
  exact this

/-- A documented call and the same call with the particles in another order. -/
theorem documented_reorder (c : Call) (ns nt : Nat) (dtype : String)
    (hd : c.Documented ns nt dtype) (f : Nat → Nat)
    (hf : IsPerm (ns + nt) f) (hk : ∀ p < ns + nt, f p < ns ↔ p < ns)
    (hout : ∀ p, ns + nt ≤ p → f p = p) (guess : Option ℤ)
    (body : Nat → Input → Except String Built) :
    (c.reorder ns f).runBy guess body = c.runBy guess fun g inp => body g (inp.reorder f) := by
  obtain ⟨k, h1, h2, h3, h4, h5, h6, h7, h8⟩ := check_documented hd.shapes hd.limit
  have hck := check_reorder h1 (f := f) (by
    rw [h5, h2, h3]
    split
    · rename_i h
      rw [isNone_targets hd h]
      rfl
    · rfl) (by rw [h5]; exact hf)
  have hns : ∀ p, f p < ns ↔ p < ns := by
    intro p
    by_cases hp : p < ns + nt
    · exact hk p hp
    · rw [hout p (by omega)]
  have hx : (c.reorder ns f).coord ns = fun a p => c.coord ns a (f p) := by
    funext a p
    unfold Call.coord
    rw [if_congr (hns p) rfl rfl]
    by_cases hp : p < ns
    · rw [if_pos hp, if_pos hp]; rfl
    · rw [if_neg hp, if_neg hp]
      show c.tgt a (f (ns + (p - ns)) - ns) = _
      rw [Nat.add_sub_cancel' (by omega)]
  have hr : (c.reorder ns f).rad ns = fun p => c.rad ns (f p) := by
    funext p
    unfold Call.rad
    rw [if_congr (hns p) rfl rfl]
    by_cases hp : p < ns
    · rw [if_pos hp, if_pos hp]; rfl
    · rw [if_neg hp, if_neg hp]
      show (if c.args.targetRadii.isSome then c.tgtRadius (f (ns + (p - ns)) - ns) else 0) = _
      rw [Nat.add_sub_cancel' (by omega)]
  have hn := hd.shapes.nonempty
  unfold Call.runBy
  change (check { c.args with refineWeights := c.args.refineWeights.map fun v =>
    (v.1, permuted v.2 f) } >>= _) = _
  rw [hck, h1]
  simp only [bind, Except.bind]
  have hroot : rootBox (c.reorder ns f).arith.fl ((c.reorder ns f).args.particles.length - 1)
      (ns + nt - 1) (fun a p => c.coord ns a (f p)) (fun p => c.rad ns (f p)) (c.reorder ns f).bbox =
    rootBox c.arith.fl (c.args.particles.length - 1) (ns + nt - 1) (c.coord ns) (c.rad ns) c.bbox :=
    rootBox_reorder c.arith.fl (c.args.particles.length - 1) (ns + nt - 1)
    (c.coord ns) (c.rad ns) c.bbox (f := f) (by rw [Nat.sub_add_cancel (by omega)]; exact hf)
  rw [h2, h3, hx, hr, hroot]
  cases rootBox c.arith.fl (c.args.particles.length - 1) (ns + nt - 1) (c.coord ns) (c.rad ns)
    c.bbox with
  | error e => rfl
  | ok root =>
    dsimp only
    have hsum : (permuted k.refineWeights f).sum = k.refineWeights.sum :=
      (permuted_perm (by rw [h5]; exact hf)).sum_eq
    have hguess : boxesGuess (c.reorder ns f).args.particles.length (permuted k.refineWeights f)
        k.maxLeafRefineWeight =
        boxesGuess c.args.particles.length k.refineWeights k.maxLeafRefineWeight := by
      unfold boxesGuess
      rw [hsum]
      rfl
    rw [hguess]
    split
    · rfl
    · cases levelsMax k.coordDtype with
      | error e => rfl
      | ok levels =>
        dsimp only
        congr 1
        unfold Call.input Input.reorder
        dsimp only
        rw [h2, h3, hx, hr]
        simp only [permuted_getD h5 hout]
        rfl

/-- **C73** from the arguments of the tree builder: a documented call with the particles, radii and
refine weights in another order (`f` numbers the sources from 0 and the targets after them) returns the
same tree, or raises the same exception; also the bounding box is the same if it is not given.
Partial: without `kind="adaptive-level-restricted"` together with radii. -/
theorem C73_call_partial (c : Call) (ns nt : Nat) (dtype : String) (hd : c.Documented ns nt dtype)
    (hw : c.SomeWeight) (hs : c.SmallLimit)
    (hr : c.args.kind = "adaptive-level-restricted" →
      c.args.sourceRadii = none ∧ c.args.targetRadii = none)
    (f : Nat → Nat) (hf : IsPerm (ns + nt) f) (hk : ∀ p < ns + nt, f p < ns ↔ p < ns)
    (hout : ∀ p, ns + nt ≤ p → f p = p) :
    ∃ inp : Input, c.InputOf ns nt dtype inp ∧ c.run = inp.build ∧
      (∀ t, c.run = .ok t → ∃ t', (c.reorder ns f).run = .ok t' ∧ SameUpToOrder inp f t t') ∧
      ∀ e, c.run = .error e → (c.reorder ns f).run = .error e := by
  obtain ⟨inp, h1, ok, hwt, hin⟩ := documented_call_by c ns nt dtype hd hw
  obtain ⟨_, _, r1⟩ := h1 none (fun _ inp => inp.build) (by simp)
  obtain ⟨_, _, r2⟩ := h1 none (fun _ inp => (inp.reorder f).build) (by simp)
  have r3 := documented_reorder c ns nt dtype hd f hf hk hout none fun _ inp => inp.build
  have e1 : c.run = inp.build := r1
  have e2 : (c.reorder ns f).run = (inp.reorder f).build := r3.trans r2
  have hreg : inp.Regular := by
    by_cases hl : inp.levelRestrict = true
    · obtain ⟨r1, r2⟩ := hr (hin.levelRestrict.1 hl)
      right
      unfold Input.haveExtent
      rw [hin.sourcesHaveExtent, hin.targetsHaveExtent, r1, r2]
      rfl
    · left
      simpa using hl
  have := C73_order_partial inp ok hreg (hwt hs).weight f
    ⟨by rw [hin.n]; exact hf, fun _ p hp => by
      rw [hin.nsources]; exact hk p (by rw [← hin.n]; exact hp)⟩
  exact ⟨inp, hin, e1, by rw [e1, e2]; exact this.1, by rw [e1, e2]; exact this.2⟩

namespace Ex

/-- Turns three sources around and exchanges two targets. -/
def turned2 (p : Nat) : Nat := [2, 1, 0, 4, 3].getD p p

end Ex

example : Ex.call2.Documented 3 2 "float32" ∧ Ex.call2.SomeWeight ∧ Ex.call2.SmallLimit ∧
    Ex.call2.args.kind ≠ "adaptive-level-restricted" ∧ IsPerm (3 + 2) Ex.turned2 ∧
    (∀ p < 3 + 2, Ex.turned2 p < 3 ↔ p < 3) ∧ (∀ p, 3 + 2 ≤ p → Ex.turned2 p = p) ∧
    (Ex.call2.reorder 3 Ex.turned2).args.refineWeights = some ("int32", [2, 0, 1, 1, 1]) ∧
    Ex.look Ex.call2.run (fun t => (List.range 3).map t.particles.userSourceIds) = [0, 1, 2] ∧
    Ex.look (Ex.call2.reorder 3 Ex.turned2).run (fun t => (List.range 3).map t.particles.userSourceIds)
      = [2, 0, 1] :=
  ⟨Ex.call2_documented, Or.inr ⟨_, _, rfl, 1, by decide, by decide⟩, by
    constructor
    · intro m h; cases h
    · intro m h
      cases h
      norm_num, by decide, Ex.isPerm_of_list (by decide +kernel), by decide +kernel, by
    intro p hp
    unfold Ex.turned2
    rw [List.getD_eq_default _ _ (by simpa using hp)], by decide +kernel, by decide +kernel,
    by decide +kernel⟩

end Boxtree.Build
