import Verif.Lemmas.LeafWeights
import Verif.Props.TreeBuild
import Mathlib.Algebra.BigOperators.Group.List.Lemmas
import Mathlib.Tactic.LinearCombination

/-!
# Size of the leaves and end of the level loop
-/

namespace Boxtree.Build

section
variable {inp : Input}

theorem Input.WeightsOK.wok (h : inp.WeightsOK) : WOK inp.params :=
  ⟨Input.mortOK inp, h.weight, h.limit, fun he p l => Input.morton_moves he p l⟩

/-- A box into which a particle belongs is not empty. -/
theorem Inv.path_count {P : Params} {level : Nat} {s : State} (h : Inv P level s) {p : Nat}
    (hp : p < P.n) {l k : Nat} (hk : k < s.used l) (hpath : PathOK P s.parent p l k) :
    0 < s.count l k := by
  obtain ⟨i, hi, rfl⟩ := perm_surj h.ids_lt h.ids_inj hp
  have hq := h.path i hi
  obtain ⟨hu, hb1, hb2⟩ := h.box_used hi
  have hc : 0 < s.count (s.box i).1 (s.box i).2 := by
    have := h.own_le (s.box i).1 (s.box i).2; omega
  have up : ∀ d l k', k' < s.used (l + d) → PathOK P s.parent (s.ids i) (l + d) k' →
      0 < s.count (l + d) k' → ∃ a < s.used l, PathOK P s.parent (s.ids i) l a ∧ 0 < s.count l a := by
    intro d
    induction d with
    | zero => intro l k' h1 h2 h3; exact ⟨k', h1, h2, h3⟩
    | succ d ih =>
      intro l k' h1 h2 h3
      exact ih l _ (h.parent_ok (l + d) k' h1).1 h2.2 (h.child_range h1 h3).2.2
  rcases Nat.lt_or_ge (s.box i).1 l with hlt | hge
  · obtain ⟨d, rfl⟩ : ∃ d, l = (s.box i).1 + d + 1 := ⟨l - (s.box i).1 - 1, by omega⟩
    obtain ⟨a, a1, a2, a3, a4⟩ := h.path_anc d _ k hk hpath
    have := h.path_unique _ _ _ a1 hu a2 hq
    rw [this] at a3
    exact absurd (h.stay i hi a3) a4
  · obtain ⟨d, hd⟩ : ∃ d, (s.box i).1 = l + d := ⟨(s.box i).1 - l, by omega⟩
    rw [hd] at hq hu hc
    obtain ⟨a, a1, a2, a3⟩ := up d l _ hu hq hc
    rw [h.path_unique _ _ _ hk a1 hpath a2]
    exact a3

/-- The particle goes to a child if it fits. -/
theorem Input.Placed.moves (ok : inp.Placed) (hx : inp.arith = .exact) {level : Nat} {s : State}
    (hI : Inv inp.params level s)
    {p : Nat} (hp : p < inp.n) {l k : Nat} (hk : k < s.used l)
    (hpath : PathOK inp.params s.parent p l k) {c : Nat → ℚ}
    (hc : ∀ a < inp.dims, (c a = s.center l k a - inp.ext 0 / 2 ^ (l + 1 + 1) ∨
        c a = s.center l k a + inp.ext 0 / 2 ^ (l + 1 + 1)) ∧
      c a - inp.ext 0 / 2 ^ (l + 1 + 1) ≤ inp.x a p ∧ inp.x a p < c a + inp.ext 0 / 2 ^ (l + 1 + 1))
    (hfit : if inp.l2 then
        Real.sqrt (((List.range inp.dims).map fun a => (inp.x a p - c a) ^ 2).sum : ℚ)
            + (inp.radius p : ℝ)
          < Real.sqrt inp.dims * ((1 + inp.stickOut) * (inp.ext 0 / 2 ^ (l + 1 + 1)) : ℚ)
      else ∀ a < inp.dims,
        c a - (1 + inp.stickOut) * (inp.ext 0 / 2 ^ (l + 1 + 1)) ≤ inp.x a p - inp.radius p ∧
        inp.x a p + inp.radius p < c a + (1 + inp.stickOut) * (inp.ext 0 / 2 ^ (l + 1 + 1))) :
    inp.morton p l ≠ none := by
  have hcen : ∀ a < inp.dims, inp.nextCenter a p l = c a := by
    intro a ha
    have h1 := ok.path_center ha hp hx hI l k hk hpath
    obtain ⟨h2, h3, h4⟩ := hc a ha
    obtain ⟨h5, h6⟩ := ok.in_cell ha hp hx (l + 1)
    have h7 : inp.nextCenter a p l
        = inp.lo a + inp.ext a * (inp.cell a p (l + 1) + 1 / 2) * (1 / 2 ^ (l + 1)) := by
      unfold Input.nextCenter; rw [Nat.add_comm 1 l]
    rw [← h7] at h5 h6
    have h8 := ok.cell_succ ha hp hx l
    have h9 : inp.nextCenter a p l = s.center l k a - inp.ext 0 / 2 ^ (l + 1 + 1) ∨
        inp.nextCenter a p l = s.center l k a + inp.ext 0 / 2 ^ (l + 1 + 1) := by
      rw [h1, h7, ok.cube a ha]
      rcases Nat.mod_two_eq_zero_or_one (inp.cell a p (l + 1)) with h10 | h10
      · left
        have : inp.cell a p (l + 1) = 2 * inp.cell a p l := by omega
        rw [this, pow_succ, pow_succ]
        push_cast
        field_simp; ring
      · right
        have : inp.cell a p (l + 1) = 2 * inp.cell a p l + 1 := by omega
        rw [this, pow_succ, pow_succ]
        push_cast
        field_simp; ring
    rcases h2 with h2 | h2 <;> rcases h9 with h9 | h9 <;> linarith
  have hrad : ∀ a < inp.dims,
      inp.nextRadius a l = (1 + inp.stickOut) * (inp.ext 0 / 2 ^ (l + 1 + 1)) := by
    intro a ha
    unfold Input.nextRadius
    rw [ok.cube a ha, Nat.add_comm 1 l, pow_succ _ (l + 1)]
    field_simp
  have hstop : inp.stop p l = false := by
    rw [Input.stop_eq hx]
    cases hl2 : inp.l2 with
    | true =>
      rw [if_pos rfl]
      rw [hl2, if_pos rfl] at hfit
      by_contra hne
      have h1 := (Input.stopL2_iff (ok.radius_nonneg p hp)).1 (by simpa using hne)
      have h2 : inp.dist2 p l = ((List.range inp.dims).map fun a => (inp.x a p - c a) ^ 2).sum := by
        unfold Input.dist2
        congr 1
        apply List.map_congr_left
        intro a ha
        rw [hcen a (List.mem_range.1 ha), sq]
      rw [h2, hrad 0 ok.dims_pos] at h1
      generalize ((1 + inp.stickOut) * (inp.ext 0 / 2 ^ (l + 1 + 1)) : ℚ) = R at *
      have h3 := Real.sqrt_nonneg
        ((((List.range inp.dims).map fun a => (inp.x a p - c a) ^ 2).sum : ℚ) : ℝ)
      have h4 : (0 : ℝ) ≤ (inp.radius p : ℝ) := by exact_mod_cast ok.radius_nonneg p hp
      generalize Real.sqrt
        ((((List.range inp.dims).map fun a => (inp.x a p - c a) ^ 2).sum : ℚ) : ℝ) = q at *
      have h5 : Real.sqrt (inp.dims : ℝ) * Real.sqrt (inp.dims : ℝ) = inp.dims :=
        Real.mul_self_sqrt (by positivity)
      have h6 := mul_self_lt_mul_self (add_nonneg h3 h4) hfit
      have h7 : Real.sqrt (inp.dims : ℝ) * (R : ℝ) * (Real.sqrt (inp.dims : ℝ) * (R : ℝ))
          = inp.dims * (R : ℝ) * R := by
        linear_combination ((R : ℝ) * R) * h5
      linarith
    | false =>
      rw [if_neg (by simp)]
      rw [hl2, if_neg (by simp)] at hfit
      unfold Input.stopInf
      simp only [List.any_eq_false, List.mem_range, Bool.or_eq_true, decide_eq_true_eq, not_or,
        not_le, not_lt]
      intro a ha
      rw [hcen a ha, hrad a ha]
      exact ⟨(hfit a ha).2, (hfit a ha).1⟩
  unfold Input.morton
  rw [hstop, Bool.and_false, if_neg (by simp)]
  simp

/-- Why a particle is in the subtree of a box. -/
theorem holds_path {len : Nat → Nat} {L : Nat} {s : State} (ok : inp.OK)
    (hf : FinOK inp.params inp.skipPrune len L s) {l k p : Nat} (hk : Kept inp.skipPrune s l k)
    (hp : (finish inp.params inp.cloud inp.skipPrune len L s).Holds inp
      (nid inp.skipPrune len L s l k) p) :
    p < inp.n ∧ PathOK inp.params s.parent p l k := by
  have hb : nid inp.skipPrune len L s l k
      < (finish inp.params inp.cloud inp.skipPrune len L s).tree.nboxes := hf.nid_lt hk
  rcases hp with ⟨i, hi, rfl⟩ | ⟨j, hj, rfl, hi⟩
  · obtain ⟨p, l', k', h1, h2, h3, h4, h5⟩ := mem_source hf hb hi
    obtain ⟨rfl, rfl⟩ := hf.nid_inj hk h2 h3
    rw [h5]
    exact ⟨h1, h4⟩
  · have hns : inp.cloud.sourcesAreTargets = false → inp.cloud.nsources ≤ inp.params.n :=
      fun _ => ok.nsources_le
    obtain ⟨q, hq, hkind, e⟩ := exists_target hf hns hj
    have h1 := (sortedIds_eq hf hq hkind).2
    rw [e, Nat.add_sub_cancel_left] at h1
    rw [h1] at hi
    unfold span at hi
    rw [List.mem_range'_1] at hi
    have hm := ((tgtKind (C := inp.cloud) hf).mem_cu hb hkind).1 hi
    obtain ⟨l', k', h2, h3, h4⟩ := hf.path_of_mem hb hq hm.1 hm.2
    obtain ⟨rfl, rfl⟩ := hf.nid_inj hk h2 h3.symm
    have e' : inp.targetNumber j = s.ids q := by
      rw [e]
      unfold Input.targetNumber Cloud.firstTarget
      show _ = (if inp.sourcesAreTargets then 0 else inp.nsources) + j
      split <;> omega
    rw [e']
    exact ⟨hf.inv.ids_lt q hq, h4⟩

open Finset in
theorem list_load {P : Params} {par : Nat → Nat → Nat} {l k : Nat} {ps : List Nat} (hn : ps.Nodup)
    (h : ∀ p ∈ ps, p < P.n ∧ PathOK P par p l k ∧ P.mort p l ≠ none) :
    (ps.map P.weight).sum ≤ load P par l k (wMove P l) := by
  rw [← List.sum_toFinset _ hn]
  unfold load
  refine le_trans (sum_le_sum fun p hp => ?_) (sum_le_sum_of_subset (s := ps.toFinset) ?_)
  · obtain ⟨_, h1, h2⟩ := h p (List.mem_toFinset.1 hp)
    simp [h1, h2, wMove]
  · intro p hp
    exact mem_range.2 (h p (List.mem_toFinset.1 hp)).1

/-- The particles of a leaf that could go to a child. -/
theorem leaf_weight (ok : inp.OK) (hw : inp.WeightsOK) (ha : inp.adaptive = true) {t : Built}
    (h : inp.build = .ok t) {b : Nat} (hb : b < t.tree.nboxes)
    (hleaf : ∀ m < t.tree.nch, t.tree.child m b = 0) {ps : List Nat} (hn : ps.Nodup)
    (hps : ∀ p ∈ ps, t.Holds inp b p ∧ ∀ s : State, ∀ l k level, Inv inp.params level s →
      k < s.used l → p < inp.n → PathOK inp.params s.parent p l k →
      s.center l k = t.tree.center b → l = t.tree.level b → inp.morton p l ≠ none) :
    (ps.map inp.weight).sum ≤ inp.maxWeight := by
  obtain ⟨L, s, hc, o, rfl, hf, _, hlev, _⟩ := Input.build_cases ok h
  obtain ⟨e1, e2, e3, e4⟩ := finish_hasCh inp.cloud inp.skipPrune (fun l => s.used l + inp.pad l) L s
    hc o
  obtain ⟨l, k, hk, rfl⟩ := hf.exists_nid hb
  have hpath : ∀ p ∈ ps, p < inp.n ∧ PathOK inp.params s.parent p l k := by
    intro p hp
    have h1 := (hps p hp).1
    refine holds_path (s := { s with hasCh := hc, oversize := o }) ok hf hk ?_
    unfold Built.Holds at *
    rw [e1, e2, e3, e4]
    exact h1
  have hall : ∀ p ∈ ps, p < inp.n ∧ PathOK inp.params s.parent p l k ∧ inp.morton p l ≠ none := by
    intro p hp
    obtain ⟨h1, h2⟩ := hpath p hp
    exact ⟨h1, h2, (hps p hp).2 _ l k _ hf.inv hk.1 h1 h2 (hf.fin_center hk).symm
      (hf.fin_level hk).symm⟩
  by_cases hch : hc l k = true
  · -- a box all of whose children were pruned
    cases ps with
    | nil => simp
    | cons p ps =>
      exfalso
      obtain ⟨h1, h2, h3⟩ := hall p (by simp)
      obtain ⟨m, hm⟩ := Option.ne_none_iff_exists'.1 h3
      have hlt := Input.mortOK inp p l m hm
      obtain ⟨_, base, hd, hle, h4⟩ := hf.inv.children l k hch
      obtain ⟨h5, h6, _⟩ := h4 m hlt
      have hmod : (base + m) % inp.params.nch = m := by
        obtain ⟨q, hq⟩ := hd
        rw [hq, Nat.mul_add_mod, Nat.mod_eq_of_lt hlt]
      have hu : base + m < s.used (l + 1) := by
        have : base + inp.params.nch ≤ s.used (l + 1) := hle
        omega
      have hpc : PathOK inp.params s.parent p (l + 1) (base + m) := by
        refine ⟨by rw [hmod]; exact hm, ?_⟩
        have : s.parent (l + 1) (base + m) = k := h6
        rw [this]; exact h2
      have hcnt := hf.inv.path_count h1 (l := l + 1) hu hpc
      have hkc : Kept inp.skipPrune { s with hasCh := hc, oversize := o } (l + 1) (base + m) :=
        ⟨hu, .inr (by omega)⟩
      have h7 := hf.fin_child_kept hk h5 hkc
      have h8 := hleaf m hlt
      rw [show (finish inp.params inp.cloud inp.skipPrune (fun l => s.used l + inp.pad l) L s).tree.child
        m _ = _ from h7] at h8
      exact hf.nid_ne_zero hkc h8
  · have h1 := buildLevels_leafOK hw.wok ha hw.levels hlev hf.inv l k hk.1 (by simpa using hch)
      (by have := hf.inv.used_level hk.1; omega)
    exact le_trans (list_load (P := inp.params) hn hall) h1

end

/-- **C22.** In an adaptive build (with or without level restriction), the particles of a leaf that
could go to a child of it have together at most the greatest allowed weight: any set of particles of
the leaf that are not held back by their extent. -/
theorem C22_leaf_weight (inp : Input) (ok : inp.Placed) (hx : inp.arith = .exact)
    (hw : inp.WeightsOK) (ha : inp.adaptive = true) (t : Built) (h : inp.build = .ok t) (b : Nat) (hb : b < t.tree.nboxes)
    (hleaf : ∀ m < t.tree.nch, t.tree.child m b = 0) (ps : List Nat) (hn : ps.Nodup)
    (hps : ∀ p ∈ ps, t.Holds inp b p ∧ t.FitsChild inp b p) :
    (ps.map inp.weight).sum ≤ inp.maxWeight := by
  refine leaf_weight ok.toOK hw ha h hb hleaf hn fun p hp => ⟨(hps p hp).1, ?_⟩
  intro s l k level hI hk hpn hpath hcen hlev
  obtain ⟨c, h1, h2⟩ := (hps p hp).2
  have hd : t.tree.dims = inp.dims := by
    obtain ⟨L, s, hc, o, rfl, _⟩ := Input.build_cases ok.toOK h; rfl
  have hE : t.tree.rootExtent = inp.ext 0 := by
    obtain ⟨L, s, hc, o, rfl, _⟩ := Input.build_cases ok.toOK h; rfl
  unfold BoxTree.rad at h1 h2
  rw [hd, ← hcen, ← hlev, hE] at h1
  rw [hd, ← hlev, hE] at h2
  exact ok.moves hx hI hpn hk hpath h1 h2

/-- **C22** without extents: the particles of a leaf have together at most the greatest allowed
weight, however the device rounds. -/
theorem C22_leaf_weight_points (inp : Input) (ok : inp.OK) (hw : inp.WeightsOK)
    (ha : inp.adaptive = true) (he : inp.haveExtent = false)
    (t : Built) (h : inp.build = .ok t) (b : Nat) (hb : b < t.tree.nboxes)
    (hleaf : ∀ m < t.tree.nch, t.tree.child m b = 0) (ps : List Nat) (hn : ps.Nodup)
    (hps : ∀ p ∈ ps, t.Holds inp b p) : (ps.map inp.weight).sum ≤ inp.maxWeight :=
  leaf_weight ok hw ha h hb hleaf hn fun p hp =>
    ⟨hps p hp, fun _ _ _ _ _ _ _ _ _ _ => Input.morton_moves he _ _⟩

namespace Ex

theorem line_weights : line.WeightsOK := ⟨by decide, by decide, by decide⟩
theorem plane_weights : plane.WeightsOK := ⟨by decide, by decide, by decide⟩

end Ex

instance (t : Built) (inp : Input) (b p : Nat) : Decidable (t.Holds inp b p) := by
  unfold Built.Holds; infer_instance

theorem Ex.look_true {A : Type} {e : Except String A} {f : A → Prop} [DecidablePred f]
    (h : Ex.look e (fun t => [decide (f t)]) = [true]) : ∃ t, e = .ok t ∧ f t := by
  cases e with
  | error e => cases h
  | ok t => exact ⟨t, rfl, by simpa [Ex.look] using h⟩

/-- Box 3 of the example is a leaf with the source at 7/10 and the target at 3/5, which are not held
back; the limit is 2. -/
example : Ex.line.Placed ∧ Ex.line.arith = .exact ∧ Ex.line.WeightsOK ∧ Ex.line.adaptive = true ∧
    ∃ t, Ex.line.build = .ok t ∧ 3 < t.tree.nboxes ∧ (∀ m < t.tree.nch, t.tree.child m 3 = 0) ∧
      ∀ p ∈ [0, 2], t.Holds Ex.line 3 p ∧ t.FitsChild Ex.line 3 p := by
  refine ⟨Ex.line_placed, rfl, Ex.line_weights, rfl, ?_⟩
  obtain ⟨t, h, h1, h2, h3, h4, h5, h6, h7⟩ := Ex.look_true (e := Ex.line.build) (f := fun t =>
    3 < t.tree.nboxes ∧ (∀ m < t.tree.nch, t.tree.child m 3 = 0) ∧
    t.Holds Ex.line 3 0 ∧ t.Holds Ex.line 3 2 ∧ t.tree.dims = 1 ∧ t.tree.center 3 0 = 5 / 8 ∧
    t.tree.rad (t.tree.level 3 + 1) = 1 / 16) (by decide +kernel)
  refine ⟨t, h, h1, h2, ?_⟩
  intro p hp
  rcases List.mem_pair.1 hp with rfl | rfl
  · refine ⟨h3, fun _ => 11 / 16, ?_⟩
    rw [h5, h7]
    constructor
    · intro a ha
      obtain rfl : a = 0 := by omega
      rw [h6]
      decide +kernel
    · rw [if_neg (by decide)]
      decide +kernel
  · refine ⟨h4, fun _ => 9 / 16, ?_⟩
    rw [h5, h7]
    constructor
    · intro a ha
      obtain rfl : a = 0 := by omega
      rw [h6]
      decide +kernel
    · rw [if_neg (by decide)]
      decide +kernel

/-- A level-restricted build without extents: box 1 is a leaf with one particle. -/
example : Ex.plane.OK ∧ Ex.plane.WeightsOK ∧ Ex.plane.adaptive = true ∧ Ex.plane.haveExtent = false ∧
    ∃ t, Ex.plane.build = .ok t ∧ 1 < t.tree.nboxes ∧ (∀ m < t.tree.nch, t.tree.child m 1 = 0) ∧
      ∃ p, t.Holds Ex.plane 1 p := by
  obtain ⟨t, h, h1, h2, h3⟩ := Ex.look_true (e := Ex.plane.build) (f := fun t =>
    1 < t.tree.nboxes ∧ (∀ m < t.tree.nch, t.tree.child m 1 = 0) ∧ t.Holds Ex.plane 1 1)
    (by decide +kernel)
  exact ⟨Ex.plane_ok, Ex.plane_weights, rfl, rfl, t, h, h1, h2, 1, h3⟩

/-! ### End of the level loop -/

section
variable {inp : Input}

theorem levels_bound {P : Params} (hn : 1 ≤ P.nlevelsMax) {L : Nat} {s : State}
    (h : buildLevels P = .ok (L, s)) : L = 0 ∨ L + 1 < P.nlevelsMax := by
  unfold buildLevels at h
  split at h
  · obtain ⟨level, final, s', hpos, _, hE⟩ := loop_ends (P := P) (fun _ _ _ => True)
      (fun _ _ _ _ _ _ => trivial) (fun _ _ _ _ _ _ _ _ => trivial) P.nlevelsMax 1 false (init P)
      (le_refl 1) hn (by omega) trivial
    rw [h] at hE
    cases hE <;> right <;> omega
  · left
    exact (Prod.mk.inj (Except.ok.inj h)).1.symm

theorem cell_path (he : inp.haveExtent = false) (ok : inp.Placed) (hx : inp.arith = .exact)
    {par : Nat → Nat → Nat} {p q : Nat}
    (hp : p < inp.n) (hq : q < inp.n) : ∀ l k, (∀ a < inp.dims, inp.cell a p l = inp.cell a q l) →
    PathOK inp.params par p l k → PathOK inp.params par q l k := by
  intro l
  induction l with
  | zero => intro _ _ _; trivial
  | succ l ih =>
    intro k hc hpath
    refine ⟨?_, ih _ (fun a ha => ?_) hpath.2⟩
    · rw [← hpath.1]
      show inp.morton q l = inp.morton p l
      unfold Input.morton
      rw [he, Bool.false_and, if_neg (by simp), Bool.false_and, if_neg (by simp)]
      congr 2
      apply List.map_congr_left
      intro a ha
      rw [Input.bits_eq hx, Input.bits_eq hx, hc a (List.mem_range.1 ha)]
    · rw [← ok.cell_succ ha hp hx, ← ok.cell_succ ha hq hx, hc a ha]

theorem path_cell (ok : inp.Placed) (hx : inp.arith = .exact) {level : Nat} {s : State}
    (hI : Inv inp.params level s) {p q : Nat}
    (hp : p < inp.n) (hq : q < inp.n) {l k : Nat} (hk : k < s.used l)
    (h1 : PathOK inp.params s.parent p l k) (h2 : PathOK inp.params s.parent q l k) :
    ∀ a < inp.dims, inp.cell a p l = inp.cell a q l := by
  intro a ha
  have e1 := ok.path_center ha hp hx hI l k hk h1
  rw [ok.path_center ha hq hx hI l k hk h2] at e1
  have hE := ok.ext_pos' ha
  have h3 : ((2 : ℚ) ^ l) ≠ 0 := by positivity
  field_simp at e1
  have h4 := mul_left_cancel₀ hE.ne' (add_left_cancel e1)
  have : (inp.cell a p l : ℚ) = inp.cell a q l := by linarith
  exact_mod_cast this

theorem cell_mono (ok : inp.Placed) (hx : inp.arith = .exact) {p q : Nat} (hp : p < inp.n) (hq : q < inp.n) {a : Nat}
    (ha : a < inp.dims) (d l : Nat) (h : inp.cell a p (l + d) = inp.cell a q (l + d)) :
    inp.cell a p l = inp.cell a q l := by
  induction d with
  | zero => exact h
  | succ d ih =>
    apply ih
    rw [← ok.cell_succ ha hp hx, ← ok.cell_succ ha hq hx]
    exact congrArg (· / 2) h

theorem cell_iff (ok : inp.Placed) {p q : Nat} (hp : p < inp.n) (hq : q < inp.n) {a : Nat}
    (ha : a < inp.dims) (l : Nat) : inp.cell a p l = inp.cell a q l ↔
      ⌊(inp.x a p - inp.lo a) / inp.ext a * 2 ^ l⌋ = ⌊(inp.x a q - inp.lo a) / inp.ext a * 2 ^ l⌋ := by
  have key : ∀ p < inp.n, ((inp.cell a p l : Nat) : ℤ) = ⌊(inp.x a p - inp.lo a) / inp.ext a * 2 ^ l⌋ := by
    intro p hp
    unfold Input.cell
    exact Int.toNat_of_nonneg (Int.floor_nonneg.2 (mul_nonneg (ok.frac ha hp).1 (by positivity)))
  rw [← key p hp, ← key q hq]
  exact Nat.cast_inj.symm

/-- If an adaptive build without extents succeeds, particles that go the same way are not too heavy
together. -/
theorem group_weight (ok : inp.OK) (hw : inp.WeightsOK) (ha : inp.adaptive = true)
    (he : inp.haveExtent = false) {t : Built} (h : inp.build = .ok t) {ps : List Nat}
    (hn : ps.Nodup) (hlt : ∀ p ∈ ps, p < inp.n)
    (hsame : ∀ p ∈ ps, ∀ q ∈ ps, ∀ (par : Nat → Nat → Nat) (l k : Nat), l ≤ inp.nlevelsMax - 2 →
      PathOK inp.params par p l k → PathOK inp.params par q l k) :
    (ps.map inp.weight).sum ≤ inp.maxWeight := by
  cases ps with
  | nil => simp
  | cons p ps =>
    obtain ⟨L, s, hf⟩ := Input.build_fin ok (.inr he) h
    obtain ⟨rfl, hf, hlev⟩ := hf
    have hp := hlt p (by simp)
    obtain ⟨i, hi, hip⟩ := perm_surj hf.inv.ids_lt hf.inv.ids_inj (x := p) hp
    have hu := (hf.inv.box_used hi).1
    have hpath := hf.inv.path i hi
    rw [hip] at hpath
    have hlen := hf.inv.used_level hu
    have hL := levels_bound hw.levels hlev
    have hL' : L = 0 ∨ L + 1 < inp.nlevelsMax := hL
    have hc : s.hasCh (s.box i).1 (s.box i).2 = false := by
      by_contra hne
      exact Input.morton_moves he _ _ (hf.inv.stay i hi (by simpa using hne))
    have h1 := buildLevels_leafOK (hc := s.hasCh) (o := s.oversize) hw.wok ha hw.levels hlev hf.inv _ _
      hu hc (by omega)
    exact le_trans (list_load (P := inp.params) (par := s.parent) (l := (s.box i).1)
      (k := (s.box i).2) hn fun q hq => ⟨hlt q hq,
        hsame p (by simp) q hq _ _ _ (by omega) hpath, Input.morton_moves he _ _⟩) h1

/-- If an adaptive build without extents succeeds, no cell of the deepest level is too heavy. -/
theorem cell_weight (ok : inp.Placed) (hx : inp.arith = .exact) (hw : inp.WeightsOK)
    (ha : inp.adaptive = true)
    (he : inp.haveExtent = false) {t : Built} (h : inp.build = .ok t) {ps : List Nat}
    (hn : ps.Nodup) (hlt : ∀ p ∈ ps, p < inp.n)
    (hcell : ∀ p ∈ ps, ∀ q ∈ ps, ∀ a < inp.dims,
      inp.cell a p (inp.nlevelsMax - 2) = inp.cell a q (inp.nlevelsMax - 2)) :
    (ps.map inp.weight).sum ≤ inp.maxWeight := by
  refine group_weight ok.toOK hw ha he h hn hlt fun p hp q hq par l k hl hpath => ?_
  refine cell_path he ok hx (hlt p hp) (hlt q hq) _ _ (fun a hax => ?_) hpath
  obtain ⟨d, hd⟩ : ∃ d, inp.nlevelsMax - 2 = l + d := ⟨inp.nlevelsMax - 2 - l, by omega⟩
  have := hcell p hp q hq a hax
  rw [hd] at this
  exact cell_mono ok hx (hlt p hp) (hlt q hq) hax d _ this

/-- Coincident particles go the same way. -/
theorem coincident_path (he : inp.haveExtent = false) {par : Nat → Nat → Nat} {p q : Nat}
    (hpq : ∀ a < inp.dims, inp.x a p = inp.x a q) : ∀ l k,
    PathOK inp.params par p l k → PathOK inp.params par q l k := by
  intro l
  induction l with
  | zero => intro _ _; trivial
  | succ l ih =>
    intro k hpath
    refine ⟨?_, ih _ hpath.2⟩
    rw [← hpath.1]
    show inp.morton q l = inp.morton p l
    unfold Input.morton
    rw [he, Bool.false_and, if_neg (by simp), Bool.false_and, if_neg (by simp)]
    congr 2
    apply List.map_congr_left
    intro a ha
    unfold Input.bits
    rw [hpq a (List.mem_range.1 ha)]

end

/-- **C23.** The builder ends, with a tree within the limit of the number of levels or with the
error `MaxLevelsExceeded`. -/
theorem C23_terminates (inp : Input) (hw : inp.WeightsOK)
    (hr : inp.levelRestrict = true → inp.adaptive = true) :
    (∃ t, inp.build = .ok t ∧ (t.tree.nlevels = 1 ∨ t.tree.nlevels < inp.nlevelsMax)) ∨
      inp.build = .error "MaxLevelsExceeded" := by
  cases hb : buildLevels inp.params with
  | error e =>
    right
    have := buildLevels_error hw.wok hw.levels hr hb
    unfold Input.build
    rw [hb, this]
  | ok r =>
    obtain ⟨L, s⟩ := r
    left
    refine ⟨_, Input.build_of_levels hb, ?_⟩
    have h1 := levels_bound hw.levels hb
    show L + 1 = 1 ∨ L + 1 < inp.params.nlevelsMax
    omega

/-- Particles `p` and `q` are in the same cell of the grid of boxes of level `l`. -/
def Input.SameCell (inp : Input) (l p q : Nat) : Prop :=
  ∀ a < inp.dims, ⌊(inp.x a p - inp.lo a) / inp.ext a * 2 ^ l⌋
    = ⌊(inp.x a q - inp.lo a) / inp.ext a * 2 ^ l⌋

/-- **C23**, when it fails: without extents an adaptive build ends with `MaxLevelsExceeded` if there
are particles in a cell of the deepest level that are too heavy together; without level restriction
only then. -/
theorem C23_fails_iff (inp : Input) (ok : inp.Placed) (hx : inp.arith = .exact) (hw : inp.WeightsOK)
    (ha : inp.adaptive = true) (he : inp.haveExtent = false) :
    ((∃ ps : List Nat, ps.Nodup ∧ (∀ p ∈ ps, p < inp.n) ∧
        (∀ p ∈ ps, ∀ q ∈ ps, inp.SameCell (inp.nlevelsMax - 2) p q) ∧
        inp.maxWeight < (ps.map inp.weight).sum) → inp.build = .error "MaxLevelsExceeded") ∧
    (inp.levelRestrict = false → inp.build = .error "MaxLevelsExceeded" →
      ∃ ps : List Nat, ps.Nodup ∧ (∀ p ∈ ps, p < inp.n) ∧
        (∀ p ∈ ps, ∀ q ∈ ps, inp.SameCell (inp.nlevelsMax - 2) p q) ∧
        inp.maxWeight < (ps.map inp.weight).sum) := by
  constructor
  · rintro ⟨ps, h1, h2, h3, h4⟩
    rcases C23_terminates inp hw (fun _ => ha) with ⟨t, ht, _⟩ | h5
    · have := cell_weight ok hx hw ha he ht h1 h2 fun p hp q hq a hax =>
        (cell_iff ok (h2 p hp) (h2 q hq) hax _).2 (h3 p hp q hq a hax)
      omega
    · exact h5
  · intro hr hb
    have hlev : buildLevels inp.params = .error "MaxLevelsExceeded" := by
      unfold Input.build at hb
      split at hb
      · rename_i e heq
        rw [heq]
        exact congrArg _ (Except.error.inj hb)
      · cases hb
    unfold buildLevels at hlev
    split at hlev
    · rename_i htot
      obtain ⟨level, final, s, hpos, hJ, hE⟩ := loop_ends (P := inp.params)
        (fun level final s => AInv inp.params level final s ∧ final = false)
        (fun _ _ hJ _ _ ho => ⟨hJ.1.next hw.wok ha ho, rfl⟩)
        (fun _ _ _ _ _ _ h _ => by rw [show inp.params.levelRestrict = false from hr] at h; cases h)
        inp.params.nlevelsMax 1 false (init inp.params) (le_refl 1) hw.levels (by omega)
        ⟨AInv.init hw.wok htot, rfl⟩
      obtain ⟨hJ, rfl⟩ := hJ
      rw [hlev] at hE
      generalize hg : (Except.error "MaxLevelsExceeded" : Except String (Nat × State)) = r at hE
      cases hE with
      | noNew => cases hg
      | done => cases hg
      | noNewError => exact absurd (Except.error.inj hg) (by decide)
      | maxLevels hmax =>
        obtain ⟨l, k, h1, h2, h3, h4⟩ := hJ.big rfl he
        have h5 := mload_free (s := s) hw.wok he l k
        refine ⟨(List.range inp.n).filter fun p => decide (PathOK inp.params s.parent p l k),
          List.nodup_range.filter _, ?_, ?_, ?_⟩
        · intro p hp
          exact List.mem_range.1 (List.mem_filter.1 hp).1
        · intro p hp q hq a hax
          have hpn := List.mem_range.1 (List.mem_filter.1 hp).1
          have hqn := List.mem_range.1 (List.mem_filter.1 hq).1
          have hpp := of_decide_eq_true (List.mem_filter.1 hp).2
          have hqp := of_decide_eq_true (List.mem_filter.1 hq).2
          have h6 := path_cell ok hx hJ.entry.inv hpn hqn h2 hpp hqp a hax
          have hmax' : inp.nlevelsMax ≤ level + 1 := hmax
          obtain ⟨d, hd⟩ : ∃ d, l = inp.nlevelsMax - 2 + d := ⟨l - (inp.nlevelsMax - 2), by omega⟩
          rw [hd] at h6
          exact (cell_iff ok hpn hqn hax _).1 (cell_mono ok hx hpn hqn hax d _ h6)
        · rw [h5] at h4
          refine lt_of_lt_of_eq h4 ?_
          unfold load
          rw [← list_sum_range]
          clear h4 h5
          show ((List.range inp.n).map _).sum = _
          induction List.range inp.n with
          | nil => rfl
          | cons p ps ih =>
            rw [List.map_cons, List.sum_cons, ih, List.filter_cons]
            split
            · rename_i hd
              rw [if_pos (by simpa using hd), List.map_cons, List.sum_cons]
              rfl
            · rename_i hd
              rw [if_neg (by simpa using hd), Nat.zero_add]
    · cases hlev

/-- **C23** for coincident particles: if they are too heavy together the error is raised, however
the device rounds. -/
theorem C23_coincident (inp : Input) (ok : inp.OK) (hw : inp.WeightsOK) (ha : inp.adaptive = true)
    (he : inp.haveExtent = false) (ps : List Nat) (hn : ps.Nodup) (hlt : ∀ p ∈ ps, p < inp.n)
    (hx : ∀ p ∈ ps, ∀ q ∈ ps, ∀ a < inp.dims, inp.x a p = inp.x a q)
    (hsum : inp.maxWeight < (ps.map inp.weight).sum) :
    inp.build = .error "MaxLevelsExceeded" := by
  rcases C23_terminates inp hw (fun _ => ha) with ⟨t, ht, _⟩ | h5
  · have := group_weight ok hw ha he ht hn hlt fun p hp q hq par l k _ hpath =>
      coincident_path he (hx p hp q hq) l k hpath
    omega
  · exact h5

namespace Ex

/-- The error, for concrete inputs. -/
def err {A : Type} : Except String A → Option String
  | .error e => some e
  | .ok _ => none

theorem error_of_err {A : Type} {r : Except String A} {e : String} (h : err r = some e) :
    r = .error e := by
  cases r with
  | error e' => rw [Option.some.inj h]
  | ok _ => cases h

/-- Two of three particles at the same place. -/
def coincident : Input :=
  { plane with x := fun _ p => [7 / 10, 1 / 10, 7 / 10].getD p 0, nlevelsMax := 48 }

theorem coincident_placed : coincident.Placed where
  dims_pos := by decide
  n_pos := by decide
  nsources_le := by decide
  separate := by decide
  ext_pos := by decide +kernel
  cube := by decide +kernel
  radius_nonneg := by decide +kernel
  lower := by decide +kernel
  upper := by decide +kernel
  off_upper := by decide +kernel

theorem coincident_ok : coincident.OK := coincident_placed.toOK

end Ex

example : Ex.coincident.build = .error "MaxLevelsExceeded" :=
  C23_coincident Ex.coincident Ex.coincident_ok ⟨by decide, by decide, by decide⟩ rfl rfl [0, 2]
    (by decide) (by decide) (by decide +kernel) (by decide)

example : Ex.line.WeightsOK ∧ (Ex.line.levelRestrict = true → Ex.line.adaptive = true) ∧
    Ex.look Ex.line.build (fun t => [t.tree.nlevels]) = [3] :=
  ⟨Ex.line_weights, by decide, by decide +kernel⟩

/-- **C23**, what the limit on `max_leaf_refine_weight` is for: with the greatest 32-bit integer as
limit and a greater total weight the builder fails with an assertion: the total is computed
without, the weight of the root with saturation. -/
theorem C23_int_max_limit : ∃ inp : Input, inp.OK ∧ (∀ p < inp.n, inp.weight p ≤ 2 ^ 31 - 1) ∧
    inp.adaptive = true ∧ inp.build = .error "AssertionError" :=
  ⟨{ Ex.plane with weight := fun _ => 2 ^ 30, maxWeight := 2 ^ 31 - 1, levelRestrict := false },
    { Ex.plane_ok with }, by decide, rfl, by
      apply Ex.error_of_err
      decide +kernel⟩

end Boxtree.Build
