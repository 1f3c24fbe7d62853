import Verif.Lemmas.Splits
import Verif.Lemmas.Depth
import Verif.Props.Leaves
import Verif.Props.Balanced
import Mathlib.Tactic.IntervalCases

/-!
# Boxes are split for a reason
-/

namespace Boxtree.Build

section
variable {inp : Input}

/-- The particles that belong into a box are in its range. -/
theorem Inv.path_mem {P : Params} {level : Nat} {s : State} (h : Inv P level s) {i : Nat}
    (hi : i < P.n) {l k : Nat} (hk : k < s.used l) (hpath : PathOK P s.parent (s.ids i) l k) :
    s.start l k ≤ i ∧ i < s.start l k + s.count l k := by
  have hq := h.path i hi
  obtain ⟨hu, hb1, hb2⟩ := h.box_used hi
  have hc : s.start (s.box i).1 (s.box i).2 ≤ i ∧
      i < s.start (s.box i).1 (s.box i).2 + s.count (s.box i).1 (s.box i).2 := by
    have := h.own_le (s.box i).1 (s.box i).2; omega
  have up : ∀ d l k', k' < s.used (l + d) → PathOK P s.parent (s.ids i) (l + d) k' →
      s.start (l + d) k' ≤ i ∧ i < s.start (l + d) k' + s.count (l + d) k' →
      ∃ a < s.used l, PathOK P s.parent (s.ids i) l a ∧ s.start l a ≤ i ∧
        i < s.start l a + s.count l a := by
    intro d
    induction d with
    | zero => intro l k' h1 h2 h3; exact ⟨k', h1, h2, h3⟩
    | succ d ih =>
      intro l k' h1 h2 h3
      have h4 : s.start (l + d + 1) k' ≤ i ∧ i < s.start (l + d + 1) k' + s.count (l + d + 1) k' := h3
      have h5 := h.child_range (l := l + d) (k := k') h1 (by omega)
      exact ih l _ (h.parent_ok (l + d) k' h1).1 h2.2 (by omega)
  rcases Nat.lt_or_ge (s.box i).1 l with hlt | hge
  · obtain ⟨d, rfl⟩ : ∃ d, l = (s.box i).1 + d + 1 := ⟨l - (s.box i).1 - 1, by omega⟩
    obtain ⟨a, a1, a2, a3, a4⟩ := h.path_anc d _ k hk hpath
    have := h.path_unique _ _ _ a1 hu a2 hq
    rw [this] at a3
    exact absurd (h.stay i hi a3) a4
  · obtain ⟨d, hd⟩ : ∃ d, (s.box i).1 = l + d := ⟨(s.box i).1 - l, by omega⟩
    rw [hd] at hq hu hc
    obtain ⟨a, a1, a2, a3⟩ := up d l _ hu hq hc
    rw [h.path_unique _ _ _ hk a1 hpath a2]
    exact a3

/-- A particle that belongs into a box is in its subtree. -/
theorem path_holds {len : Nat → Nat} {L : Nat} {s : State}
    (hf : FinOK inp.params inp.skipPrune len L s) {l k p : Nat} (hk : Kept inp.skipPrune s l k)
    (hp : p < inp.n) (hpath : PathOK inp.params s.parent p l k) :
    (finish inp.params inp.cloud inp.skipPrune len L s).Holds inp
      (nid inp.skipPrune len L s l k) p := by
  have hb : nid inp.skipPrune len L s l k
      < (finish inp.params inp.cloud inp.skipPrune len L s).tree.nboxes := hf.nid_lt hk
  obtain ⟨i, hi, rfl⟩ := perm_surj hf.inv.ids_lt hf.inv.ids_inj hp
  have hm := hf.inv.path_mem hi hk.1 hpath
  rw [← hf.fin_start hk, ← hf.fin_count hk] at hm
  by_cases hkind : inp.cloud.kind s.ids true i
  · left
    refine ⟨_, ?_, userIds_eq hi hkind⟩
    unfold span
    rw [List.mem_range'_1]
    exact ((srcKind (C := inp.cloud) hf).mem_cu hb hkind).2 hm
  · right
    have hs : inp.sourcesAreTargets = false := by
      by_contra hc
      exact hkind (.inl (show inp.sourcesAreTargets = true by simpa using hc))
    have hlt : ¬ s.ids i < inp.nsources := fun hc => hkind (.inr (isKind_true.2 hc))
    have hkt : inp.cloud.kind s.ids false i := by
      right
      by_contra hc
      have h2 : s.ids i < inp.cloud.nsources := by unfold IsKind at hc; simpa using hc
      exact hlt h2
    have h1 := (sortedIds_eq (C := inp.cloud) hf hi hkt).2
    have hft : inp.cloud.firstTarget = inp.nsources := by
      unfold Cloud.firstTarget
      show (if inp.sourcesAreTargets then 0 else inp.nsources) = _
      rw [hs]; rfl
    refine ⟨s.ids i - inp.nsources, ?_, ?_, ?_⟩
    · show _ < (if inp.sourcesAreTargets then inp.n else inp.n - inp.nsources)
      rw [hs]
      have := hf.inv.ids_lt i hi
      have e : inp.params.n = inp.n := rfl
      simp only [Bool.false_eq_true, if_false]
      omega
    · unfold Input.targetNumber
      rw [hs]
      simp only [Bool.false_eq_true, if_false]
      omega
    · rw [hft] at h1
      rw [h1]
      unfold span
      rw [List.mem_range'_1]
      exact ((tgtKind (C := inp.cloud) hf).mem_cu hb hkt).2 hm

open Finset in
open scoped Classical in
/-- The particles that make up the load of a box. -/
theorem load_list {P : Params} {par : Nat → Nat → Nat} (l k : Nat) :
    ∃ ps : List Nat, ps.Nodup ∧ (∀ p, p ∈ ps ↔ p < P.n ∧ PathOK P par p l k ∧ P.mort p l ≠ none) ∧
      (ps.map P.weight).sum = load P par l k (wMove P l) := by
  refine ⟨(List.range P.n).filter fun p => decide (PathOK P par p l k ∧ P.mort p l ≠ none),
    List.nodup_range.filter _, fun p => by simp, ?_⟩
  rw [← List.sum_toFinset _ (List.nodup_range.filter _), List.toFinset_filter, sum_filter]
  unfold load
  have : (List.range P.n).toFinset = range P.n := by ext; simp
  rw [this]
  refine sum_congr rfl fun p _ => ?_
  unfold wMove
  by_cases h1 : PathOK P par p l k <;> by_cases h2 : P.mort p l = none <;> simp [h1, h2]

/-- A box with a load that is too heavy has children with this load. -/
theorem heavy_children (hw : inp.WeightsOK) (ha : inp.adaptive = true) {L : Nat}
    {s : State} {hc : Nat → Nat → Bool} {o : Bool}
    (hf : FinOK inp.params inp.skipPrune (fun l => s.used l + inp.pad l) L
      { s with hasCh := hc, oversize := o })
    (hlev : buildLevels inp.params = .ok (L, s)) {l k : Nat} (hk : k < s.used l)
    (hl : inp.maxWeight < mload inp.params s l k) :
    Kept inp.skipPrune { s with hasCh := hc, oversize := o } l k ∧
    ∃ ps : List Nat, ps.Nodup ∧ inp.maxWeight < (ps.map inp.weight).sum ∧
      ∀ p ∈ ps, p < inp.n ∧ PathOK inp.params s.parent p l k ∧
        ∃ m < inp.params.nch, ∃ c, s.child m l k = some c ∧
        Kept inp.skipPrune { s with hasCh := hc, oversize := o } (l + 1) c ∧
        PathOK inp.params s.parent p (l + 1) c := by
  have hch : hc l k = true := by
    by_contra hne
    have := buildLevels_leafOK hw.wok ha hw.levels hlev hf.inv l k hk (by simpa using hne)
      (by have := hf.inv.used_level hk; omega)
    have h2 : mload inp.params s l k ≤ inp.maxWeight := this
    omega
  obtain ⟨ps, h1, h2, h3⟩ := load_list (P := inp.params) (par := s.parent) l k
  have hsum : inp.maxWeight < (ps.map inp.weight).sum := by
    have : (ps.map inp.params.weight).sum = mload inp.params s l k := h3
    have e : inp.params.weight = inp.weight := rfl
    rw [e] at this
    omega
  have hpath : ∀ p ∈ ps, ∃ m < inp.params.nch, ∃ c, s.child m l k = some c ∧
        Kept inp.skipPrune { s with hasCh := hc, oversize := o } (l + 1) c ∧
        PathOK inp.params s.parent p (l + 1) c := by
    intro p hp
    obtain ⟨p1, p2, p3⟩ := (h2 p).1 hp
    obtain ⟨m, hm⟩ := Option.ne_none_iff_exists'.1 p3
    have hlt := Input.mortOK inp p l m hm
    obtain ⟨_, base, hd, hle, h4⟩ := hf.inv.children l k hch
    obtain ⟨h5, h6, _⟩ := h4 m hlt
    have hmod : (base + m) % inp.params.nch = m := by
      obtain ⟨q, hq⟩ := hd
      rw [hq, Nat.mul_add_mod, Nat.mod_eq_of_lt hlt]
    have hu : base + m < s.used (l + 1) := by
      have : base + inp.params.nch ≤ s.used (l + 1) := hle
      omega
    have hpc : PathOK inp.params s.parent p (l + 1) (base + m) := by
      refine ⟨by rw [hmod]; exact hm, ?_⟩
      have : s.parent (l + 1) (base + m) = k := h6
      rw [this]; exact p2
    have hcnt := hf.inv.path_count p1 (l := l + 1) hu hpc
    exact ⟨m, hlt, base + m, h5, ⟨hu, .inr (by omega)⟩, hpc⟩
  refine ⟨?_, ps, h1, hsum, fun p hp => ⟨((h2 p).1 hp).1, ((h2 p).1 hp).2.1, hpath p hp⟩⟩
  cases ps with
  | nil => simp at hsum
  | cons p ps =>
    obtain ⟨p1, p2, p3⟩ := (h2 p).1 (by simp)
    have := hf.inv.path_count p1 (l := l) hk p2
    exact ⟨hk, .inr (by omega)⟩

end

/-- **C74.** Adaptive builds do not split without need, however the device rounds: for every box `b`
with a child there is a box `c`, no larger than `b`, whose children hold particles that are too heavy
together.  Without level restriction `c` is `b` itself.  With level restriction `c` is within three
times the size of `b`: even the block of three times the size of `c` around `c` is in that around
`b`. -/
theorem C74_split (inp : Input) (ok : inp.OK) (hw : inp.WeightsOK) (ha : inp.adaptive = true)
    (t : Built) (h : inp.build = .ok t) {u M : ℚ}
    (hF : inp.levelRestrict = true → inp.Fine u M t.tree.nlevels) (b : Nat) (hb : b < t.tree.nboxes)
    (hch : ∃ m < t.tree.nch, t.tree.child m b ≠ 0) :
    ∃ c < t.tree.nboxes, t.tree.level b ≤ t.tree.level c ∧ (inp.levelRestrict = false → c = b) ∧
      (∀ a < t.tree.dims, |t.tree.center b a - t.tree.center c a|
        ≤ 3 * (t.tree.rad (t.tree.level b) - t.tree.rad (t.tree.level c))) ∧
      ∃ ps : List Nat, ps.Nodup ∧ inp.maxWeight < (ps.map inp.weight).sum ∧
        ∀ p ∈ ps, ∃ m < t.tree.nch, t.tree.child m c ≠ 0 ∧ t.Holds inp (t.tree.child m c) p := by
  obtain ⟨L, s, hc, o, rfl, hf, _, hlev, _⟩ := Input.build_cases ok h
  obtain ⟨e1, e2, e3, e4⟩ := finish_hasCh inp.cloud inp.skipPrune (fun l => s.used l + inp.pad l) L s
    hc o
  obtain ⟨l, k, hk, rfl⟩ := hf.exists_nid hb
  have hsplit : hc l k = true := by
    obtain ⟨m, _, hm⟩ := hch
    obtain ⟨c, h1, _⟩ := hf.fin_child hk hm
    by_contra hne
    have := hf.inv.child_some m l k (.inl (by simpa using hne))
    rw [this] at h1
    cases h1
  obtain ⟨v, k', h1, h2, h3, h4, h5⟩ := buildLevels_splitOK hw.wok ha ok.ext_pos hw.levels hlev
    (fun hr n h1 h2 => (hF hr).adjOK ok h1 h2) hf.inv l k hsplit |>.heavier hf.inv ok.ext_pos
  have h3' : inp.maxWeight < mload inp.params s v k' := h3
  obtain ⟨hk', ps, p1, p2, p3⟩ := heavy_children hw ha hf hlev h2 h3'
  have hrad : ∀ i, (finish inp.params inp.cloud inp.skipPrune (fun l => s.used l + inp.pad l) L s).tree.rad i
      = radius inp.params i := by
    intro i
    unfold BoxTree.rad radius
    rw [Nat.add_comm]
    rfl
  have hlb : (finish inp.params inp.cloud inp.skipPrune (fun l => s.used l + inp.pad l) L s).tree.level
      (nid inp.skipPrune (fun l => s.used l + inp.pad l) L s l k) = l := hf.fin_level hk
  have hlc : (finish inp.params inp.cloud inp.skipPrune (fun l => s.used l + inp.pad l) L s).tree.level
      (nid inp.skipPrune (fun l => s.used l + inp.pad l) L s v k') = v := hf.fin_level hk'
  have hcb : (finish inp.params inp.cloud inp.skipPrune (fun l => s.used l + inp.pad l) L s).tree.center
      (nid inp.skipPrune (fun l => s.used l + inp.pad l) L s l k) = s.center l k := hf.fin_center hk
  have hcc : (finish inp.params inp.cloud inp.skipPrune (fun l => s.used l + inp.pad l) L s).tree.center
      (nid inp.skipPrune (fun l => s.used l + inp.pad l) L s v k') = s.center v k' := hf.fin_center hk'
  refine ⟨nid inp.skipPrune (fun l => s.used l + inp.pad l) L s v k', hf.nid_lt hk', ?_, ?_, ?_, ps,
    p1, p2, ?_⟩
  · have e : nid inp.skipPrune (fun l => s.used l + inp.pad l) L { s with hasCh := hc, oversize := o } l k
      = nid inp.skipPrune (fun l => s.used l + inp.pad l) L s l k := rfl
    rw [e, hlb, hlc]; exact h1
  · intro hr
    obtain ⟨rfl, rfl⟩ := h4 hr
    rfl
  · intro a hax
    have e : nid inp.skipPrune (fun l => s.used l + inp.pad l) L { s with hasCh := hc, oversize := o } l k
      = nid inp.skipPrune (fun l => s.used l + inp.pad l) L s l k := rfl
    rw [e, hlb, hlc, hcb, hcc, hrad, hrad]
    exact h5 a hax
  · intro p hp
    obtain ⟨q1, q2, m, hm, c, q3, q4, q5⟩ := p3 p hp
    have h7 : (finish inp.params inp.cloud inp.skipPrune (fun l => s.used l + inp.pad l) L s).tree.child
        m (nid inp.skipPrune (fun l => s.used l + inp.pad l) L s v k')
        = nid inp.skipPrune (fun l => s.used l + inp.pad l) L s (v + 1) c :=
      hf.fin_child_kept hk' q3 q4
    refine ⟨m, hm, ?_, ?_⟩
    · rw [h7]; exact hf.nid_ne_zero q4
    · rw [h7]
      have := path_holds hf q4 q1 q5
      unfold Built.Holds at *
      rw [e1, e2, e3, e4] at this
      exact this

section
variable {inp : Input}

theorem same_cell_path (he : inp.haveExtent = false) (ok : inp.Placed) (hx : inp.arith = .exact)
    {par : Nat → Nat → Nat} {p q : Nat} (hp : p < inp.n) (hq : q < inp.n) {l k : Nat}
    (hc : inp.SameCell l p q) (hpath : PathOK inp.params par p l k) :
    PathOK inp.params par q l k :=
  cell_path he ok hx hp hq l k (fun a ha => (cell_iff ok hp hq ha l).2 (hc a ha)) hpath

/-- Without level restriction, a particle has a box on a level exactly if its cell on the level above
is too heavy. -/
theorem has_box_iff (he : inp.haveExtent = false) (ok : inp.Placed) (hx : inp.arith = .exact)
    (hw : inp.WeightsOK) (ha : inp.adaptive = true) (hr : inp.levelRestrict = false) {L : Nat}
    {s : State} {hc : Nat → Nat → Bool} {o : Bool}
    (hf : FinOK inp.params inp.skipPrune (fun l => s.used l + inp.pad l) L
      { s with hasCh := hc, oversize := o })
    (hlev : buildLevels inp.params = .ok (L, s)) {p : Nat} (hp : p < inp.n) (l : Nat) :
    (∃ k < s.used l, PathOK inp.params s.parent p l k) ↔ l = 0 ∨ ∃ ps : List Nat, ps.Nodup ∧
      (∀ q ∈ ps, q < inp.n ∧ inp.SameCell (l - 1) p q) ∧
      inp.maxWeight < (ps.map inp.weight).sum := by
  induction l with
  | zero =>
    have h0 : s.used 0 = 1 := hf.inv.used_zero
    exact ⟨fun _ => .inl rfl, fun _ => ⟨0, by omega, trivial⟩⟩
  | succ l ih =>
    rw [Nat.add_sub_cancel]
    constructor
    · rintro ⟨k, h1, h2⟩
      right
      obtain ⟨q1, q2, _⟩ := hf.inv.parent_ok l k h1
      obtain ⟨v, k', _, _, h3, h4, _⟩ := buildLevels_splitOK hw.wok ha ok.toOK.ext_pos hw.levels hlev
        (fun h => by rw [show inp.params.levelRestrict = false from hr] at h; cases h) hf.inv _ _ q2
        |>.heavier hf.inv ok.toOK.ext_pos
      obtain ⟨rfl, rfl⟩ := h4 hr
      obtain ⟨ps, p1, p2, p3⟩ := load_list (P := inp.params) (par := s.parent) v (s.parent (v + 1) k)
      refine ⟨ps, p1, fun q hq => ?_, ?_⟩
      · obtain ⟨r1, r2, _⟩ := (p2 q).1 hq
        refine ⟨r1, fun a hax => ?_⟩
        exact (cell_iff ok hp r1 hax v).1 (path_cell ok hx hf.inv hp r1 q1 h2.2 r2 a hax)
      · exact lt_of_lt_of_eq h3 p3.symm
    · rintro (h0 | ⟨ps, p1, p2, p3⟩)
      · omega
      · obtain ⟨k, k1, k2⟩ := ih.2 (by
          rcases Nat.eq_zero_or_pos l with h0 | h0
          · exact .inl h0
          · right
            obtain ⟨l, rfl⟩ : ∃ l', l = l' + 1 := ⟨l - 1, by omega⟩
            refine ⟨ps, p1, fun q hq => ⟨(p2 q hq).1, fun a hax => ?_⟩, p3⟩
            rw [Nat.add_sub_cancel]
            refine (cell_iff ok hp (p2 q hq).1 hax l).1
              (cell_mono ok hx hp (p2 q hq).1 hax 1 l ?_)
            exact (cell_iff ok hp (p2 q hq).1 hax (l + 1)).2 ((p2 q hq).2 a hax))
        have hle := list_load (P := inp.params) (par := s.parent) (l := l) (k := k) p1 fun q hq =>
          ⟨(p2 q hq).1, same_cell_path he ok hx hp (p2 q hq).1 (p2 q hq).2 k2,
            Input.morton_moves he _ _⟩
        have hch : hc l k = true := by
          by_contra hne
          have h1 : mload inp.params s l k ≤ inp.maxWeight := buildLevels_leafOK hw.wok ha hw.levels
            hlev hf.inv l k k1 (by simpa using hne) (by have := hf.inv.used_level k1; omega)
          have h2 : (ps.map inp.weight).sum ≤ mload inp.params s l k := hle
          omega
        obtain ⟨m, hm⟩ := Option.ne_none_iff_exists'.1 (Input.morton_moves he p l)
        have hlt := Input.mortOK inp p l m hm
        obtain ⟨_, base, hd, hb, h4⟩ := hf.inv.children l k hch
        obtain ⟨h5, h6, _⟩ := h4 m hlt
        have hmod : (base + m) % inp.params.nch = m := by
          obtain ⟨q, hq⟩ := hd
          rw [hq, Nat.mul_add_mod, Nat.mod_eq_of_lt hlt]
        have hu : base + inp.params.nch ≤ s.used (l + 1) := hb
        have hpar : s.parent (l + 1) (base + m) = k := h6
        exact ⟨base + m, by omega, by rw [hmod]; exact hm, by rw [hpar]; exact k2⟩

end

/-- **C74** for points and exact arithmetic: the tree of an adaptive build without level restriction
is determined by the particles.  A particle is in a box of level `l` exactly if `l` is 0 or the
particles that share its cell of the grid of level `l - 1` are too heavy together. -/
theorem C74_canonical (inp : Input) (ok : inp.Placed) (hx : inp.arith = .exact) (hw : inp.WeightsOK)
    (ha : inp.adaptive = true) (hr : inp.levelRestrict = false) (he : inp.haveExtent = false)
    (t : Built) (h : inp.build = .ok t) (p : Nat) (hp : p < inp.n) (l : Nat) :
    (∃ b < t.tree.nboxes, t.tree.level b = l ∧ t.Holds inp b p) ↔
      l = 0 ∨ ∃ ps : List Nat, ps.Nodup ∧ (∀ q ∈ ps, q < inp.n ∧ inp.SameCell (l - 1) p q) ∧
        inp.maxWeight < (ps.map inp.weight).sum := by
  obtain ⟨L, s, rfl, hf, hlev⟩ := Input.build_fin ok.toOK (.inr he) h
  rw [← has_box_iff (hc := s.hasCh) (o := s.oversize) he ok hx hw ha hr hf hlev hp l]
  constructor
  · rintro ⟨b, hb, rfl, hh⟩
    obtain ⟨l, k, hk, rfl⟩ := hf.exists_nid hb
    have hlb : (finish inp.params inp.cloud inp.skipPrune (fun l => s.used l + inp.pad l) L s).tree.level
      (nid inp.skipPrune (fun l => s.used l + inp.pad l) L s l k) = l := hf.fin_level hk
    rw [hlb]
    exact ⟨k, hk.1, (holds_path ok.toOK hf hk hh).2⟩
  · rintro ⟨k, h1, h2⟩
    have hk : Kept inp.skipPrune s l k := by
      have := hf.inv.path_count hp h1 h2
      exact ⟨h1, .inr (by omega)⟩
    exact ⟨_, hf.nid_lt hk, hf.fin_level hk, path_holds hf hk hp h2⟩

section
variable {inp : Input}

open Finset in
open scoped Classical in
theorem weight_list {P : Params} {par : Nat → Nat → Nat} (l k : Nat) :
    ∃ ps : List Nat, ps.Nodup ∧ (∀ p, p ∈ ps ↔ p < P.n ∧ PathOK P par p l k) ∧
      (ps.map P.weight).sum = load P par l k P.weight := by
  refine ⟨(List.range P.n).filter fun p => decide (PathOK P par p l k),
    List.nodup_range.filter _, fun p => by simp, ?_⟩
  rw [← List.sum_toFinset _ (List.nodup_range.filter _), List.toFinset_filter, sum_filter]
  unfold load
  have : (List.range P.n).toFinset = range P.n := by ext; simp
  rw [this]
  exact sum_congr rfl fun p _ => by simp

open Finset in
theorem list_weight {P : Params} {par : Nat → Nat → Nat} {l k : Nat} {ps : List Nat} (hn : ps.Nodup)
    (h : ∀ p ∈ ps, p < P.n ∧ PathOK P par p l k) :
    (ps.map P.weight).sum ≤ load P par l k P.weight := by
  rw [← List.sum_toFinset _ hn]
  unfold load
  refine le_trans (sum_le_sum fun p hp => ?_) (sum_le_sum_of_subset (s := ps.toFinset) ?_)
  · simp [(h p (List.mem_toFinset.1 hp)).2]
  · intro p hp
    exact mem_range.2 (h p (List.mem_toFinset.1 hp)).1

end

/-- **C74**, depth: in every mode, with or without extents and rounding, a tree with more than one
level has a box on its last but one level whose particles are too heavy together: no level is
there without need. -/
theorem C74_depth (inp : Input) (ok : inp.OK) (hw : inp.WeightsOK)
    (hr : inp.levelRestrict = true → inp.adaptive = true) (t : Built) (h : inp.build = .ok t)
    (hl : 2 ≤ t.tree.nlevels) :
    ∃ b < t.tree.nboxes, t.tree.level b + 2 = t.tree.nlevels ∧ ∃ ps : List Nat, ps.Nodup ∧
      (∀ p ∈ ps, t.Holds inp b p) ∧ inp.maxWeight < (ps.map inp.weight).sum := by
  obtain ⟨L, s, hc, o, rfl, hf, _, hlev, _⟩ := Input.build_cases ok h
  obtain ⟨e1, e2, e3, e4⟩ := finish_hasCh inp.cloud inp.skipPrune (fun l => s.used l + inp.pad l) L s
    hc o
  have hL : 2 ≤ L + 1 := hl
  obtain ⟨l, k, h1, h2, h3⟩ := buildLevels_deep hw.wok hw.levels hr hlev (by omega)
  obtain ⟨ps, p1, p2, p3⟩ := weight_list (P := inp.params) (par := s.parent) l k
  have hsum : inp.maxWeight < (ps.map inp.weight).sum := lt_of_lt_of_eq h3 p3.symm
  have hk : Kept inp.skipPrune { s with hasCh := hc, oversize := o } l k := by
    cases ps with
    | nil => simp at hsum
    | cons p ps =>
      obtain ⟨q1, q2⟩ := (p2 p).1 (by simp)
      have := hf.inv.path_count q1 (l := l) h2 q2
      exact ⟨h2, .inr (by omega)⟩
  have hlb : (finish inp.params inp.cloud inp.skipPrune (fun l => s.used l + inp.pad l) L s).tree.level
      (nid inp.skipPrune (fun l => s.used l + inp.pad l) L s l k) = l := hf.fin_level hk
  refine ⟨nid inp.skipPrune (fun l => s.used l + inp.pad l) L s l k, hf.nid_lt hk, ?_, ps, p1, ?_, hsum⟩
  · rw [hlb]
    show l + 2 = L + 1
    omega
  · intro p hp
    obtain ⟨q1, q2⟩ := (p2 p).1 hp
    have := path_holds hf hk q1 q2
    unfold Built.Holds at *
    rw [e1, e2, e3, e4] at this
    exact this

/-- **C75.** Without extents, in a tree that is not adaptive exactly the boxes of the last level are
leaves, however the device rounds. -/
theorem C75_leaves_on_last_level (inp : Input) (ok : inp.OK) (hw : inp.WeightsOK)
    (ha : inp.adaptive = false) (hr : inp.levelRestrict = false) (he : inp.haveExtent = false)
    (t : Built) (h : inp.build = .ok t) (b : Nat) (hb : b < t.tree.nboxes) :
    (∀ m < t.tree.nch, t.tree.child m b = 0) ↔ t.tree.level b + 1 = t.tree.nlevels := by
  obtain ⟨L, s, rfl, hf, hlev⟩ := Input.build_fin ok (.inr he) h
  obtain ⟨hU, _⟩ := buildLevels_uniform hw.wok hw.levels ha hr he hlev
  obtain ⟨l, k, hk, rfl⟩ := hf.exists_nid hb
  have hlb : (finish inp.params inp.cloud inp.skipPrune (fun l => s.used l + inp.pad l) L s).tree.level
      (nid inp.skipPrune (fun l => s.used l + inp.pad l) L s l k) = l := hf.fin_level hk
  have hul := hf.inv.used_level hk.1
  rw [hlb]
  show _ ↔ l + 1 = L + 1
  constructor
  · intro hl
    have h1 := (hf.leaf_of_fin (.inr he) hk hl).2
    by_contra hne
    rw [hU l k hk.1 (by omega)] at h1
    cases h1
  · intro hl m hm
    by_contra hne
    obtain ⟨c, h1, _⟩ := hf.fin_child hk hne
    have := (hf.inv.hasCh_used l k (hf.inv.child_ok h1).1).2
    omega

/-- **C75**, weights: without extents, the particles of a leaf of a tree that is not adaptive are not
too heavy together. -/
theorem C75_leaf_weight (inp : Input) (ok : inp.OK) (hw : inp.WeightsOK)
    (ha : inp.adaptive = false) (hr : inp.levelRestrict = false) (he : inp.haveExtent = false)
    (t : Built) (h : inp.build = .ok t) (b : Nat) (hb : b < t.tree.nboxes)
    (hleaf : ∀ m < t.tree.nch, t.tree.child m b = 0) (ps : List Nat) (hn : ps.Nodup)
    (hps : ∀ p ∈ ps, t.Holds inp b p) : (ps.map inp.weight).sum ≤ inp.maxWeight := by
  have hlast := (C75_leaves_on_last_level inp ok hw ha hr he t h b hb).1 hleaf
  obtain ⟨L, s, rfl, hf, hlev⟩ := Input.build_fin ok (.inr he) h
  obtain ⟨_, hW⟩ := buildLevels_uniform hw.wok hw.levels ha hr he hlev
  obtain ⟨l, k, hk, rfl⟩ := hf.exists_nid hb
  have hlb : (finish inp.params inp.cloud inp.skipPrune (fun l => s.used l + inp.pad l) L s).tree.level
      (nid inp.skipPrune (fun l => s.used l + inp.pad l) L s l k) = l := hf.fin_level hk
  rw [hlb] at hlast
  have hlast' : l + 1 = L + 1 := hlast
  exact le_trans (list_weight (P := inp.params) (par := s.parent) (l := l) (k := k) hn
    fun p hp => holds_path ok hf hk (hps p hp)) (hW l k hk.1 hlast')

namespace Ex

/-- Three points on a line, with level restriction. -/
def close : Input :=
  { plane with dims := 1, x := fun _ p => [1 / 2, 13 / 20, 1 / 10].getD p 0 }

/-- The same without level restriction. -/
def free : Input := { close with levelRestrict := false }

/-- The same, not adaptive. -/
def even : Input := { free with adaptive := false }

theorem close_placed : close.Placed where
  dims_pos := by decide
  n_pos := by decide
  nsources_le := by decide
  separate := by decide
  ext_pos := by decide +kernel
  cube := by decide +kernel
  radius_nonneg := by decide +kernel
  lower := by decide +kernel
  upper := by decide +kernel
  off_upper := by decide +kernel

theorem free_placed : free.Placed := { close_placed with }
theorem even_placed : even.Placed := { close_placed with }
theorem close_weights : close.WeightsOK := ⟨by decide, by decide, by decide⟩
theorem free_weights : free.WeightsOK := ⟨by decide, by decide, by decide⟩
theorem even_weights : even.WeightsOK := ⟨by decide, by decide, by decide⟩

end Ex

/-- With level restriction box 1 is split although it has a single particle, with a weight that is not
above the limit; the reason is box 3, on level 2, which has two particles and is as far away as the
theorem allows. -/
example : Ex.close.OK ∧ Ex.close.WeightsOK ∧ Ex.close.adaptive = true ∧
    ∃ t, Ex.close.build = .ok t ∧ (∃ M, Ex.close.Fine 0 M t.tree.nlevels) ∧ 1 < t.tree.nboxes ∧
      (∃ m < t.tree.nch, t.tree.child m 1 ≠ 0) ∧ (∀ p < 3, t.Holds Ex.close 1 p → p = 2) ∧
      t.tree.level 3 = 2 ∧
      |t.tree.center 1 0 - t.tree.center 3 0|
        = 3 * (t.tree.rad (t.tree.level 1) - t.tree.rad (t.tree.level 3)) := by
  obtain ⟨t, h, h1, h2, h3, h4, h5, h6, h7, h8⟩ := Ex.look_true (e := Ex.close.build) (f := fun t =>
      1 < t.tree.nboxes ∧ 0 < t.tree.nch ∧ t.tree.child 0 1 ≠ 0 ∧ ¬ t.Holds Ex.close 1 0 ∧
      ¬ t.Holds Ex.close 1 1 ∧ t.tree.level 3 = 2 ∧
      t.tree.center 3 0 - t.tree.center 1 0 = 3 / 8 ∧
      3 * (t.tree.rad (t.tree.level 1) - t.tree.rad (t.tree.level 3)) = 3 / 8) (by decide +kernel)
  refine ⟨Ex.close_placed.toOK, Ex.close_weights, rfl, t, h,
    Input.fine_exact Ex.close_placed.toOK rfl _, h1, ⟨0, h2, h3⟩, ?_, h6, ?_⟩
  · intro p hp hh
    interval_cases p
    · exact absurd hh h4
    · exact absurd hh h5
    · rfl
  · rw [h8, abs_sub_comm, h7]
    norm_num

/-- Without level restriction: two particles share a cell of level 2 and are in boxes of level 3, the
third one is alone in its cell of level 1 and is in no box of level 2. -/
example : Ex.free.Placed ∧ Ex.free.arith = .exact ∧ Ex.free.WeightsOK ∧ Ex.free.adaptive = true ∧
    Ex.free.levelRestrict = false ∧ Ex.free.haveExtent = false ∧
    ∃ t, Ex.free.build = .ok t ∧
      (∃ b < t.tree.nboxes, t.tree.level b = 3 ∧ t.Holds Ex.free b 0) ∧
      ¬ ∃ b < t.tree.nboxes, t.tree.level b = 2 ∧ t.Holds Ex.free b 2 :=
  ⟨Ex.free_placed, rfl, Ex.free_weights, rfl, rfl, rfl,
    Ex.look_true (e := Ex.free.build) (f := fun t =>
      (∃ b < t.tree.nboxes, t.tree.level b = 3 ∧ t.Holds Ex.free b 0) ∧
      ¬ ∃ b < t.tree.nboxes, t.tree.level b = 2 ∧ t.Holds Ex.free b 2) (by decide +kernel)⟩

/-- Not adaptive: the boxes of levels 0 to 2 have children, the three boxes of level 3 have none. -/
example : Ex.even.OK ∧ Ex.even.WeightsOK ∧ Ex.even.adaptive = false ∧
    Ex.even.levelRestrict = false ∧ Ex.even.haveExtent = false ∧
    ∃ t, Ex.even.build = .ok t ∧ t.tree.nlevels = 4 ∧ t.tree.nboxes = 8 ∧
      (∀ b < 5, ¬ ∀ m < t.tree.nch, t.tree.child m b = 0) ∧
      (∀ m < t.tree.nch, t.tree.child m 6 = 0) ∧ t.Holds Ex.even 6 0 :=
  ⟨Ex.even_placed.toOK, Ex.even_weights, rfl, rfl, rfl,
    Ex.look_true (e := Ex.even.build) (f := fun t => t.tree.nlevels = 4 ∧ t.tree.nboxes = 8 ∧
      (∀ b < 5, ¬ ∀ m < t.tree.nch, t.tree.child m b = 0) ∧
      (∀ m < t.tree.nch, t.tree.child m 6 = 0) ∧ t.Holds Ex.even 6 0) (by decide +kernel)⟩

end Boxtree.Build
