import Verif.Lemmas.Order
import Verif.Lemmas.Extents

/-! The returned arrays do not depend on the order of the particles. -/

namespace Boxtree.Build

/-- The cloud for the particles in another order. -/
def Cloud.reorder (C : Cloud) (f : Nat → Nat) : Cloud :=
  { C with x := fun a p => C.x a (f p), radius := fun p => C.radius (f p) }

/-- No box owns a particle before `q` and one from `q` on. -/
def Cut (F : Flat) (n q : Nat) : Prop := ∀ i < n, ∀ j < n, i < q → q ≤ j → F.pbox i ≠ F.pbox j

namespace FlatOK
variable {P : Params} {L : Nat} {F : Flat}

theorem first_of_climb {F : Flat} {cond : Nat → Bool} {fuel b x : Nat}
    (h : x ∈ climb F cond fuel b) : cond b = true := by
  cases fuel with
  | zero => simp [climb] at h
  | succ fuel =>
    unfold climb at h
    split at h
    · assumption
    · simp at h

theorem cut_start (h : FlatOK P L F) {b : Nat} (hb : b < F.nboxes) (hc : 0 < F.count b) :
    Cut F P.n (F.start b) := by
  intro i hi j hj h1 h2 he
  have hw := h.within _ b rfl hb hc
  have hm := (h.mem_startBoxes (i := F.start b) (by omega)).2 ⟨hb, hc, rfl⟩
  have h3 := first_of_climb hm
  rw [decide_eq_true_eq] at h3
  have hl := h.pbox_lt i hi
  have a1 := (h.part i hi _ hl).1 rfl
  have a2 := (h.part j hj _ hl).1 he.symm
  have a3 := (h.part (F.start b) (by omega) _ hl).2 ⟨by omega, by omega⟩
  rw [a3] at h3
  omega

theorem cut_end (h : FlatOK P L F) {b : Nat} (hb : b < F.nboxes) (hc : 0 < F.count b) :
    Cut F P.n (F.start b + F.count b) := by
  intro i hi j hj h1 h2 he
  have hw := h.within _ b rfl hb hc
  have hm := (h.mem_endBoxes (i := F.start b + F.count b - 1) (b := b) (by omega)).2
    ⟨hb, hc, by omega⟩
  have h3 := first_of_climb hm
  rw [decide_eq_true_eq] at h3
  have hl := h.pbox_lt i hi
  have a1 := (h.part i hi _ hl).1 rfl
  have a2 := (h.part j hj _ hl).1 he.symm
  have a3 := (h.part (F.start b + F.count b - 1) (by omega) _ hl).2 ⟨by omega, by omega⟩
  rw [a3] at h3
  have := h.own_le hl
  omega

theorem cut_own (h : FlatOK P L F) {b : Nat} (hb : b < F.nboxes) (hc : 0 < F.count b) :
    Cut F P.n (F.start b + fown F b) := by
  rcases Nat.eq_zero_or_pos (fown F b) with h0 | h0
  · rw [h0]; exact h.cut_start hb hc
  · intro i hi j hj h1 h2 he
    have hl := h.pbox_lt i hi
    have a1 := (h.part i hi _ hl).1 rfl
    have a2 := (h.part j hj _ hl).1 he.symm
    have hq : F.start b + fown F b - 1 < P.n := by omega
    have a3 := (h.part _ hq b hb).2 ⟨by omega, by omega⟩
    have a4 := (h.part _ hq _ hl).2 ⟨by omega, by omega⟩
    rw [a3] at a4
    rw [← a4] at a2
    omega

end FlatOK

section
variable {P : Params} {f : Nat → Nat} {level : Nat} {s s' : State}

/-- A particle is in the deepest box into which it belongs. -/
theorem Inv.box_unique (h : Inv P level s) {l k i : Nat} (hk : k < s.used l) (hi : i < P.n)
    (hp : PathOK P s.parent (s.ids i) l k) (hc : s.hasCh l k = true → P.mort (s.ids i) l = none) :
    s.box i = (l, k) := by
  have hq := h.path i hi
  have hu := (h.box_used hi).1
  rcases Nat.lt_trichotomy (s.box i).1 l with hlt | heq | hgt
  · obtain ⟨d, rfl⟩ : ∃ d, l = (s.box i).1 + d + 1 := ⟨l - (s.box i).1 - 1, by omega⟩
    obtain ⟨a, a1, a2, a3, a4⟩ := h.path_anc d _ k hk hp
    have := h.path_unique _ _ _ a1 hu a2 hq
    rw [this] at a3
    exact absurd (h.stay i hi a3) a4
  · have := h.path_unique _ _ _ (by rw [heq]; exact hk) hu (by rw [heq]; exact hp) hq
    exact Prod.ext heq this.symm
  · obtain ⟨d, hd⟩ : ∃ d, (s.box i).1 = l + d + 1 := ⟨(s.box i).1 - l - 1, by omega⟩
    rw [hd] at hq hu
    obtain ⟨a, a1, a2, a3, a4⟩ := h.path_anc d l _ hu hq
    have := h.path_unique _ _ _ a1 hk a2 hp
    rw [this] at a3
    exact absurd (hc a3) a4

/-- Where the particles are in the other tree. -/
theorem SameBoxes.moved (hf : IsPerm P.n f) (h : Inv P level s) (h' : Inv (P.reorder f) level s')
    (hs : SameBoxes s s') : ∃ m : Nat → Nat, (∀ i < P.n, m i < P.n) ∧
      (∀ i < P.n, ∀ j < P.n, m i = m j → i = j) ∧
      (∀ i < P.n, f (s'.ids (m i)) = s.ids i) ∧ ∀ i < P.n, s'.box (m i) = s.box i := by
  have hsurj : ∀ p < P.n, ∃ j < P.n, s'.ids j = p := fun p hp =>
    perm_surj h'.ids_lt h'.ids_inj hp
  have hex : ∀ i, ∃ j, i < P.n → j < P.n ∧ f (s'.ids j) = s.ids i := by
    intro i
    by_cases hi : i < P.n
    · obtain ⟨p, hp, hp'⟩ := hf.2.2 (s.ids i) (h.ids_lt i hi)
      obtain ⟨j, hj, rfl⟩ := hsurj p hp
      exact ⟨j, fun _ => ⟨hj, hp'⟩⟩
    · exact ⟨0, fun hc => absurd hc hi⟩
  choose m hm using hex
  refine ⟨m, fun i hi => (hm i hi).1, ?_, fun i hi => (hm i hi).2, ?_⟩
  · intro i hi j hj he
    apply h.ids_inj i hi j hj
    rw [← (hm i hi).2, ← (hm j hj).2, he]
  · intro i hi
    obtain ⟨h1, h2⟩ := hm i hi
    apply h'.box_unique
    · rw [hs]; exact (h.box_used hi).1
    · exact h1
    · rw [pathOK_reorder, h2, hs]
      exact h.path i hi
    · intro hc
      change P.mort (f (s'.ids (m i))) _ = none
      rw [h2]
      refine h.stay i hi ?_
      rw [hs] at hc
      exact hc

/-- The boxes of the positions are the same. -/
theorem SameBoxes.box (h : Inv P level s) (h' : Inv (P.reorder f) level s')
    (hs : SameBoxes s s') {i : Nat} (hi : i < P.n) : s'.box i = s.box i := by
  rw [h'.part i hi (s.box i).1 (s.box i).2, hs.own]
  have := (h.part i hi (s.box i).1 (s.box i).2).1 rfl
  rw [hs]
  exact this

/-- An injective map of `0..q` into itself that keeps a property. -/
theorem count_of_inj {p p' : Nat → Prop} [DecidablePred p] [DecidablePred p'] {q : Nat}
    {m : Nat → Nat} (h1 : ∀ i < q, m i < q) (h2 : ∀ i < q, ∀ j < q, m i = m j → i = j)
    (h3 : ∀ i < q, p' (m i) ↔ p i) : Nat.count p' q = Nat.count p q := by
  rw [count_eq_sum, count_eq_sum]
  have hm : ∀ i ∈ Finset.range q, m i ∈ Finset.range q := by
    intro i hi; rw [Finset.mem_range] at *; exact h1 i hi
  have hinj : Set.InjOn m (Finset.range q : Set Nat) := by
    intro i hi j hj he
    simp only [Finset.coe_range, Set.mem_Iio] at hi hj
    exact h2 i hi j hj he
  refine (Finset.sum_nbij m hm hinj
    (Finset.surjOn_of_injOn_of_card_le m hm hinj (le_refl _)) ?_).symm
  intro i hi
  simp only [h3 i (Finset.mem_range.1 hi)]

end

/-- What is known about two runs with the particles in different orders. -/
structure Reord (P : Params) (f : Nat → Nat) (skip : Bool) (len : Nat → Nat) (L : Nat)
    (s s' : State) : Prop where
  perm : IsPerm P.n f
  fin : FinOK P skip len L s
  fin' : FinOK (P.reorder f) skip len L s'
  same : SameBoxes s s'

namespace Reord
variable {P : Params} {C : Cloud} {f : Nat → Nat} {skip : Bool} {len : Nat → Nat} {L : Nat}
  {s s' : State}

/-- The arrays of the boxes are the same. -/
theorem flat (h : Reord P f skip len L s s') :
    FinOK.fin (P.reorder f) skip len L s' =
      { FinOK.fin P skip len L s with pbox := (FinOK.fin (P.reorder f) skip len L s').pbox } := by
  rw [h.same]; rfl

theorem pbox (h : Reord P f skip len L s s') {i : Nat} (hi : i < P.n) :
    (FinOK.fin (P.reorder f) skip len L s').pbox i = (FinOK.fin P skip len L s).pbox i := by
  have hb := h.same.box h.fin.inv h.fin'.inv hi
  change dstBoxId (keeps skip len L s') (levelStart len (s'.box i).1 + (s'.box i).2) =
    dstBoxId (keeps skip len L s) (levelStart len (s.box i).1 + (s.box i).2)
  rw [hb, h.same]
  rfl

/-- Where the particles are in the other tree. -/
theorem moved (h : Reord P f skip len L s s') : ∃ m : Nat → Nat, (∀ i < P.n, m i < P.n) ∧
      (∀ i < P.n, ∀ j < P.n, m i = m j → i = j) ∧
      (∀ i < P.n, f (s'.ids (m i)) = s.ids i) ∧
      (∀ i < P.n, (FinOK.fin P skip len L s).pbox (m i) = (FinOK.fin P skip len L s).pbox i) ∧
      ∀ j < P.n, ∃ i < P.n, m i = j := by
  obtain ⟨m, h1, h2, h3, h4⟩ := h.same.moved h.perm h.fin.inv h.fin'.inv
  refine ⟨m, h1, h2, h3, ?_, fun j hj => perm_surj h1 h2 hj⟩
  intro i hi
  have hb := h.same.box h.fin.inv h.fin'.inv (h1 i hi)
  have : s.box (m i) = s.box i := by rw [← hb, h4 i hi]
  change dstBoxId _ (levelStart len (s.box (m i)).1 + (s.box (m i)).2) =
    dstBoxId _ (levelStart len (s.box i).1 + (s.box i).2)
  rw [this]

/-- The particles stay on their side of a cut. -/
theorem side {F : Flat} {n q : Nat} {m : Nat → Nat} (hc : Cut F n q) (h1 : ∀ i < n, m i < n)
    (h4 : ∀ i < n, F.pbox (m i) = F.pbox i) {i : Nat} (hi : i < n) : m i < q ↔ i < q := by
  have := h1 i hi
  constructor
  · intro h
    by_contra hq
    exact hc (m i) (h1 i hi) i hi h (by omega) (h4 i hi)
  · intro h
    by_contra hq
    exact hc i hi (m i) (h1 i hi) h (by omega) (h4 i hi).symm

/-- The permutation respects the kinds. -/
def Kinds (C : Cloud) (n : Nat) (f : Nat → Nat) : Prop :=
  C.sourcesAreTargets = false → ∀ p < n, f p < C.nsources ↔ p < C.nsources

theorem kind_iff (h : Reord P f skip len L s s') (hk : Kinds C P.n f) {m : Nat → Nat}
    (h1 : ∀ i < P.n, m i < P.n) (h3 : ∀ i < P.n, f (s'.ids (m i)) = s.ids i) (src : Bool) {i : Nat}
    (hi : i < P.n) : (C.reorder f).kind s'.ids src (m i) ↔ C.kind s.ids src i := by
  unfold Cloud.kind
  cases hb : C.sourcesAreTargets with
  | true => exact iff_of_true (.inl hb) (.inl rfl)
  | false =>
    have hb' : (C.reorder f).sourcesAreTargets = false := hb
    rw [hb']
    simp only [Bool.false_eq_true, false_or]
    have := hk hb (s'.ids (m i)) (h.fin'.inv.ids_lt _ (h1 i hi))
    rw [h3 i hi] at this
    unfold IsKind
    rw [show (C.reorder f).nsources = C.nsources from rfl]
    cases src <;> simp [this]

/-- The same number of sources or targets before a cut. -/
theorem count_cut (h : Reord P f skip len L s s') (hk : Kinds C P.n f) (src : Bool) {q : Nat}
    (hq : q ≤ P.n) (hc : Cut (FinOK.fin P skip len L s) P.n q) :
    Nat.count ((C.reorder f).kind s'.ids src) q = Nat.count (C.kind s.ids src) q := by
  obtain ⟨m, h1, h2, h3, h4, _⟩ := h.moved
  apply count_of_inj (m := m)
  · intro i hi; exact (side hc h1 h4 (by omega)).2 hi
  · intro i hi j hj; exact h2 i (by omega) j (by omega)
  · intro i hi; exact h.kind_iff hk h1 h3 src (by omega)

theorem isKind_cut (h : Reord P f skip len L s s') (hk : Kinds C P.n f)
    (hb : C.sourcesAreTargets = false) (src : Bool) {q : Nat}
    (hq : q ≤ P.n) (hc : Cut (FinOK.fin P skip len L s) P.n q) :
    Nat.count (IsKind C.nsources s'.ids src) q = Nat.count (IsKind C.nsources s.ids src) q := by
  have := h.count_cut hk src hq hc
  rw [C.kind_sep hb, (C.reorder f).kind_sep hb] at this
  exact this

theorem boxStarts_none {F : Flat} (hF : FlatOK P L F) {ns : Nat} {ids : Nat → Nat} {src : Bool}
    {b : Nat} (hb : ¬ (b < F.nboxes ∧ 0 < F.count b)) : boxStarts F P.n ns ids src b = 0 :=
  scatter_none fun j hj hm => by
    have := (hF.mem_startBoxes hj).1 hm
    exact hb ⟨this.1, this.2.1⟩

theorem boxCounts_none {F : Flat} (hF : FlatOK P L F) {ns : Nat} {ids : Nat → Nat} {src : Bool}
    {b : Nat} (hb : ¬ (b < F.nboxes ∧ 0 < F.count b)) : boxCounts F P.n ns ids src b = 0 :=
  scatter_none fun j hj hm => by
    have := (hF.mem_endBoxes hj).1 hm
    exact hb ⟨this.1, this.2.1⟩

theorem boxNonchild_none {F : Flat} (hF : FlatOK P L F) {ns : Nat} {ids : Nat → Nat} {src : Bool}
    {b : Nat} (hb : ¬ b < F.nboxes) : boxNonchild F P.n ns ids src b = 0 :=
  scatter_none fun j hj hm => by
    split at hm
    · rw [List.mem_singleton] at hm
      exact hb (by rw [hm]; exact hF.pbox_lt j hj)
    · simp at hm

theorem flatOK' (h : Reord P f skip len L s s') :
    FlatOK P L (FinOK.fin (P.reorder f) skip len L s') := by
  have := h.fin'.flatOK
  exact { this with }

theorem starts (h : Reord P f skip len L s s') (hk : Kinds C P.n f)
    (hb : C.sourcesAreTargets = false) (src : Bool) :
    boxStarts (FinOK.fin (P.reorder f) skip len L s') P.n C.nsources s'.ids src =
      boxStarts (FinOK.fin P skip len L s) P.n C.nsources s.ids src := by
  funext b
  by_cases hc : b < (FinOK.fin P skip len L s).nboxes ∧ 0 < (FinOK.fin P skip len L s).count b
  · rw [h.fin.flatOK.boxStarts_eq hc.1 hc.2, h.flatOK'.boxStarts_eq (by rw [h.flat]; exact hc.1)
      (by rw [h.flat]; exact hc.2)]
    have hw := h.fin.flatOK.within _ b rfl hc.1 hc.2
    rw [show (FinOK.fin (P.reorder f) skip len L s').start = (FinOK.fin P skip len L s).start by
      rw [h.flat]]
    exact h.isKind_cut hk hb src (by omega) (h.fin.flatOK.cut_start hc.1 hc.2)
  · rw [boxStarts_none h.fin.flatOK hc, boxStarts_none h.flatOK' (by rw [h.flat]; exact hc)]

theorem counts (h : Reord P f skip len L s s') (hk : Kinds C P.n f)
    (hb : C.sourcesAreTargets = false) (src : Bool) :
    boxCounts (FinOK.fin (P.reorder f) skip len L s') P.n C.nsources s'.ids src =
      boxCounts (FinOK.fin P skip len L s) P.n C.nsources s.ids src := by
  funext b
  by_cases hc : b < (FinOK.fin P skip len L s).nboxes ∧ 0 < (FinOK.fin P skip len L s).count b
  · rw [h.fin.flatOK.boxCounts_eq hc.1 hc.2, h.flatOK'.boxCounts_eq (by rw [h.flat]; exact hc.1)
      (by rw [h.flat]; exact hc.2)]
    have hw := h.fin.flatOK.within _ b rfl hc.1 hc.2
    rw [show (FinOK.fin (P.reorder f) skip len L s').start = (FinOK.fin P skip len L s).start by
      rw [h.flat], show (FinOK.fin (P.reorder f) skip len L s').count
        = (FinOK.fin P skip len L s).count by rw [h.flat],
      h.isKind_cut hk hb src (by omega) (h.fin.flatOK.cut_start hc.1 hc.2),
      h.isKind_cut hk hb src (by omega) (h.fin.flatOK.cut_end hc.1 hc.2)]
  · rw [boxCounts_none h.fin.flatOK hc, boxCounts_none h.flatOK' (by rw [h.flat]; exact hc)]

theorem nonchild (h : Reord P f skip len L s s') (hk : Kinds C P.n f)
    (hb : C.sourcesAreTargets = false) (src : Bool) {b : Nat}
    (hh : (FinOK.fin P skip len L s).hasCh b = true) :
    boxNonchild (FinOK.fin (P.reorder f) skip len L s') P.n C.nsources s'.ids src b =
      boxNonchild (FinOK.fin P skip len L s) P.n C.nsources s.ids src b := by
  by_cases hbn : b < (FinOK.fin P skip len L s).nboxes
  · rw [h.fin.flatOK.boxNonchild_eq hbn hh, h.flatOK'.boxNonchild_eq (by rw [h.flat]; exact hbn)
      (by rw [h.flat]; exact hh)]
    rw [show (FinOK.fin (P.reorder f) skip len L s').start = (FinOK.fin P skip len L s).start by
      rw [h.flat], show fown (FinOK.fin (P.reorder f) skip len L s') b
        = fown (FinOK.fin P skip len L s) b by rw [h.flat]; rfl]
    rcases Nat.eq_zero_or_pos ((FinOK.fin P skip len L s).count b) with h0 | h0
    · have := h.fin.flatOK.own_le hbn
      rw [show fown (FinOK.fin P skip len L s) b = 0 by omega]
      simp
    · have hw := h.fin.flatOK.within _ b rfl hbn h0
      have := h.fin.flatOK.own_le hbn
      rw [h.isKind_cut hk hb src (by omega) (h.fin.flatOK.cut_start hbn h0),
        h.isKind_cut hk hb src (by omega) (h.fin.flatOK.cut_own hbn h0)]
  · rw [boxNonchild_none h.fin.flatOK hbn, boxNonchild_none h.flatOK' (by rw [h.flat]; exact hbn)]

theorem info_congr {both hasCh : Bool} {count sc tc sn tn sn' tn' : Nat}
    (h : hasCh = true → sn' = sn ∧ tn' = tn) :
    boxInfo both hasCh count sc tc sn' tn' = boxInfo both hasCh count sc tc sn tn := by
  cases hasCh with
  | true => rw [(h rfl).1, (h rfl).2]
  | false => rfl

/-- Flags and numbers of own particles. -/
def info (P : Params) (C : Cloud) (F : Flat) (ids : Nat → Nat) (b : Nat) : Nat × Nat × Nat :=
  boxInfo C.sourcesAreTargets (F.hasCh b) (F.count b)
    ((if C.sourcesAreTargets then F.count else boxCounts F P.n C.nsources ids true) b)
    ((if C.sourcesAreTargets then F.count else boxCounts F P.n C.nsources ids false) b)
    ((if P.haveExtent then
      (if C.sourcesAreTargets then F.nonchild else boxNonchild F P.n C.nsources ids true)
      else fun _ => 0) b)
    ((if P.haveExtent then
      (if C.sourcesAreTargets then F.nonchild else boxNonchild F P.n C.nsources ids false)
      else fun _ => 0) b)

theorem info_eq (h : Reord P f skip len L s s') (hk : Kinds C P.n f) (b : Nat) :
    info (P.reorder f) (C.reorder f) (FinOK.fin (P.reorder f) skip len L s') s'.ids b =
      info P C (FinOK.fin P skip len L s) s.ids b := by
  have e1 : (FinOK.fin (P.reorder f) skip len L s').hasCh = (FinOK.fin P skip len L s).hasCh := by
    rw [h.flat]
  have e2 : (FinOK.fin (P.reorder f) skip len L s').count = (FinOK.fin P skip len L s).count := by
    rw [h.flat]
  have e3 : (FinOK.fin (P.reorder f) skip len L s').nonchild
      = (FinOK.fin P skip len L s).nonchild := by
    rw [h.flat]
  unfold info
  rw [e1, e2, e3]
  change boxInfo C.sourcesAreTargets _ _
    ((if C.sourcesAreTargets then _ else boxCounts _ P.n C.nsources _ _) b)
    ((if C.sourcesAreTargets then _ else boxCounts _ P.n C.nsources _ _) b)
    ((if P.haveExtent then (if C.sourcesAreTargets then _ else boxNonchild _ P.n C.nsources _ _)
      else _) b)
    ((if P.haveExtent then (if C.sourcesAreTargets then _ else boxNonchild _ P.n C.nsources _ _)
      else _) b) = _
  cases hb : C.sourcesAreTargets with
  | true => rfl
  | false =>
    simp only [Bool.false_eq_true, if_false]
    rw [h.counts hk hb, h.counts hk hb]
    apply info_congr
    intro hh
    cases he : P.haveExtent with
    | false => exact ⟨rfl, rfl⟩
    | true => exact ⟨h.nonchild hk hb true hh, h.nonchild hk hb false hh⟩

/-- The own particles of a box, by position in the list of the kind and by position in the list of
all particles. -/
theorem forall_non {F : Flat} (hF : FlatOK P L F) {kind : Nat → Prop} [DecidablePred kind]
    {st non cu : Nat → Nat} (hK : KindOK F kind st non cu) {ids u : Nat → Nat}
    (hu : ∀ i < P.n, kind i → u (Nat.count kind i) = ids i) {b : Nat} (hb : b < F.nboxes)
    (Q : Nat → Prop) : (∀ j < non b, Q (u (st b + j))) ↔
      ∀ i < P.n, kind i → F.pbox i = b → Q (ids i) := by
  constructor
  · intro h i hi hk hp
    have := (hK.mem_non hF hb hi hk).2 hp
    have h1 := h (Nat.count kind i - st b) (by omega)
    rw [show st b + (Nat.count kind i - st b) = Nat.count kind i by omega, hu i hi hk] at h1
    exact h1
  · intro h j hj
    have hc := hK.non_pos_count hb (by omega)
    have hw := hK.within hF hb hc
    have hle := hK.non_le hF hb
    obtain ⟨i, hi, hk, he⟩ := exists_of_lt_count (show st b + j < Nat.count kind P.n by omega)
    rw [← he, hu i hi hk]
    exact h i hi hk ((hK.mem_non hF hb hi hk).1 (by omega))

/-- The particles of a subtree. -/
theorem forall_cu {F : Flat} (hF : FlatOK P L F) {kind : Nat → Prop} [DecidablePred kind]
    {st non cu : Nat → Nat} (hK : KindOK F kind st non cu) {ids u : Nat → Nat}
    (hu : ∀ i < P.n, kind i → u (Nat.count kind i) = ids i) {b : Nat} (hb : b < F.nboxes)
    (Q : Nat → Prop) : (∀ j < cu b, Q (u (st b + j))) ↔
      ∀ i < P.n, kind i → F.start b ≤ i → i < F.start b + F.count b → Q (ids i) := by
  constructor
  · intro h i hi hk hp hp'
    have := (hK.mem_cu hb hk).2 ⟨hp, hp'⟩
    have h1 := h (Nat.count kind i - st b) (by omega)
    rw [show st b + (Nat.count kind i - st b) = Nat.count kind i by omega, hu i hi hk] at h1
    exact h1
  · intro h j hj
    have hc := hK.cu_pos_count hb (by omega)
    have hw := hK.within hF hb hc
    obtain ⟨i, hi, hk, he⟩ := exists_of_lt_count (show st b + j < Nat.count kind P.n by omega)
    rw [← he, hu i hi hk]
    have := (hK.mem_cu hb hk).1 (by omega)
    exact h i hi hk this.1 this.2

/-- The particles of a kind that a box owns are the same. -/
theorem own_iff (h : Reord P f skip len L s s') (hk : Kinds C P.n f) (src : Bool) (b : Nat)
    (Q : Nat → Prop) :
    (∀ i < P.n, (C.reorder f).kind s'.ids src i →
      (FinOK.fin (P.reorder f) skip len L s').pbox i = b → Q (f (s'.ids i))) ↔
    ∀ i < P.n, C.kind s.ids src i → (FinOK.fin P skip len L s).pbox i = b → Q (s.ids i) := by
  obtain ⟨m, h1, h2, h3, h4, h5⟩ := h.moved
  constructor
  · intro hq i hi hki hp
    have := hq (m i) (h1 i hi) ((h.kind_iff hk h1 h3 src hi).2 hki)
      (by rw [h.pbox (h1 i hi), h4 i hi, hp])
    rw [h3 i hi] at this
    exact this
  · intro hq j hj hkj hp
    obtain ⟨i, hi, rfl⟩ := h5 j hj
    rw [h3 i hi]
    exact hq i hi ((h.kind_iff hk h1 h3 src hi).1 hkj) (by rw [← h4 i hi, ← h.pbox hj, hp])

/-- The particles of a kind in the subtree of a box are the same. -/
theorem subtree_iff (h : Reord P f skip len L s s') (hk : Kinds C P.n f) (src : Bool) {b : Nat}
    (hb : b < (FinOK.fin P skip len L s).nboxes) (Q : Nat → Prop) :
    (∀ i < P.n, (C.reorder f).kind s'.ids src i →
      (FinOK.fin P skip len L s).start b ≤ i →
      i < (FinOK.fin P skip len L s).start b + (FinOK.fin P skip len L s).count b →
      Q (f (s'.ids i))) ↔
    ∀ i < P.n, C.kind s.ids src i → (FinOK.fin P skip len L s).start b ≤ i →
      i < (FinOK.fin P skip len L s).start b + (FinOK.fin P skip len L s).count b →
      Q (s.ids i) := by
  rcases Nat.eq_zero_or_pos ((FinOK.fin P skip len L s).count b) with h0 | h0
  · rw [h0]
    exact iff_of_true (fun i _ _ _ _ => by omega) (fun i _ _ _ _ => by omega)
  obtain ⟨m, h1, h2, h3, h4, h5⟩ := h.moved
  have c1 := fun i (hi : i < P.n) => side (h.fin.flatOK.cut_start hb h0) h1 h4 hi
  have c2 := fun i (hi : i < P.n) => side (h.fin.flatOK.cut_end hb h0) h1 h4 hi
  constructor
  · intro hq i hi hki hp hp'
    have := c1 i hi
    have := hq (m i) (h1 i hi) ((h.kind_iff hk h1 h3 src hi).2 hki)
      (by omega) ((c2 i hi).2 hp')
    rw [h3 i hi] at this
    exact this
  · intro hq j hj hkj hp hp'
    obtain ⟨i, hi, rfl⟩ := h5 j hj
    rw [h3 i hi]
    have := c1 i hi
    exact hq i hi ((h.kind_iff hk h1 h3 src hi).1 hkj) (by omega) ((c2 i hi).1 hp')

/-- Beyond the boxes the arrays repeat the root. -/
theorem src_beyond (h : FinOK P skip len L s) {b : Nat} (hb : (FinOK.fin P skip len L s).nboxes ≤ b) :
    srcBoxId (levelStart len (L + 1)) (keeps skip len L s) b = 0 ∧
    srcBoxId (levelStart len (L + 1)) (keeps skip len L s) 0 = 0 := by
  constructor
  · unfold srcBoxId
    exact List.getD_eq_default _ _ hb
  · exact h.src_nid h.kept_root

/-- If the root has no children, there is no level below it. -/
theorem level_beyond (h : FinOK P skip len L s) (hc : (FinOK.fin P skip len L s).hasCh 0 = false) :
    levelStart (levelCounts s.used (FinOK.fin P skip len L s)) (L + 1)
      ≤ (FinOK.fin P skip len L s).nboxes := by
  have hc0 : s.hasCh 0 0 = false := by
    rw [← h.fin_hasCh h.kept_root]; exact hc
  have hu : ∀ l, s.used (l + 1) = 0 := by
    intro l
    induction l with
    | zero =>
      by_contra hne
      obtain ⟨h1, h2, _⟩ := h.inv.parent_ok 0 0 (by omega)
      rw [h.inv.used_zero] at h1
      rw [show s.parent (0 + 1) 0 = 0 by omega, hc0] at h2
      cases h2
    | succ l ih =>
      by_contra hne
      obtain ⟨h1, _⟩ := h.inv.parent_ok (l + 1) 0 (by omega)
      omega
  have hz : ∀ l, levelCounts s.used (FinOK.fin P skip len L s) (l + 1) = 0 := by
    intro l
    unfold levelCounts
    rw [find?_range_none]
    · exact hu l
    · intro b hb
      rw [decide_eq_false_iff_not]
      rintro ⟨he, _⟩
      obtain ⟨l', k, hk, rfl⟩ := h.exists_nid hb
      rw [h.fin_level hk] at he
      have := hk.1
      rw [he, hu l] at this
      omega
  have : ∀ l, levelStart (levelCounts s.used (FinOK.fin P skip len L s)) (l + 1)
      = levelStart (levelCounts s.used (FinOK.fin P skip len L s)) 1 := by
    intro l
    induction l with
    | zero => rfl
    | succ l ih => rw [levelStart_succ, ih, hz]; rfl
  rw [this, h.flatOK.levelStart_eq s.used (l := 1) fun l' hl' =>
    ⟨0, h.flatOK.pos, by rw [h.flatOK.level_root]; omega⟩]
  exact Nat.count_le _

theorem own_beyond (h : FinOK P skip len L s) {b : Nat}
    (hb : (FinOK.fin P skip len L s).nboxes ≤ b)
    (hl : b < levelStart (levelCounts s.used (FinOK.fin P skip len L s)) (L + 1)) :
    (C.sourcesAreTargets = false → (finish P C skip len L s).particles.srcCount b = 0 ∧
      (finish P C skip len L s).particles.tgtCount b = 0) ∧
    (C.sourcesAreTargets = true →
      (finish P C skip len L s).particles.srcStart b = (finish P C skip len L s).particles.srcStart 0 ∧
      (finish P C skip len L s).particles.srcCount b = (finish P C skip len L s).particles.srcCount 0) := by
  constructor
  · intro hs
    change (info P C (FinOK.fin P skip len L s) s.ids b).2.1 = 0 ∧
      (info P C (FinOK.fin P skip len L s) s.ids b).2.2 = 0
    have hbn : ¬ b < (FinOK.fin P skip len L s).nboxes := by omega
    have hbn' : ¬ (b < (FinOK.fin P skip len L s).nboxes ∧ 0 < (FinOK.fin P skip len L s).count b) :=
      fun hc => hbn hc.1
    unfold info
    rw [hs]
    simp only [Bool.false_eq_true, if_false]
    rw [boxCounts_none h.flatOK hbn', boxCounts_none h.flatOK hbn']
    have e : ∀ src, (if P.haveExtent = true then boxNonchild (FinOK.fin P skip len L s) P.n C.nsources
        s.ids src else fun _ => 0) b = 0 := by
      intro src
      split
      · exact boxNonchild_none h.flatOK hbn
      · rfl
    rw [e, e]
    unfold boxInfo
    have hh : (FinOK.fin P skip len L s).hasCh b = true := by
      by_contra hc
      obtain ⟨e1, e2⟩ := src_beyond h hb
      have : (FinOK.fin P skip len L s).hasCh 0 = false := by
        rw [Bool.not_eq_true] at hc
        rw [← hc]
        change (flatten P len L s).hasCh (srcBoxId (levelStart len (L + 1)) (keeps skip len L s) 0) =
          (flatten P len L s).hasCh (srcBoxId (levelStart len (L + 1)) (keeps skip len L s) b)
        rw [e1, e2]
      have := level_beyond h this
      omega
    rw [hh]
    exact ⟨rfl, rfl⟩
  · intro hs
    obtain ⟨e1, e2⟩ := src_beyond h hb
    have q1 : (FinOK.fin P skip len L s).start b = (FinOK.fin P skip len L s).start 0 := by
      change (flatten P len L s).start (srcBoxId (levelStart len (L + 1)) (keeps skip len L s) b) =
        (flatten P len L s).start (srcBoxId (levelStart len (L + 1)) (keeps skip len L s) 0)
      rw [e1, e2]
    have q2 : (FinOK.fin P skip len L s).hasCh b = (FinOK.fin P skip len L s).hasCh 0 := by
      change (flatten P len L s).hasCh (srcBoxId (levelStart len (L + 1)) (keeps skip len L s) b) =
        (flatten P len L s).hasCh (srcBoxId (levelStart len (L + 1)) (keeps skip len L s) 0)
      rw [e1, e2]
    have q3 : (FinOK.fin P skip len L s).count b = (FinOK.fin P skip len L s).count 0 := by
      change (flatten P len L s).count (srcBoxId (levelStart len (L + 1)) (keeps skip len L s) b) =
        (flatten P len L s).count (srcBoxId (levelStart len (L + 1)) (keeps skip len L s) 0)
      rw [e1, e2]
    have q4 : (FinOK.fin P skip len L s).nonchild b = (FinOK.fin P skip len L s).nonchild 0 := by
      change (flatten P len L s).nonchild (srcBoxId (levelStart len (L + 1)) (keeps skip len L s) b) =
        (flatten P len L s).nonchild (srcBoxId (levelStart len (L + 1)) (keeps skip len L s) 0)
      rw [e1, e2]
    change (if C.sourcesAreTargets then (FinOK.fin P skip len L s).start else _) b =
        (if C.sourcesAreTargets then (FinOK.fin P skip len L s).start else _) 0 ∧
      (info P C (FinOK.fin P skip len L s) s.ids b).2.1 =
        (info P C (FinOK.fin P skip len L s) s.ids 0).2.1
    unfold info
    rw [hs]
    simp only [if_true]
    refine ⟨q1, ?_⟩
    rw [q2, q3]
    cases P.haveExtent with
    | true => simp only [if_true]; rw [q4]
    | false => rfl

theorem lstart_eq (h : Reord P f skip len L s s') :
    levelStart (levelCounts s'.used (FinOK.fin (P.reorder f) skip len L s')) =
      levelStart (levelCounts s.used (FinOK.fin P skip len L s)) := by
  rw [h.flat, show s'.used = s.used by rw [h.same]]
  rfl

theorem srcStart_eq (h : Reord P f skip len L s s') (hk : Kinds C P.n f) :
    (finish (P.reorder f) (C.reorder f) skip len L s').particles.srcStart =
      (finish P C skip len L s).particles.srcStart := by
  change (if C.sourcesAreTargets then (FinOK.fin (P.reorder f) skip len L s').start
      else boxStarts (FinOK.fin (P.reorder f) skip len L s') P.n C.nsources s'.ids true) =
    if C.sourcesAreTargets then (FinOK.fin P skip len L s).start
      else boxStarts (FinOK.fin P skip len L s) P.n C.nsources s.ids true
  cases hb : C.sourcesAreTargets with
  | true => simp only [if_true]; rw [h.flat]
  | false => simp only [Bool.false_eq_true, if_false]; exact h.starts hk hb true

theorem tgtStart_eq (h : Reord P f skip len L s s') (hk : Kinds C P.n f) :
    (finish (P.reorder f) (C.reorder f) skip len L s').particles.tgtStart =
      (finish P C skip len L s).particles.tgtStart := by
  change (if C.sourcesAreTargets then (FinOK.fin (P.reorder f) skip len L s').start
      else boxStarts (FinOK.fin (P.reorder f) skip len L s') P.n C.nsources s'.ids false) =
    if C.sourcesAreTargets then (FinOK.fin P skip len L s).start
      else boxStarts (FinOK.fin P skip len L s) P.n C.nsources s.ids false
  cases hb : C.sourcesAreTargets with
  | true => simp only [if_true]; rw [h.flat]
  | false => simp only [Bool.false_eq_true, if_false]; exact h.starts hk hb false

theorem srcCumul_eq (h : Reord P f skip len L s s') (hk : Kinds C P.n f) :
    (finish (P.reorder f) (C.reorder f) skip len L s').particles.srcCumul =
      (finish P C skip len L s).particles.srcCumul := by
  change (if C.sourcesAreTargets then (FinOK.fin (P.reorder f) skip len L s').count
      else boxCounts (FinOK.fin (P.reorder f) skip len L s') P.n C.nsources s'.ids true) =
    if C.sourcesAreTargets then (FinOK.fin P skip len L s).count
      else boxCounts (FinOK.fin P skip len L s) P.n C.nsources s.ids true
  cases hb : C.sourcesAreTargets with
  | true => simp only [if_true]; rw [h.flat]
  | false => simp only [Bool.false_eq_true, if_false]; exact h.counts hk hb true

theorem tgtCumul_eq (h : Reord P f skip len L s s') (hk : Kinds C P.n f) :
    (finish (P.reorder f) (C.reorder f) skip len L s').particles.tgtCumul =
      (finish P C skip len L s).particles.tgtCumul := by
  change (if C.sourcesAreTargets then (FinOK.fin (P.reorder f) skip len L s').count
      else boxCounts (FinOK.fin (P.reorder f) skip len L s') P.n C.nsources s'.ids false) =
    if C.sourcesAreTargets then (FinOK.fin P skip len L s).count
      else boxCounts (FinOK.fin P skip len L s) P.n C.nsources s.ids false
  cases hb : C.sourcesAreTargets with
  | true => simp only [if_true]; rw [h.flat]
  | false => simp only [Bool.false_eq_true, if_false]; exact h.counts hk hb false

theorem srcCount_eq (h : Reord P f skip len L s s') (hk : Kinds C P.n f) :
    (finish (P.reorder f) (C.reorder f) skip len L s').particles.srcCount =
      (finish P C skip len L s).particles.srcCount :=
  funext fun b => congrArg (fun v => v.2.1) (h.info_eq hk b)

theorem tgtCount_eq (h : Reord P f skip len L s s') (hk : Kinds C P.n f) :
    (finish (P.reorder f) (C.reorder f) skip len L s').particles.tgtCount =
      (finish P C skip len L s).particles.tgtCount :=
  funext fun b => congrArg (fun v => v.2.2) (h.info_eq hk b)

/-- Numbers of the targets in tree order, in the list of all particles. -/
def tgtIds (P : Params) (C : Cloud) (ids : Nat → Nat) : Nat → Nat :=
  if C.sourcesAreTargets then ids else srcntgtTargetIds P.n C.nsources ids

theorem own_src (h : Reord P f skip len L s s') (hk : Kinds C P.n f) {b : Nat}
    (hb : b < levelStart (levelCounts s.used (FinOK.fin P skip len L s)) (L + 1) ∨
      b < (FinOK.fin P skip len L s).nboxes) (Q : Nat → Prop) :
    (∀ j < (finish P C skip len L s).particles.srcCount b,
      Q (f ((finish (P.reorder f) (C.reorder f) skip len L s').particles.userSourceIds
        ((finish P C skip len L s).particles.srcStart b + j)))) ↔
    ∀ j < (finish P C skip len L s).particles.srcCount b,
      Q ((finish P C skip len L s).particles.userSourceIds
        ((finish P C skip len L s).particles.srcStart b + j)) := by
  have main : ∀ b < (FinOK.fin P skip len L s).nboxes,
      (∀ j < (finish P C skip len L s).particles.srcCount b,
        Q (f ((finish (P.reorder f) (C.reorder f) skip len L s').particles.userSourceIds
          ((finish P C skip len L s).particles.srcStart b + j)))) ↔
      ∀ j < (finish P C skip len L s).particles.srcCount b,
        Q ((finish P C skip len L s).particles.userSourceIds
          ((finish P C skip len L s).particles.srcStart b + j)) := by
    intro b hbn
    have k1 := srcKind (C := C) h.fin
    have k2 := srcKind (C := C.reorder f) h.fin'
    rw [h.srcStart_eq hk, h.srcCount_eq hk, h.srcCumul_eq hk] at k2
    rw [forall_non h.fin.flatOK k1 (ids := s.ids) (fun i hi hki => userIds_eq hi hki) hbn]
    rw [forall_non (P := P) h.flatOK' k2 (ids := s'.ids) (fun i hi hki => userIds_eq (P := P.reorder f) hi hki)
      (by rw [h.flat]; exact hbn) (fun p => Q (f p))]
    exact h.own_iff hk true b Q
  by_cases hbn : b < (FinOK.fin P skip len L s).nboxes
  · exact main b hbn
  · have hb' := hb.resolve_right hbn
    obtain ⟨o1, o2⟩ := own_beyond (C := C) h.fin (by omega) hb'
    cases hs : C.sourcesAreTargets with
    | true =>
      obtain ⟨a1, a2⟩ := o2 hs
      rw [a1, a2]
      exact main 0 h.fin.flatOK.pos
    | false =>
      rw [(o1 hs).1]
      exact iff_of_true (fun j hj => by omega) (fun j hj => by omega)

theorem own_tgt (h : Reord P f skip len L s s') (hk : Kinds C P.n f) {b : Nat}
    (hs : C.sourcesAreTargets = false)
    (hb : b < levelStart (levelCounts s.used (FinOK.fin P skip len L s)) (L + 1) ∨
      b < (FinOK.fin P skip len L s).nboxes) (Q : Nat → Prop) :
    (∀ j < (finish P C skip len L s).particles.tgtCount b,
      Q (f (tgtIds P C s'.ids ((finish P C skip len L s).particles.tgtStart b + j)))) ↔
    ∀ j < (finish P C skip len L s).particles.tgtCount b,
      Q (tgtIds P C s.ids ((finish P C skip len L s).particles.tgtStart b + j)) := by
  by_cases hbn : b < (FinOK.fin P skip len L s).nboxes
  · have k1 := tgtKind (C := C) h.fin
    have k2 := tgtKind (C := C.reorder f) h.fin'
    rw [h.tgtStart_eq hk, h.tgtCount_eq hk, h.tgtCumul_eq hk] at k2
    rw [forall_non h.fin.flatOK k1 (ids := s.ids) (u := tgtIds P C s.ids)
      (fun i hi hki => targetIds_eq hi hki) hbn]
    rw [forall_non (P := P) h.flatOK' k2 (ids := s'.ids) (u := tgtIds P C s'.ids)
      (fun i hi hki => targetIds_eq (P := P.reorder f) (C := C.reorder f) hi hki)
      (by rw [h.flat]; exact hbn) (fun p => Q (f p))]
    exact h.own_iff hk false b Q
  · obtain ⟨o1, o2⟩ := own_beyond (C := C) h.fin (by omega) (hb.resolve_right hbn)
    rw [(o1 hs).2]
    exact iff_of_true (fun j hj => by omega) (fun j hj => by omega)

theorem sweepUp_congr {ls : Nat → Nat} (hm : ∀ l l', l ≤ l' → ls l ≤ ls l')
    {g g' : (Nat → ℚ) → Nat → ℚ} {N : Nat} (hg : ∀ arr b, b < ls N → g arr b = g' arr b) :
    ∀ l ≤ N, ∀ arr, sweepUp ls g l arr = sweepUp ls g' l arr := by
  intro l
  induction l with
  | zero => intro _ _; rfl
  | succ l ih =>
    intro hl arr
    unfold sweepUp
    rw [ih (by omega)]
    congr 1
    funext b
    split
    · rename_i hb
      have := hm (l + 1) N hl
      exact hg arr b (by omega)
    · rfl

theorem lower_eq {fl : ℚ → ℚ} {nch : Nat} {child : Nat → Nat → Nat} {c : ℚ} {st cnt : Nat}
    {u u' : Nat → Nat} (e : Bool) (arr : Nat → ℚ) (b a : Nat)
    (hq : ∀ Q : Nat → Prop, (∀ j < cnt, Q (f (u' (st + j)))) ↔ ∀ j < cnt, Q (u (st + j))) :
    boxLower fl nch child c st cnt (fun i => (C.reorder f).x a (u' i))
      (fun i => if e then (C.reorder f).radius (u' i) else 0) arr b =
    boxLower fl nch child c st cnt (fun i => C.x a (u i))
      (fun i => if e then C.radius (u i) else 0) arr b := by
  apply eq_of_forall_le_iff
  intro z
  rw [le_boxLower, le_boxLower]
  refine and_congr_right fun _ => and_congr_left fun _ => ?_
  have key : ∀ T : Nat → Prop, (∀ i ∈ List.range' st cnt, T i) ↔ ∀ j < cnt, T (st + j) := by
    intro T
    constructor
    · intro h j hj; exact h _ (by rw [List.mem_range'_1]; omega)
    · intro h i hi
      rw [List.mem_range'_1] at hi
      have := h (i - st) (by omega)
      rwa [show st + (i - st) = i by omega] at this
  rw [key, key]
  exact hq fun p => z ≤ fl (C.x a p - if e = true then C.radius p else 0)

theorem upper_eq {fl : ℚ → ℚ} {nch : Nat} {child : Nat → Nat → Nat} {c : ℚ} {st cnt : Nat}
    {u u' : Nat → Nat} (e : Bool) (arr : Nat → ℚ) (b a : Nat)
    (hq : ∀ Q : Nat → Prop, (∀ j < cnt, Q (f (u' (st + j)))) ↔ ∀ j < cnt, Q (u (st + j))) :
    boxUpper fl nch child c st cnt (fun i => (C.reorder f).x a (u' i))
      (fun i => if e then (C.reorder f).radius (u' i) else 0) arr b =
    boxUpper fl nch child c st cnt (fun i => C.x a (u i))
      (fun i => if e then C.radius (u i) else 0) arr b := by
  apply eq_of_forall_ge_iff
  intro z
  rw [boxUpper_le, boxUpper_le]
  refine and_congr_right fun _ => and_congr_left fun _ => ?_
  have key : ∀ T : Nat → Prop, (∀ i ∈ List.range' st cnt, T i) ↔ ∀ j < cnt, T (st + j) := by
    intro T
    constructor
    · intro h j hj; exact h _ (by rw [List.mem_range'_1]; omega)
    · intro h i hi
      rw [List.mem_range'_1] at hi
      have := h (i - st) (by omega)
      rwa [show st + (i - st) = i by omega] at this
  rw [key, key]
  exact hq fun p => fl (C.x a p + if e = true then C.radius p else 0) ≤ z

/-- The level sweeps for the bounding boxes. -/
def sweepLower (P : Params) (C : Cloud) (F : Flat) (L : Nat) (used : Nat → Nat) (fl : ℚ → ℚ)
    (ctr : Nat → Nat → ℚ) (st non : Nat → Nat) (u : Nat → Nat) (e : Bool) (b a : Nat) : ℚ :=
  sweepUp (levelStart (levelCounts used F)) (fun arr b =>
    boxLower fl P.nch F.child (ctr b a) (st b) (non b) (fun i => C.x a (u i))
      (fun i => if e then C.radius (u i) else 0) arr b) (L + 1) (fun _ => 0) b

def sweepUpper (P : Params) (C : Cloud) (F : Flat) (L : Nat) (used : Nat → Nat) (fl : ℚ → ℚ)
    (ctr : Nat → Nat → ℚ) (st non : Nat → Nat) (u : Nat → Nat) (e : Bool) (b a : Nat) : ℚ :=
  sweepUp (levelStart (levelCounts used F)) (fun arr b =>
    boxUpper fl P.nch F.child (ctr b a) (st b) (non b) (fun i => C.x a (u i))
      (fun i => if e then C.radius (u i) else 0) arr b) (L + 1) (fun _ => 0) b

theorem sweeps (h : Reord P f skip len L s s') (fl : ℚ → ℚ) (ctr : Nat → Nat → ℚ)
    (st non : Nat → Nat) (u u' : Nat → Nat) (e : Bool)
    (hq : ∀ b < levelStart (levelCounts s.used (FinOK.fin P skip len L s)) (L + 1),
      ∀ Q : Nat → Prop, (∀ j < non b, Q (f (u' (st b + j)))) ↔ ∀ j < non b, Q (u (st b + j)))
    (b a : Nat) :
    sweepLower (P.reorder f) (C.reorder f) (FinOK.fin (P.reorder f) skip len L s') L s'.used fl ctr
      st non u' e b a = sweepLower P C (FinOK.fin P skip len L s) L s.used fl ctr st non u e b a ∧
    sweepUpper (P.reorder f) (C.reorder f) (FinOK.fin (P.reorder f) skip len L s') L s'.used fl ctr
      st non u' e b a = sweepUpper P C (FinOK.fin P skip len L s) L s.used fl ctr st non u e b a := by
  unfold sweepLower sweepUpper
  rw [h.lstart_eq, show (FinOK.fin (P.reorder f) skip len L s').child
    = (FinOK.fin P skip len L s).child by rw [h.flat]]
  have hm := fun l l' (hl : l ≤ l') => levelStart_mono
    (levelCounts s.used (FinOK.fin P skip len L s)) hl
  constructor
  · exact congrFun (sweepUp_congr hm (fun arr b hb => lower_eq e arr b a (hq b hb)) (L + 1)
      (le_refl _) _) b
  · exact congrFun (sweepUp_congr hm (fun arr b hb => upper_eq e arr b a (hq b hb)) (L + 1)
      (le_refl _) _) b

section
variable (P : Params) (C : Cloud) (skip : Bool) (len : Nat → Nat) (L : Nat) (s : State)

/-- The sweeps for the target bounding boxes. -/
def tgtLower (fl : ℚ → ℚ) (ctr : Nat → Nat → ℚ) (b a : Nat) : ℚ :=
  if C.sourcesAreTargets then
    sweepLower P C (FinOK.fin P skip len L s) L s.used fl ctr
      (finish P C skip len L s).particles.srcStart (finish P C skip len L s).particles.srcCount
      (finish P C skip len L s).particles.userSourceIds C.sourcesHaveExtent b a
  else
    sweepLower P C (FinOK.fin P skip len L s) L s.used fl ctr
      (finish P C skip len L s).particles.tgtStart (finish P C skip len L s).particles.tgtCount
      (tgtIds P C s.ids) C.targetsHaveExtent b a

def tgtUpper (fl : ℚ → ℚ) (ctr : Nat → Nat → ℚ) (b a : Nat) : ℚ :=
  if C.sourcesAreTargets then
    sweepUpper P C (FinOK.fin P skip len L s) L s.used fl ctr
      (finish P C skip len L s).particles.srcStart (finish P C skip len L s).particles.srcCount
      (finish P C skip len L s).particles.userSourceIds C.sourcesHaveExtent b a
  else
    sweepUpper P C (FinOK.fin P skip len L s) L s.used fl ctr
      (finish P C skip len L s).particles.tgtStart (finish P C skip len L s).particles.tgtCount
      (tgtIds P C s.ids) C.targetsHaveExtent b a

theorem finish_tgtMin (b a : Nat) : (finish P C skip len L s).tree.tgtMin b a =
    tgtLower P C skip len L s id (FinOK.fin P skip len L s).center b a := rfl

theorem finish_tgtMax (b a : Nat) : (finish P C skip len L s).tree.tgtMax b a =
    tgtUpper P C skip len L s id (FinOK.fin P skip len L s).center b a := rfl

theorem finish_tgtMinF (b a : Nat) : (finish P C skip len L s).tgtMinF b a =
    tgtLower P C skip len L s P.fl (FinOK.fin P skip len L s).stored b a := rfl

theorem finish_tgtMaxF (b a : Nat) : (finish P C skip len L s).tgtMaxF b a =
    tgtUpper P C skip len L s P.fl (FinOK.fin P skip len L s).stored b a := rfl

theorem finish_srcMin (b a : Nat) : (finish P C skip len L s).srcMin b a =
    sweepLower P C (FinOK.fin P skip len L s) L s.used id (FinOK.fin P skip len L s).center
      (finish P C skip len L s).particles.srcStart (finish P C skip len L s).particles.srcCount
      (finish P C skip len L s).particles.userSourceIds C.sourcesHaveExtent b a := rfl

theorem finish_srcMax (b a : Nat) : (finish P C skip len L s).srcMax b a =
    sweepUpper P C (FinOK.fin P skip len L s) L s.used id (FinOK.fin P skip len L s).center
      (finish P C skip len L s).particles.srcStart (finish P C skip len L s).particles.srcCount
      (finish P C skip len L s).particles.userSourceIds C.sourcesHaveExtent b a := rfl

theorem finish_srcMinF (b a : Nat) : (finish P C skip len L s).srcMinF b a =
    sweepLower P C (FinOK.fin P skip len L s) L s.used P.fl (FinOK.fin P skip len L s).stored
      (finish P C skip len L s).particles.srcStart (finish P C skip len L s).particles.srcCount
      (finish P C skip len L s).particles.userSourceIds C.sourcesHaveExtent b a := rfl

theorem finish_srcMaxF (b a : Nat) : (finish P C skip len L s).srcMaxF b a =
    sweepUpper P C (FinOK.fin P skip len L s) L s.used P.fl (FinOK.fin P skip len L s).stored
      (finish P C skip len L s).particles.srcStart (finish P C skip len L s).particles.srcCount
      (finish P C skip len L s).particles.userSourceIds C.sourcesHaveExtent b a := rfl

end

theorem boxTree_ext {t t' : BoxTree} (h1 : t.dims = t'.dims) (h2 : t.nboxes = t'.nboxes)
    (h3 : t.nlevels = t'.nlevels) (h4 : t.rootExtent = t'.rootExtent) (h5 : t.parent = t'.parent)
    (h6 : t.child = t'.child) (h7 : t.level = t'.level) (h8 : t.center = t'.center)
    (h9 : t.flags = t'.flags) (h10 : t.srcCountCumul = t'.srcCountCumul)
    (h11 : t.tgtMin = t'.tgtMin) (h12 : t.tgtMax = t'.tgtMax)
    (h13 : t.levelStart = t'.levelStart) : t = t' := by
  cases t; cases t'
  simp only at *
  subst h1 h2 h3 h4 h5 h6 h7 h8 h9 h10 h11 h12 h13
  rfl

section
variable (h : Reord P f skip len L s s') (hk : Kinds C P.n f)
include h hk

theorem sweeps_src (fl : ℚ → ℚ) (ctr : Nat → Nat → ℚ) (b a : Nat) :
    sweepLower (P.reorder f) (C.reorder f) (FinOK.fin (P.reorder f) skip len L s') L s'.used fl ctr
      (finish (P.reorder f) (C.reorder f) skip len L s').particles.srcStart
      (finish (P.reorder f) (C.reorder f) skip len L s').particles.srcCount
      (finish (P.reorder f) (C.reorder f) skip len L s').particles.userSourceIds
      C.sourcesHaveExtent b a =
    sweepLower P C (FinOK.fin P skip len L s) L s.used fl ctr
      (finish P C skip len L s).particles.srcStart (finish P C skip len L s).particles.srcCount
      (finish P C skip len L s).particles.userSourceIds C.sourcesHaveExtent b a ∧
    sweepUpper (P.reorder f) (C.reorder f) (FinOK.fin (P.reorder f) skip len L s') L s'.used fl ctr
      (finish (P.reorder f) (C.reorder f) skip len L s').particles.srcStart
      (finish (P.reorder f) (C.reorder f) skip len L s').particles.srcCount
      (finish (P.reorder f) (C.reorder f) skip len L s').particles.userSourceIds
      C.sourcesHaveExtent b a =
    sweepUpper P C (FinOK.fin P skip len L s) L s.used fl ctr
      (finish P C skip len L s).particles.srcStart (finish P C skip len L s).particles.srcCount
      (finish P C skip len L s).particles.userSourceIds C.sourcesHaveExtent b a := by
  rw [h.srcStart_eq hk, h.srcCount_eq hk]
  exact h.sweeps fl ctr _ _ _ _ _ (fun b hb Q => h.own_src hk (.inl hb) Q) b a

theorem sweeps_tgt (hs : C.sourcesAreTargets = false) (fl : ℚ → ℚ) (ctr : Nat → Nat → ℚ) (b a : Nat) :
    sweepLower (P.reorder f) (C.reorder f) (FinOK.fin (P.reorder f) skip len L s') L s'.used fl ctr
      (finish (P.reorder f) (C.reorder f) skip len L s').particles.tgtStart
      (finish (P.reorder f) (C.reorder f) skip len L s').particles.tgtCount
      (tgtIds P C s'.ids) C.targetsHaveExtent b a =
    sweepLower P C (FinOK.fin P skip len L s) L s.used fl ctr
      (finish P C skip len L s).particles.tgtStart (finish P C skip len L s).particles.tgtCount
      (tgtIds P C s.ids) C.targetsHaveExtent b a ∧
    sweepUpper (P.reorder f) (C.reorder f) (FinOK.fin (P.reorder f) skip len L s') L s'.used fl ctr
      (finish (P.reorder f) (C.reorder f) skip len L s').particles.tgtStart
      (finish (P.reorder f) (C.reorder f) skip len L s').particles.tgtCount
      (tgtIds P C s'.ids) C.targetsHaveExtent b a =
    sweepUpper P C (FinOK.fin P skip len L s) L s.used fl ctr
      (finish P C skip len L s).particles.tgtStart (finish P C skip len L s).particles.tgtCount
      (tgtIds P C s.ids) C.targetsHaveExtent b a := by
  rw [h.tgtStart_eq hk, h.tgtCount_eq hk]
  exact h.sweeps fl ctr _ _ _ _ _ (fun b hb Q => h.own_tgt hk hs (.inl hb) Q) b a

/-- Sources or targets. -/
theorem sweeps_both (fl : ℚ → ℚ) (ctr : Nat → Nat → ℚ) (b a : Nat) :
    tgtLower (P.reorder f) (C.reorder f) skip len L s' fl ctr b a
      = tgtLower P C skip len L s fl ctr b a ∧
    tgtUpper (P.reorder f) (C.reorder f) skip len L s' fl ctr b a
      = tgtUpper P C skip len L s fl ctr b a := by
  unfold tgtLower tgtUpper
  by_cases hs : C.sourcesAreTargets = true
  · rw [if_pos hs, if_pos hs, if_pos (c := (C.reorder f).sourcesAreTargets = true) hs,
      if_pos (c := (C.reorder f).sourcesAreTargets = true) hs]
    exact h.sweeps_src hk fl ctr b a
  · rw [if_neg hs, if_neg hs, if_neg (c := (C.reorder f).sourcesAreTargets = true) hs,
      if_neg (c := (C.reorder f).sourcesAreTargets = true) hs]
    exact h.sweeps_tgt hk (by simpa using hs) fl ctr b a

/-- The trees are the same. -/
theorem tree_eq :
    (finish (P.reorder f) (C.reorder f) skip len L s').tree = (finish P C skip len L s).tree := by
  have hctr : (FinOK.fin (P.reorder f) skip len L s').center = (FinOK.fin P skip len L s).center := by
    rw [h.flat]
  apply boxTree_ext
  · rfl
  · change (FinOK.fin (P.reorder f) skip len L s').nboxes = _; rw [h.flat]; rfl
  · rfl
  · rfl
  · change (FinOK.fin (P.reorder f) skip len L s').parent = _; rw [h.flat]; rfl
  · change (FinOK.fin (P.reorder f) skip len L s').child = _; rw [h.flat]; rfl
  · change (FinOK.fin (P.reorder f) skip len L s').level = _; rw [h.flat]; rfl
  · exact hctr
  · exact funext fun b => congrArg (fun v => v.1) (h.info_eq hk b)
  · exact h.srcCumul_eq hk
  · funext b a
    rw [finish_tgtMin, finish_tgtMin, hctr]
    exact (h.sweeps_both hk id _ b a).1
  · funext b a
    rw [finish_tgtMax, finish_tgtMax, hctr]
    exact (h.sweeps_both hk id _ b a).2
  · exact h.lstart_eq

omit hk in
theorem stored_eq :
    (finish (P.reorder f) (C.reorder f) skip len L s').stored = (finish P C skip len L s).stored := by
  change (FinOK.fin (P.reorder f) skip len L s').stored = _; rw [h.flat]; rfl

/-- The bounding boxes are the same. -/
theorem boxes_eq :
    (finish (P.reorder f) (C.reorder f) skip len L s').srcMin = (finish P C skip len L s).srcMin ∧
    (finish (P.reorder f) (C.reorder f) skip len L s').srcMax = (finish P C skip len L s).srcMax ∧
    (finish (P.reorder f) (C.reorder f) skip len L s').srcMinF = (finish P C skip len L s).srcMinF ∧
    (finish (P.reorder f) (C.reorder f) skip len L s').srcMaxF = (finish P C skip len L s).srcMaxF ∧
    (finish (P.reorder f) (C.reorder f) skip len L s').tgtMinF = (finish P C skip len L s).tgtMinF ∧
    (finish (P.reorder f) (C.reorder f) skip len L s').tgtMaxF = (finish P C skip len L s).tgtMaxF := by
  have hctr : (FinOK.fin (P.reorder f) skip len L s').center = (FinOK.fin P skip len L s).center := by
    rw [h.flat]
  have hst : (FinOK.fin (P.reorder f) skip len L s').stored = (FinOK.fin P skip len L s).stored := by
    rw [h.flat]
  refine ⟨?_, ?_, ?_, ?_, ?_, ?_⟩ <;> funext b a
  · rw [finish_srcMin, finish_srcMin, hctr]; exact (h.sweeps_src hk id _ b a).1
  · rw [finish_srcMax, finish_srcMax, hctr]; exact (h.sweeps_src hk id _ b a).2
  · rw [finish_srcMinF, finish_srcMinF, hst]; exact (h.sweeps_src hk P.fl _ b a).1
  · rw [finish_srcMaxF, finish_srcMaxF, hst]; exact (h.sweeps_src hk P.fl _ b a).2
  · rw [finish_tgtMinF, finish_tgtMinF, hst]; exact (h.sweeps_both hk P.fl _ b a).1
  · rw [finish_tgtMaxF, finish_tgtMaxF, hst]; exact (h.sweeps_both hk P.fl _ b a).2

omit hk in
/-- Where one particle is in the two trees. -/
theorem position {i i' : Nat} (hi : i < P.n) (hi' : i' < P.n) (e : f (s'.ids i') = s.ids i) :
    (FinOK.fin (P.reorder f) skip len L s').pbox i' = (FinOK.fin P skip len L s).pbox i ∧
    ∀ b < (FinOK.fin P skip len L s).nboxes,
      ((FinOK.fin P skip len L s).start b ≤ i' ∧
        i' < (FinOK.fin P skip len L s).start b + (FinOK.fin P skip len L s).count b) ↔
      ((FinOK.fin P skip len L s).start b ≤ i ∧
        i < (FinOK.fin P skip len L s).start b + (FinOK.fin P skip len L s).count b) := by
  obtain ⟨m, h1, h2, h3, h4, h5⟩ := h.moved
  have hm : m i = i' := by
    apply h.fin'.inv.ids_inj _ (h1 i hi) _ hi'
    apply h.perm.2.1 _ (h.fin'.inv.ids_lt _ (h1 i hi)) _ (h.fin'.inv.ids_lt _ hi')
    rw [h3 i hi, e]
  subst hm
  refine ⟨by rw [h.pbox hi', h4 i hi], fun b hb => ?_⟩
  rcases Nat.eq_zero_or_pos ((FinOK.fin P skip len L s).count b) with h0 | h0
  · omega
  have c1 := side (h.fin.flatOK.cut_start hb h0) h1 h4 hi
  have c2 := side (h.fin.flatOK.cut_end hb h0) h1 h4 hi
  omega

/-- The sources of the boxes. -/
theorem sources_eq {q q' : Nat} (hns : C.sourcesAreTargets = false → C.nsources ≤ P.n)
    (hq : q < (finish P C skip len L s).particles.nsources)
    (hq' : q' < (finish P C skip len L s).particles.nsources)
    (e : f ((finish (P.reorder f) (C.reorder f) skip len L s').particles.userSourceIds q') =
      (finish P C skip len L s).particles.userSourceIds q) {b : Nat}
    (hb : b < (FinOK.fin P skip len L s).nboxes) :
    (q' ∈ span (finish P C skip len L s).particles.srcStart
        (finish P C skip len L s).particles.srcCount b ↔
      q ∈ span (finish P C skip len L s).particles.srcStart
        (finish P C skip len L s).particles.srcCount b) ∧
    (q' ∈ span (finish P C skip len L s).particles.srcStart
        (finish P C skip len L s).particles.srcCumul b ↔
      q ∈ span (finish P C skip len L s).particles.srcStart
        (finish P C skip len L s).particles.srcCumul b) := by
  have k1 := srcKind (C := C) h.fin
  have k2 := srcKind (C := C.reorder f) h.fin'
  rw [h.srcStart_eq hk, h.srcCount_eq hk, h.srcCumul_eq hk] at k2
  rw [nsources_eq h.fin hns] at hq
  have hq2 : q' < Nat.count ((C.reorder f).kind s'.ids true) P.n :=
    (nsources_eq (C := C.reorder f) h.fin' hns) ▸ hq'
  obtain ⟨i, hi, hki, rfl⟩ := exists_of_lt_count hq
  obtain ⟨i', hi', hki', rfl⟩ := exists_of_lt_count hq2
  rw [userIds_eq (P := P.reorder f) (C := C.reorder f) hi' hki', userIds_eq hi hki] at e
  obtain ⟨p1, p2⟩ := h.position hi hi' e
  have hb' : b < (FinOK.fin (P.reorder f) skip len L s').nboxes := by rw [h.flat]; exact hb
  have a1 := k1.mem_non h.fin.flatOK hb hi hki
  have a2 := k2.mem_non h.fin'.flatOK hb' hi' hki'
  have a3 := k1.mem_cu hb hki
  have a4 := k2.mem_cu hb' hki'
  have a5 := p2 b hb
  unfold span
  simp only [List.mem_range'_1]
  refine ⟨by rw [a2, a1, p1], ?_⟩
  rw [a4, a3, ← a5, h.flat]

/-- The targets of the boxes. -/
theorem targets_eq {j j' : Nat} (hns : C.sourcesAreTargets = false → C.nsources ≤ P.n)
    (hj : j < (finish P C skip len L s).particles.ntargets)
    (hj' : j' < (finish P C skip len L s).particles.ntargets)
    (e : f (C.firstTarget + j') = C.firstTarget + j) {b : Nat}
    (hb : b < (FinOK.fin P skip len L s).nboxes) :
    ((finish (P.reorder f) (C.reorder f) skip len L s').particles.sortedTargetIds j' ∈
        span (finish P C skip len L s).particles.tgtStart
        (finish P C skip len L s).particles.tgtCount b ↔
      (finish P C skip len L s).particles.sortedTargetIds j ∈
        span (finish P C skip len L s).particles.tgtStart
        (finish P C skip len L s).particles.tgtCount b) ∧
    ((finish (P.reorder f) (C.reorder f) skip len L s').particles.sortedTargetIds j' ∈
        span (finish P C skip len L s).particles.tgtStart
        (finish P C skip len L s).particles.tgtCumul b ↔
      (finish P C skip len L s).particles.sortedTargetIds j ∈
        span (finish P C skip len L s).particles.tgtStart
        (finish P C skip len L s).particles.tgtCumul b) := by
  have k1 := tgtKind (C := C) h.fin
  have k2 := tgtKind (C := C.reorder f) h.fin'
  rw [h.tgtStart_eq hk, h.tgtCount_eq hk, h.tgtCumul_eq hk] at k2
  obtain ⟨i, hi, hki, ei⟩ := exists_target h.fin hns hj
  obtain ⟨i', hi', hki', ei'⟩ := exists_target (C := C.reorder f) h.fin' hns
    (show j' < (finish (P.reorder f) (C.reorder f) skip len L s').particles.ntargets from hj')
  have s1 := (sortedIds_eq h.fin hi hki).2
  have s2 := (sortedIds_eq (C := C.reorder f) h.fin' hi' hki').2
  rw [ei, Nat.add_sub_cancel_left] at s1
  rw [ei', Nat.add_sub_cancel_left] at s2
  rw [s1, s2]
  have e' : f (s'.ids i') = s.ids i := by rw [ei, ei', ← e]; rfl
  obtain ⟨p1, p2⟩ := h.position hi hi' e'
  have hb' : b < (FinOK.fin (P.reorder f) skip len L s').nboxes := by rw [h.flat]; exact hb
  have a1 := k1.mem_non h.fin.flatOK hb hi hki
  have a2 := k2.mem_non h.fin'.flatOK hb' hi' hki'
  have a3 := k1.mem_cu hb hki
  have a4 := k2.mem_cu hb' hki'
  have a5 := p2 b hb
  unfold span
  simp only [List.mem_range'_1]
  refine ⟨by rw [a2, a1, p1], ?_⟩
  rw [a4, a3, ← a5, h.flat]

end

end Reord
end Boxtree.Build
