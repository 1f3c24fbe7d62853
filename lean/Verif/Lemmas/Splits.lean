import Verif.Lemmas.Balance
import Verif.Lemmas.LeafWeights
import Verif.Lemmas.Grid

/-! Why a box is split: it is too heavy, or (with level restriction) a smaller box close to it is. -/

namespace Boxtree

open BoxTree

section
variable {α : Type} {t : BoxTree} {visit : Nat → Nat → List α × Bool}

/-- Where the walk emits what it outputs. -/
theorem mem_dfs_level (hw : t.WF) (e : α) : ∀ (h k b : Nat), b < t.nboxes →
    e ∈ dfs t visit h k b → ∃ k' c, c < t.nboxes ∧ e ∈ (visit k' c).1 ∧
      t.level c + k = t.level b + k' + 1 := by
  intro h
  induction h with
  | zero => intro k b _ he; simp [dfs] at he
  | succ h ih =>
    intro k b hb he
    rw [dfs_succ, List.mem_flatMap] at he
    obtain ⟨m, hm, he⟩ := he
    have hm := List.mem_range.1 hm
    unfold dfsChild at he
    by_cases hc : t.child m b = 0
    · simp [hc] at he
    · simp only [hc, if_false, List.mem_append] at he
      have hlc := hw.level_child hm hb hc
      have hcl := hw.child_lt m hm b hb
      rcases he with he | he
      · exact ⟨k, _, hcl, he, by omega⟩
      · by_cases hp : (visit k (t.child m b)).2 = true
        · simp only [hp, if_true] at he
          obtain ⟨k', c, h1, h2, h3⟩ := ih _ _ hcl he
          exact ⟨k', c, h1, h2, by omega⟩
        · simp [hp] at he

theorem mem_walk_level (hw : t.WF) (e : α) {b : Nat} (hb : b < t.nboxes) (he : e ∈ walk t visit b) :
    ∃ k' c, c < t.nboxes ∧ e ∈ (visit k' c).1 ∧ t.level c = t.level b + k' + 1 := by
  rw [walk_eq_dfs visit hw hb] at he
  obtain ⟨k', c, h1, h2, h3⟩ := mem_dfs_level hw e _ _ _ hb he
  exact ⟨k', c, h1, h2, by omega⟩

end

namespace Build

section
variable {P : Params} {n level : Nat} {s : State}

/-- Boxes that are near touch. -/
theorem Near.touch (h : Inv P n s) (hpos : 0 < P.rootExtent) {l k l' k' : Nat} (hk : k < s.used l)
    (hk' : k' < s.used l') (hn : Near P s l k l' k') :
    ∀ a < P.dims, |s.center l k a - s.center l' k' a| ≤ radius P l + radius P l' := by
  intro a ha
  have h1 := ((h.toTree_wf hpos).nws_iff_touch (le_refl 1)
    (id_lt s.used (h.used_level hk) hk) (id_lt s.used (h.used_level hk') hk')).1
    ((nws_toTree h hpos hk hk').2 hn)
  rw [Nat.sub_self, touchEnlarged_zero] at h1
  have h2 := h1 a ha
  unfold BoxTree.lo BoxTree.hi at h2
  rw [level_toTree h hk, level_toTree h hk', center_toTree h hk, center_toTree h hk', rad_toTree,
    rad_toTree] at h2
  rw [abs_le]
  constructor <;> linarith [h2.1, h2.2]

/-- There is a reason to split the box `(l, k)`: a box that is too heavy, which is the box itself
without level restriction, and is within three times its size with level restriction. -/
def Heavier (P : Params) (s : State) (l k : Nat) : Prop :=
  ∃ v k', l ≤ v ∧ k' < s.used v ∧ P.maxWeight < mload P s v k' ∧
    (P.levelRestrict = false → v = l ∧ k' = k) ∧
    ∀ a < P.dims, |s.center l k a - s.center v k' a| ≤ 3 * (radius P l - radius P v)

/-- The box `(l, k)` has to be split: it is too heavy, or (with level restriction) it touches a box of
half its size that has to be split. -/
inductive Needs (P : Params) (used : Nat → Nat) (center : Nat → Nat → Nat → Rat)
    (parent : Nat → Nat → Nat) : Nat → Nat → Prop
  | heavy {l k : Nat} (hk : k < used l) (h : P.maxWeight < load P parent l k (wMove P l)) :
      Needs P used center parent l k
  | near {u k k' : Nat} (hr : P.levelRestrict = true) (hk : k < used u) (hk' : k' < used (u + 1))
      (hn : ∀ a < P.dims, |center (u + 1) k' a - center u k a|
        ≤ radius P (u + 1) + radius P u + min (radius P (u + 1)) (radius P u))
      (h : Needs P used center parent (u + 1) k') : Needs P used center parent u k

abbrev Needed (P : Params) (s : State) : Nat → Nat → Prop := Needs P s.used s.center s.parent

theorem Needs.old (h : Pre P level s) {l k : Nat} (hN : Needed P s l k) :
    Needed P (after P level s) l k := by
  induction hN with
  | heavy hk hl =>
    exact .heavy (lt_of_lt_of_le hk (h.used_le _)) (by
      have := h.mload_old hk
      unfold mload at this
      rw [this]; exact hl)
  | near hr hk hk' hn _ ih =>
    exact .near hr (lt_of_lt_of_le hk (h.used_le _)) (lt_of_lt_of_le hk' (h.used_le _))
      ((h.near_old hk' hk).2 hn) ih

theorem radius_succ (l : Nat) : radius P l = 2 * radius P (l + 1) := by
  unfold radius
  rw [show 1 + (l + 1) = (1 + l) + 1 by omega, pow_succ]
  field_simp

theorem Needs.heavier (h : Inv P n s) (hpos : 0 < P.rootExtent) {l k : Nat}
    (hN : Needed P s l k) : Heavier P s l k := by
  induction hN with
  | @heavy l k hk hl => exact ⟨l, k, le_refl l, hk, hl, fun _ => ⟨rfl, rfl⟩, fun a _ => by simp⟩
  | @near u k k' hr hk hk' hn _ ih =>
    obtain ⟨v, c, h1, h2, h3, _, h5⟩ := ih
    refine ⟨v, c, by omega, h2, h3, by simp [hr], fun a ha => ?_⟩
    have h6 := Near.touch h hpos hk' hk hn a ha
    have h7 := h5 a ha
    have h8 := radius_succ (P := P) u
    rw [abs_le] at *
    constructor <;> linarith [h6.1, h6.2, h7.1, h7.2]

def SplitOK (P : Params) (s : State) : Prop := ∀ l k, s.hasCh l k = true → Needed P s l k

def ForceH (P : Params) (s : State) : Prop := ∀ l k, s.force l k = true → Needed P s l k

theorem splitOK_after (hP : WOK P) (ha : P.adaptive = true) (h : Pre P level s) (hF : FullW P s)
    (hs : SplitOK P s) (hf : ForceH P s) : SplitOK P (after P level s) := by
  intro l k hc
  rcases (h.hasCh_iff l k).1 hc with h1 | ⟨h1, h2⟩
  · exact (hs l k h1).old h
  · have hc0 := (h.want_leaf h1 h2).2
    rcases (want_iff hP ha hF h1 hc0).1 h2 with h3 | h3
    · exact (Needs.heavy h1 h3.2).old h
    · exact (hf l k h3.2).old h

theorem restrictLevel_needed (h : Inv P n s) (hpos : 0 < P.rootExtent) (hadj : AdjOK P n)
    (hr : P.levelRestrict = true) (hs : SplitOK P s) {f : Nat → Nat → Bool}
    (hf : ∀ l k, f l k = true → Needed P s l k) {u l k : Nat}
    (hm : restrictLevel P (toTree P n s) s f u l k = true) : Needed P s l k := by
  unfold restrictLevel at hm
  split at hm
  swap
  · exact hf l k hm
  rename_i hl
  subst hl
  simp only [Bool.or_eq_true, Bool.and_eq_true, decide_eq_true_eq, Bool.not_eq_true',
    bne_iff_ne, ne_eq] at hm
  rcases hm with hm | ⟨⟨hk, hc⟩, hm⟩
  · exact hf l k hm
  have hw := h.toTree_wf hpos
  obtain ⟨e, he⟩ := List.exists_mem_of_ne_nil _ hm
  obtain ⟨d, c, hcl, hv, hlev⟩ := mem_walk_level hw e hw.nboxes_pos he
  rw [hw.level_root, Nat.zero_add] at hlev
  obtain ⟨l', k', h1, h2, rfl⟩ := exists_loc s.used hcl
  have hloc : ∀ {l k}, k < s.used l → locate s.used (toTree P n s).nlevels 0
      (levelStart s.used l + k) = (l, k) := fun hk => locate_id s.used (h.used_level hk) hk
  rw [level_toTree h h2] at hlev
  unfold restrictVisit at hv
  simp only [hloc h2, hloc hk, ← hlev] at hv
  split at hv
  swap
  · cases hv
  rename_i hA
  have hn := (hadj s h _ _ _ _ h2 hk).1 hA.2
  split at hv
  · cases hv
  split at hv
  swap
  · cases hv
  rename_i hB
  rcases hB with hB | ⟨hB, hB'⟩
  · obtain rfl : l' = l + 1 + 1 := by omega
    obtain ⟨p1, p2, _⟩ := h.parent_ok (l + 1) k' h2
    exact .near hr hk p1 (hn.parent h hpos h2 hk) (hs _ _ p2)
  · obtain rfl : l' = l + 1 := by omega
    exact .near hr hk h2 hn (hf _ _ hB')

theorem upward_needed (h : Inv P n s) (hpos : 0 < P.rootExtent) (hadj : AdjOK P n)
    (hr : P.levelRestrict = true) (hs : SplitOK P s) : ∀ (w : Nat) (f : Nat → Nat → Bool),
    (∀ l k, f l k = true → Needed P s l k) → ∀ l k,
      upward P (toTree P n s) s w f l k = true → Needed P s l k := by
  intro w
  induction w with
  | zero => intro f hf l k hm; exact hf l k hm
  | succ w ih =>
    intro f hf l k hm
    unfold upward at hm
    simp only at hm
    have hf' := fun l k => restrictLevel_needed (u := w + 1) (l := l) (k := k) h hpos hadj hr hs hf
    split at hm
    · exact ih _ hf' l k hm
    · exact hf' l k hm

theorem forceH_restrict (h : Inv P (level + 1) s) (hpos : 0 < P.rootExtent)
    (hadj : AdjOK P (level + 1)) (hr : P.levelRestrict = true) (hs : SplitOK P s) :
    ForceH P (restrict P level s) := by
  intro l k hm
  exact upward_needed h hpos hadj hr hs _ _ (fun _ _ h => by cases h) l k hm

theorem split_trip (hP : WOK P) (ha : P.adaptive = true) (hpos : 0 < P.rootExtent)
    (he : Entry P level s) (hadj : P.levelRestrict = true → AdjOK P (level + 1))
    (hs : SplitOK P s) (hf : ForceH P s) :
    SplitOK P (trip P level s) ∧ ForceH P (trip P level s) := by
  have hpre := he.pre hP.mort
  have hF := he.inv.writeBins_pwt hP.mort hP.weight
  have h1 : SplitOK P (after P level (writeBins P s)) := splitOK_after hP ha hpre hF hs hf
  unfold trip
  split
  · rename_i hr
    exact ⟨h1, forceH_restrict hpre.after_inv hpos (hadj hr) hr h1⟩
  · rename_i hr
    refine ⟨h1, fun l k hm => ?_⟩
    have h2 : s.force l k = true := hm
    rw [he.noForce (by simpa using hr)] at h2
    cases h2

/-- In an adaptive build that succeeds, every split box has a reason. -/
theorem buildLevels_splitOK (hP : WOK P) (ha : P.adaptive = true) (hpos : 0 < P.rootExtent)
    (hn : 1 ≤ P.nlevelsMax) {L : Nat} {r : State} (h : buildLevels P = .ok (L, r))
    (hadj : P.levelRestrict = true → ∀ n, 1 ≤ n → n ≤ L + 1 → AdjOK P n)
    {hc : Nat → Nat → Bool} {o : Bool}
    (hI : Inv P (L + 1) { r with hasCh := hc, oversize := o }) :
    SplitOK P { r with hasCh := hc, oversize := o } := by
  unfold buildLevels at h
  split at h
  · obtain ⟨level, final, s, hl, ⟨hE, hS⟩, hend⟩ := loop_ends (P := P)
      (fun level _ s => Entry P level s ∧ (level ≤ L + 1 → SplitOK P s ∧ ForceH P s))
      (fun level s hJ _ _ _ => ⟨hJ.1.trip hP.mort false, fun hL =>
        split_trip hP ha hpos hJ.1 (fun hr => hadj hr _ (by omega) hL) (hJ.2 (by omega)).1
          (hJ.2 (by omega)).2⟩)
      (fun level s hJ _ _ ho _ _ => by
        refine ⟨?_, fun hL => split_trip hP ha hpos hJ.1 (fun hr => hadj hr _ (by omega) hL)
          (hJ.2 (by omega)).1 (hJ.2 (by omega)).2⟩
        have := hJ.1.trip hP.mort (Build.trip P level s).oversize
        exact this)
      P.nlevelsMax 1 false (init P) (le_refl 1) hn (by omega)
      ⟨Entry.init P, fun _ => ⟨(fun _ _ h => by cases h), (fun _ _ h => by cases h)⟩⟩
    rw [h] at hend
    have hpre := hE.pre hP.mort
    have hF := hE.inv.writeBins_pwt hP.mort hP.weight
    cases hend with
    | noNew hmax hu he =>
      rw [show level - 1 + 1 = level from by omega] at hI
      have hmk : hc = (writeBins P s).hasCh :=
        Inv.marks (o2 := (writeBins P s).oversize) hI hpre.inv
      subst hmk
      exact (hS (by omega)).1
    | final hmax ho hu =>
      rw [show level - 1 + 1 = level from by omega] at hI
      have hmk : hc = (after P level (writeBins P s)).hasCh :=
        Inv.marks (o2 := (after P level (writeBins P s)).oversize) hI (hpre.after_inv.mono hu)
      subst hmk
      exact splitOK_after (s := writeBins P s) hP ha hpre hF (hS (by omega)).1 (hS (by omega)).2
    | done hmax hu ho hd =>
      have ht : Inv P (L + 1) (trip P L s) := (hE.trip hP.mort (trip P L s).oversize).inv
      have hmk : hc = (trip P L s).hasCh := Inv.marks (o2 := (trip P L s).oversize) hI ht
      subst hmk
      exact (split_trip hP ha hpos hE (fun hr => hadj hr _ (by omega) (by omega)) (hS (by omega)).1
        (hS (by omega)).2).1
  · obtain ⟨rfl, rfl⟩ := Prod.mk.inj (Except.ok.inj h)
    intro l k hm
    have := (hI.hasCh_used l k hm).2
    omega

end
end Build
end Boxtree
