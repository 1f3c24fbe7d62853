import Verif.Lemmas.LoopInd
import Verif.Lemmas.Balance
import Verif.Spec.TreeBuild

/-!
# The level loop with other box centers in memory

The stored centers are read only by the level restriction kernel.  If its adjacency tests come out
the same, so does the tree.
-/

namespace Boxtree

open BoxTree

section
variable {α : Type} {t : BoxTree} {visit visit' : Nat → Nat → List α × Bool}

theorem dfs_congr_level (hw : t.WF) : ∀ (h k b : Nat), b < t.nboxes →
    (∀ k' c, c < t.nboxes → t.level c + k = t.level b + k' + 1 → visit k' c = visit' k' c) →
    dfs t visit h k b = dfs t visit' h k b := by
  intro h
  induction h with
  | zero => intro k b _ _; rfl
  | succ h ih =>
    intro k b hb hv
    rw [dfs_succ, dfs_succ]
    refine List.flatMap_congr fun m hm => ?_
    have hm := List.mem_range.1 hm
    unfold dfsChild
    by_cases hc : t.child m b = 0
    · simp [hc]
    · simp only [hc, if_false]
      have hlc := hw.level_child hm hb hc
      have hcl := hw.child_lt m hm b hb
      rw [hv k _ hcl (by omega), ih (k + 1) _ hcl fun k' c h1 h2 => hv k' c h1 (by omega)]

theorem walk_congr_level (hw : t.WF) {b : Nat} (hb : b < t.nboxes)
    (hv : ∀ k' c, c < t.nboxes → t.level c = t.level b + k' + 1 → visit k' c = visit' k' c) :
    walk t visit b = walk t visit' b := by
  rw [walk_eq_dfs visit hw hb, walk_eq_dfs visit' hw hb]
  exact dfs_congr_level hw _ _ _ hb fun k' c h1 h2 => hv k' c h1 (by omega)

theorem find_congr {p q : α → Bool} : ∀ {l : List α}, (∀ a ∈ l, p a = q a) → l.find? p = l.find? q
  | [], _ => rfl
  | a :: l, h => by
    rw [List.find?_cons, List.find?_cons, h a (by simp), find_congr fun b hb => h b (by simp [hb])]

end

namespace Build

/-- Parameters with other Morton numbers and another rounding. -/
def Params.swap (P : Params) (μ : Nat → Nat → Option Nat) (φ : ℚ → ℚ) (ρ : Nat → ℚ) : Params :=
  { P with mort := μ, fl := φ, storedRoot := ρ }

section
variable {P : Params} {μ : Nat → Nat → Option Nat} {φ : ℚ → ℚ} {ρ : Nat → ℚ} {level : Nat} {s : State}
  {st : Nat → Nat → Nat → ℚ}

theorem mortonNr_swap (hμ : ∀ p < P.n, ∀ l, μ p l = P.mort p l) (h : ∀ i < P.n, s.ids i < P.n) {i : Nat}
    (hi : i < P.n) : mortonNr (P.swap μ φ ρ) { s with stored := st } i = mortonNr P s i :=
  hμ _ (h i hi) _

theorem scanItem_swap (hμ : ∀ p < P.n, ∀ l, μ p l = P.mort p l) (h : ∀ i < P.n, s.ids i < P.n) : ∀ {i : Nat},
    i < P.n → scanItem (P.swap μ φ ρ) { s with stored := st } i = scanItem P s i := by
  have key : ∀ i < P.n, fromParticle (P.swap μ φ ρ) (s.ids i) (s.box i).1
      = fromParticle P (s.ids i) (s.box i).1 := by
    intro i hi
    have : (P.swap μ φ ρ).mort (s.ids i) (s.box i).1 = P.mort (s.ids i) (s.box i).1 :=
      hμ _ (h i hi) _
    unfold fromParticle
    rw [this]
    rfl
  intro i
  induction i with
  | zero => intro hi; exact key 0 hi
  | succ i ih =>
    intro hi
    unfold scanItem
    simp only [key (i + 1) hi, ih (by omega)]

theorem writeBins_swap (hμ : ∀ p < P.n, ∀ l, μ p l = P.mort p l) (h : ∀ i < P.n, s.ids i < P.n) :
    writeBins (P.swap μ φ ρ) { s with stored := st } = { writeBins P s with stored := st } := by
  have key : (writeBins (P.swap μ φ ρ) { s with stored := st }).bins = (writeBins P s).bins := by
    funext l k
    unfold writeBins
    simp only
    have e : (List.range (P.swap μ φ ρ).n).find? (fun i => decide (s.box i = (l, k) ∧
          (scanItem (P.swap μ φ ρ) { s with stored := st } i).total (P.swap μ φ ρ).nch = s.count l k))
        = (List.range P.n).find? (fun i => decide (s.box i = (l, k) ∧
          (scanItem P s i).total P.nch = s.count l k)) := by
      refine find_congr fun i hi => ?_
      rw [scanItem_swap hμ h (List.mem_range.1 hi)]
      rfl
    rw [e]
    split
    · rename_i i hi
      exact scanItem_swap hμ h (List.mem_range.1 (List.mem_of_find?_eq_some hi))
    · rfl
  rw [show writeBins (P.swap μ φ ρ) { s with stored := st } = { s with stored := st, bins := (writeBins (P.swap μ φ ρ) { s with stored := st }).bins } from rfl, key]
  rfl

theorem mover_swap (hμ : ∀ p < P.n, ∀ l, μ p l = P.mort p l) (h : ∀ i < P.n, s.ids i < P.n) (j : Nat) :
    mover (P.swap μ φ ρ) level { s with stored := st } j = mover P level s j := by
  unfold mover
  refine find_congr fun i hi => ?_
  have hi := List.mem_range.1 hi
  have e : target (P.swap μ φ ρ) level { s with stored := st } i = target P level s i := by
    unfold target
    simp only [mortonNr_swap hμ h hi, scanItem_swap hμ h hi]
    rfl
  rw [e]

theorem renumber_swap (hμ : ∀ p < P.n, ∀ l, μ p l = P.mort p l) (h : ∀ i < P.n, s.ids i < P.n) :
    (renumber (P.swap μ φ ρ) level { s with stored := st }).ids = (renumber P level s).ids ∧
    (renumber (P.swap μ φ ρ) level { s with stored := st }).box = (renumber P level s).box := by
  constructor
  · funext j
    unfold renumber
    simp only [mover_swap hμ h]
  · funext j
    unfold renumber
    simp only [mover_swap hμ h]
    split
    · rename_i i hi
      have hi := List.mem_range.1 (List.mem_of_find?_eq_some hi)
      unfold newBox
      simp only [mortonNr_swap hμ h hi]
      rfl
    · rfl

/-- States that differ only in the stored centers. -/
def Alike (s s' : State) : Prop := s' = { s with stored := s'.stored }

variable {s' : State}

theorem Alike.writeBins (hμ : ∀ p < P.n, ∀ l, μ p l = P.mort p l) (h : Inv P level s)
    (hs : Alike s s') : Alike (Build.writeBins P s) (Build.writeBins (P.swap μ φ ρ) s') := by
  rw [hs, writeBins_swap hμ h.ids_lt]
  rfl

theorem Alike.markSplit (hs : Alike s s') :
    Alike (Build.markSplit P level s) (Build.markSplit (P.swap μ φ ρ) level s') := by
  rw [hs]; rfl

theorem Alike.splitStep (hμ : ∀ p < P.n, ∀ l, μ p l = P.mort p l)
    (h : ∀ i < P.n, s.ids i < P.n) (hs : Alike s s') :
    Alike (Build.splitStep P level s) (Build.splitStep (P.swap μ φ ρ) level s') := by
  rw [hs]
  unfold Build.splitStep Alike
  simp only [(renumber_swap (φ := φ) (ρ := ρ) (st := s'.stored) (level := level) hμ h).1,
    (renumber_swap (φ := φ) (ρ := ρ) (st := s'.stored) (level := level) hμ h).2]
  rfl

theorem Alike.after (hμ : ∀ p < P.n, ∀ l, μ p l = P.mort p l) (h : Inv P level s)
    (hs : Alike s s') : Alike (Build.after P level (Build.writeBins P s))
      (Build.after (P.swap μ φ ρ) level (Build.writeBins (P.swap μ φ ρ) s')) :=
  (hs.writeBins hμ h).markSplit.splitStep hμ h.ids_lt

theorem Alike.restrictLevel (hpos : 0 < P.rootExtent) {n : Nat} (h : Inv P n s)
    (h' : Inv (P.swap μ φ ρ) n s') (ha : AdjOK P n) (ha' : AdjOK (P.swap μ φ ρ) n)
    (hs : Alike s s') (f : Nat → Nat → Bool) (u : Nat) :
    Build.restrictLevel (P.swap μ φ ρ) (toTree P n s) s' f u
      = Build.restrictLevel P (toTree P n s) s f u := by
  have hu : s'.used = s.used := by rw [hs]
  have hc : s'.hasCh = s.hasCh := by rw [hs]
  have hT : toTree (P.swap μ φ ρ) n s' = toTree P n s := by rw [hs]; rfl
  have hw := h.toTree_wf hpos
  funext l k
  unfold Build.restrictLevel
  by_cases hl : l = u
  swap
  · rw [if_neg hl, if_neg hl]
  rw [if_pos hl, if_pos hl]
  simp only [hu, hc]
  by_cases hk : k < s.used u
  swap
  · simp [hk]
  congr 3
  refine walk_congr_level hw hw.nboxes_pos fun d c hcb hd => ?_
  rw [hw.level_root] at hd
  have hloc := locate_id s.used (h.used_level hk) hk
  obtain ⟨i, j, hj, rfl⟩ : ∃ i j, j < s.used i ∧ c = levelStart s.used i + j := by
    obtain ⟨i, j, _, h1, h2⟩ := exists_loc s.used hcb
    exact ⟨i, j, h1, h2⟩
  have hloc' := locate_id s.used (h.used_level hj) hj
  rw [level_toTree h hj] at hd
  have e := ha s h i j u k hj hk
  have e' := ha' s' h' i j u k (by rw [hu]; exact hj) (by rw [hu]; exact hk)
  have hn : Near (P.swap μ φ ρ) s' i j u k ↔ Near P s i j u k := by rw [hs]; rfl
  rw [hT, hn, ← e] at e'
  have hloc1 : locate s.used (toTree P n s).nlevels 0 (levelStart s.used u + k) = (u, k) := hloc
  have hloc2 : locate s.used (toTree P n s).nlevels 0 (levelStart s.used i + j) = (i, j) := hloc'
  have hd' : d + 1 = i := by omega
  unfold restrictVisit
  simp only [hloc1, hloc2, hd', e']

theorem Alike.upward (hpos : 0 < P.rootExtent) {n : Nat} (h : Inv P n s)
    (h' : Inv (P.swap μ φ ρ) n s') (ha : AdjOK P n) (ha' : AdjOK (P.swap μ φ ρ) n)
    (hs : Alike s s') : ∀ (u : Nat) (f : Nat → Nat → Bool),
    Build.upward (P.swap μ φ ρ) (toTree P n s) s' u f = Build.upward P (toTree P n s) s u f := by
  intro u
  induction u with
  | zero => intro f; rfl
  | succ u ih =>
    intro f
    unfold Build.upward
    simp only [hs.restrictLevel hpos h h' ha ha' f (u + 1), ih]
    have : anyForced s' = anyForced s := by rw [hs]; rfl
    rw [this]

theorem Alike.trip (hμ : ∀ p < P.n, ∀ l, μ p l = P.mort p l) (hM : P.MortOK)
    (hM' : (P.swap μ φ ρ).MortOK) (hpos : 0 < P.rootExtent) (h : Entry P level s)
    (h' : Entry (P.swap μ φ ρ) level s')
    (ha : P.levelRestrict = true → AdjOK P (level + 1) ∧ AdjOK (P.swap μ φ ρ) (level + 1))
    (hs : Alike s s') : Alike (Build.trip P level s) (Build.trip (P.swap μ φ ρ) level s') := by
  have hA := hs.after (φ := φ) (ρ := ρ) hμ h.inv
  unfold Build.trip
  change Alike _ (if P.levelRestrict = true then _ else _)
  split
  · rename_i hr
    obtain ⟨ha, ha'⟩ := ha hr
    unfold restrict
    have hT : toTree (P.swap μ φ ρ) (level + 1)
        (Build.after (P.swap μ φ ρ) level (Build.writeBins (P.swap μ φ ρ) s'))
        = toTree P (level + 1) (Build.after P level (Build.writeBins P s)) := by rw [hA]; rfl
    rw [hT, hA.upward hpos (h.pre hM).after_inv (h'.pre hM').after_inv ha ha', hA]
    rfl
  · exact hA

/-- The result `b` of the level loop is that of `a` with other centers in memory. -/
def AlikeResult (L : Nat) (r : State) (b : Except String (Nat × State)) : Prop :=
  ∃ r', b = .ok (L, r') ∧ Alike r r'

theorem loop_unfold (fuel : Nat) (final : Bool) : loop P (fuel + 1) level final s =
    if P.nlevelsMax ≤ level + 1 then .error "MaxLevelsExceeded"
    else if (after P level (writeBins P s)).used level = 0 ∧ final = false then
      if P.haveExtent then .ok (level - 1, markSplit P level (writeBins P s))
      else .error "AssertionError"
    else if final then
      if (after P level (writeBins P s)).oversize ∨ (after P level (writeBins P s)).used level ≠ 0 then
        .error "AssertionError"
      else .ok (level - 1, after P level (writeBins P s))
    else if (trip P level s).oversize = false then
      if P.levelRestrict ∧ didSplit level (trip P level s) = true then
        loop P fuel (level + 1) true (trip P level s)
      else .ok (level, trip P level s)
    else loop P fuel (level + 1) false { trip P level s with oversize := false } := rfl

theorem loop_level {L : Nat} {r : State} : ∀ (fuel level : Nat) (final : Bool) (s : State),
    loop P fuel level final s = .ok (L, r) → level ≤ L + 1 := by
  intro fuel
  induction fuel with
  | zero => intro _ _ _ h; cases h
  | succ fuel ih =>
    intro level final s h
    rw [loop_unfold] at h
    split at h
    · cases h
    split at h
    · split at h
      · cases h; omega
      · cases h
    split at h
    · split at h
      · cases h
      · cases h; omega
    split at h
    · split at h
      · have := ih _ _ _ h; omega
      · cases h; omega
    · have := ih _ _ _ h; omega

theorem Alike.loop (hμ : ∀ p < P.n, ∀ l, μ p l = P.mort p l) (hM : P.MortOK)
    (hM' : (P.swap μ φ ρ).MortOK) (hpos : 0 < P.rootExtent) {L : Nat} {r : State}
    (ha : P.levelRestrict = true → ∀ n, 1 ≤ n → n ≤ L + 1 → AdjOK P n ∧ AdjOK (P.swap μ φ ρ) n) :
    ∀ (fuel level : Nat) (final : Bool) (s s' : State),
    Entry P level s → Entry (P.swap μ φ ρ) level s' → Alike s s' →
    Build.loop P fuel level final s = .ok (L, r) →
    AlikeResult L r (Build.loop (P.swap μ φ ρ) fuel level final s') := by
  intro fuel
  induction fuel with
  | zero => intro _ _ _ _ _ _ _ h; cases h
  | succ fuel ih =>
    intro level final s s' h h' hs hl
    have e1 := (hs.writeBins (φ := φ) (ρ := ρ) hμ h.inv).markSplit (P := P) (μ := μ) (φ := φ) (ρ := ρ)
      (level := level)
    have e2 := hs.after (φ := φ) (ρ := ρ) hμ h.inv
    have e3 : level ≤ L → Alike (Build.trip P level s) (Build.trip (P.swap μ φ ρ) level s') :=
      fun hL => hs.trip hμ hM hM' hpos h h' fun hr => ha hr _ (by omega) (by omega)
    have t1 : ∀ o, Entry P (level + 1) { Build.trip P level s with oversize := o } := h.trip hM
    have t2 : ∀ o, Entry (P.swap μ φ ρ) (level + 1)
        { Build.trip (P.swap μ φ ρ) level s' with oversize := o } := h'.trip hM'
    have t3 : Entry P (level + 1) (Build.trip P level s) := t1 (Build.trip P level s).oversize
    have t4 : Entry (P.swap μ φ ρ) (level + 1) (Build.trip (P.swap μ φ ρ) level s') :=
      t2 (Build.trip (P.swap μ φ ρ) level s').oversize
    have u1 : (Build.after (P.swap μ φ ρ) level (Build.writeBins (P.swap μ φ ρ) s')).used
        = (Build.after P level (Build.writeBins P s)).used := by rw [e2]
    have u2 : (Build.after (P.swap μ φ ρ) level (Build.writeBins (P.swap μ φ ρ) s')).oversize
        = (Build.after P level (Build.writeBins P s)).oversize := by rw [e2]
    have u3 : (Build.trip (P.swap μ φ ρ) level s').oversize = (Build.trip P level s).oversize := by
      rw [trip_oversize, trip_oversize, u2]
    rw [loop_unfold] at hl
    rw [loop_unfold, u1, u2, u3]
    change AlikeResult L r (if P.nlevelsMax ≤ level + 1 then _ else
      if _ then if P.haveExtent = true then _ else _ else _)
    by_cases c1 : P.nlevelsMax ≤ level + 1
    · rw [if_pos c1] at hl; cases hl
    rw [if_neg c1] at hl ⊢
    by_cases c2 : (Build.after P level (Build.writeBins P s)).used level = 0 ∧ final = false
    · rw [if_pos c2] at hl ⊢
      by_cases c3 : P.haveExtent = true
      · rw [if_pos c3] at hl ⊢
        cases hl
        exact ⟨_, rfl, e1⟩
      · rw [if_neg c3] at hl; cases hl
    rw [if_neg c2] at hl ⊢
    by_cases c3 : final = true
    · rw [if_pos c3] at hl ⊢
      by_cases c4 : (Build.after P level (Build.writeBins P s)).oversize = true ∨
            (Build.after P level (Build.writeBins P s)).used level ≠ 0
      · rw [if_pos c4] at hl; cases hl
      · rw [if_neg c4] at hl ⊢
        cases hl
        exact ⟨_, rfl, e2⟩
    rw [if_neg c3] at hl ⊢
    have hL : level ≤ L := by
      split at hl
      · split at hl
        · have := loop_level _ _ _ _ hl; omega
        · cases hl; omega
      · have := loop_level _ _ _ _ hl; omega
    have e3 := e3 hL
    have u4 : didSplit level (Build.trip (P.swap μ φ ρ) level s')
        = didSplit level (Build.trip P level s) := by
      rw [e3]; rfl
    rw [u4]
    by_cases c4 : (Build.trip P level s).oversize = false
    · rw [if_pos c4] at hl ⊢
      by_cases hd : P.levelRestrict = true ∧ didSplit level (Build.trip P level s) = true
      · rw [if_pos hd] at hl
        rw [if_pos (c := (P.swap μ φ ρ).levelRestrict = true ∧ _) hd]
        exact ih _ _ _ _ t3 t4 e3 hl
      · rw [if_neg hd] at hl
        rw [if_neg (c := (P.swap μ φ ρ).levelRestrict = true ∧ _) hd]
        cases hl
        exact ⟨_, rfl, e3⟩
    · rw [if_neg c4] at hl ⊢
      refine ih _ _ _ _ (t1 _) (t2 _) ?_ hl
      unfold Alike
      rw [e3]

/-- The level loop builds the same boxes with other Morton functions and another rounding, if the
Morton numbers of the particles and the adjacency tests are the same. -/
theorem buildLevels_swap (hμ : ∀ p < P.n, ∀ l, μ p l = P.mort p l) (hM : P.MortOK)
    (hM' : (P.swap μ φ ρ).MortOK) (hpos : 0 < P.rootExtent) {L : Nat} {r : State}
    (ha : P.levelRestrict = true → ∀ n, 1 ≤ n → n ≤ L + 1 → AdjOK P n ∧ AdjOK (P.swap μ φ ρ) n)
    (hb : buildLevels P = .ok (L, r)) : AlikeResult L r (buildLevels (P.swap μ φ ρ)) := by
  unfold buildLevels at hb ⊢
  change AlikeResult L r (if P.maxWeight < totalWeight P then _ else _)
  split at hb
  · rename_i hc
    rw [if_pos hc]
    exact Alike.loop hμ hM hM' hpos ha _ _ _ _ _ (Entry.init P) (Entry.init _) rfl hb
  · rename_i hc
    rw [if_neg hc]
    cases hb
    exact ⟨_, rfl, rfl⟩

end
end Build
end Boxtree
