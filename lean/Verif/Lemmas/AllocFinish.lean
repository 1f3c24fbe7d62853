import Verif.Lemmas.AllocRel
import Verif.Lemmas.Build

/-! The numbers of the padding boxes do not matter after pruning. -/

namespace Boxtree.Build

/-! ### Particles beyond the last one -/

theorem climb_pbox (F : Flat) (h : Nat → Nat) (cond : Nat → Bool) : ∀ fuel b,
    climb { F with pbox := h } cond fuel b = climb F cond fuel b := by
  intro fuel
  induction fuel with
  | zero => intro b; rfl
  | succ fuel ih =>
    intro b
    unfold climb
    simp only [ih]

theorem scatter_cells {n : Nat} {c c' : Nat → List Nat} {v v' : Nat → Nat → Nat}
    (hc : ∀ i < n, c i = c' i) (hv : ∀ i < n, v i = v' i) : scatter n c v = scatter n c' v' := by
  funext b
  unfold scatter
  rw [Rel.find_congr (q := fun i => decide (b ∈ c' i)) fun i hi => by rw [hc i hi]]
  cases hf : (List.range n).find? fun i => decide (b ∈ c' i) with
  | none => rfl
  | some i =>
    have := List.mem_of_find?_eq_some hf
    simp only [hv i (List.mem_range.1 this)]

section
variable (F : Flat) {h : Nat → Nat} {n : Nat} (hp : ∀ i < n, F.pbox i = h i)
include hp

theorem startBoxes_pbox {i : Nat} (hi : i < n) :
    startBoxes F i = startBoxes { F with pbox := h } i := by
  unfold startBoxes
  rw [hp i hi]
  exact (climb_pbox F h _ _ _).symm

theorem endBoxes_pbox {i : Nat} (hi : i < n) :
    endBoxes F i = endBoxes { F with pbox := h } i := by
  unfold endBoxes
  rw [hp i hi]
  exact (climb_pbox F h _ _ _).symm

theorem boxStarts_pbox (ns : Nat) (ids : Nat → Nat) (src : Bool) :
    boxStarts F n ns ids src = boxStarts { F with pbox := h } n ns ids src :=
  scatter_cells (fun _ hi => startBoxes_pbox F hp hi) fun _ _ => rfl

theorem boxCounts_pbox (ns : Nat) (ids : Nat → Nat) (src : Bool) :
    boxCounts F n ns ids src = boxCounts { F with pbox := h } n ns ids src :=
  scatter_cells (fun _ hi => endBoxes_pbox F hp hi) fun _ _ => rfl

theorem boxNonchild_pbox (ns : Nat) (ids : Nat → Nat) (src : Bool) :
    boxNonchild F n ns ids src = boxNonchild { F with pbox := h } n ns ids src :=
  scatter_cells (fun i hi => by simp only [hp i hi]) fun _ _ => rfl

end

/-- Only the boxes of the particles matter. -/
theorem finishFlat_pbox (P : Params) (C : Cloud) (L : Nat) (used ids : Nat → Nat) (F : Flat)
    (h : Nat → Nat) (hp : ∀ i < P.n, F.pbox i = h i) :
    finishFlat P C L used ids F = finishFlat P C L used ids { F with pbox := h } := by
  unfold finishFlat
  simp only [boxStarts_pbox F hp, boxCounts_pbox F hp, boxNonchild_pbox F hp]
  rfl

/-! ### Pruning -/

/-- Box `(l, k)` has particles or is wanted anyway. -/
def wanted (skip : Bool) (s : State) (l k : Nat) : Bool := skip || decide (s.count l k ≠ 0)

/-- The wanted boxes above level `d` in order. -/
def wantedList (skip : Bool) (s : State) (d : Nat) : List (Nat × Nat) :=
  (List.range d).flatMap fun l =>
    ((List.range (s.used l)).filter (wanted skip s l)).map fun k => (l, k)

/-- The flat arrays `F` with level starts `ls` and the boxes `keep` of them are those of the state
`s` with deepest level `L`. -/
structure Shows (P : Params) (skip : Bool) (L : Nat) (s : State) (ls : Nat → Nat)
    (keep : Nat → Bool) (F : Flat) : Prop where
  lay : Lay ls s.used (L + 1)
  nboxes : F.nboxes = ls (L + 1)
  keep_used : ∀ l < L + 1, ∀ k < s.used l, keep (ls l + k) = wanted skip s l k
  keep_unused : ∀ b, Unused ls s.used (L + 1) b → b < ls (L + 1) → keep b = false
  level : ∀ l < L + 1, ∀ k < s.used l, F.level (ls l + k) = l
  start : ∀ l < L + 1, ∀ k < s.used l, F.start (ls l + k) = s.start l k
  count : ∀ l < L + 1, ∀ k < s.used l, F.count (ls l + k) = s.count l k
  nonchild : ∀ l < L + 1, ∀ k < s.used l, F.nonchild (ls l + k) =
    if P.haveExtent then
      if l = L then 0 else if s.count l k = 0 then 0 else (s.bins l k).nonchild
    else 0
  hasCh : ∀ l < L + 1, ∀ k < s.used l, F.hasCh (ls l + k) = s.hasCh l k
  center : ∀ l < L + 1, ∀ k < s.used l, ∀ a, F.center (ls l + k) a = s.center l k a
  stored : ∀ l < L + 1, ∀ k < s.used l, ∀ a, F.stored (ls l + k) a = s.stored l k a
  parent : ∀ l < L + 1, ∀ k < s.used l,
    F.parent (ls l + k) = if l = 0 then 0 else ls (l - 1) + s.parent l k
  child : ∀ l < L + 1, ∀ k < s.used l, ∀ m, F.child m (ls l + k) = match s.child m l k with
    | some c => ls (l + 1) + c
    | none => 0
  pbox : ∀ i < P.n, F.pbox i = ls (s.box i).1 + (s.box i).2

/-- The boxes of the state refer to each other. -/
structure Closed (P : Params) (L : Nat) (s : State) : Prop where
  root : 0 < s.used 0
  parent : ∀ l < L + 1, ∀ k < s.used l, l ≠ 0 → s.parent l k < s.used (l - 1)
  child : ∀ m l k c, s.child m l k = some c → l + 1 < L + 1 ∧ c < s.used (l + 1)
  box : ∀ i < P.n, (s.box i).1 < L + 1 ∧ (s.box i).2 < s.used (s.box i).1

section
variable {P : Params} {skip : Bool} {L : Nat} {s : State} {ls : Nat → Nat} {keep : Nat → Bool}
  {F : Flat}

theorem wantedList_succ (skip : Bool) (s : State) (d : Nat) :
    wantedList skip s (d + 1) = wantedList skip s d ++
      ((List.range (s.used d)).filter (wanted skip s d)).map fun k => (d, k) := by
  unfold wantedList
  rw [List.range_succ, List.flatMap_append]
  simp

theorem mem_wantedList {d l k : Nat} (h : (l, k) ∈ wantedList skip s d) : l < d ∧ k < s.used l := by
  unfold wantedList at h
  rw [List.mem_flatMap] at h
  obtain ⟨l', h1, h2⟩ := h
  rw [List.mem_map] at h2
  obtain ⟨k', h3, h4⟩ := h2
  obtain ⟨rfl, rfl⟩ := Prod.mk.inj h4
  exact ⟨List.mem_range.1 h1, List.mem_range.1 (List.mem_filter.1 h3).1⟩

theorem range_add_split (a c : Nat) :
    List.range (a + c) = List.range a ++ (List.range c).map fun k => a + k := by
  rw [List.range_add]

namespace Shows

theorem filter_part (h : Shows P skip L s ls keep F) {l : Nat} (hl : l < L + 1) {k : Nat}
    (hk : k ≤ s.used l) :
    (List.range (ls l + k)).filter keep = (List.range (ls l)).filter keep ++
      ((List.range k).filter (wanted skip s l)).map fun k => ls l + k := by
  rw [range_add_split, List.filter_append, List.filter_map]
  congr 2
  refine List.filter_congr fun j hj => ?_
  exact h.keep_used l hl j (by have := List.mem_range.1 hj; omega)

theorem filter_level (h : Shows P skip L s ls keep F) : ∀ d ≤ L + 1,
    (List.range (ls d)).filter keep = (wantedList skip s d).map fun q => ls q.1 + q.2 := by
  intro d
  induction d with
  | zero => intro _; rw [h.lay.start0]; rfl
  | succ d ih =>
    intro hd
    have hlen := h.lay.len d (by omega)
    obtain ⟨c, hc⟩ : ∃ c, ls (d + 1) = ls d + s.used d + c := ⟨ls (d + 1) - (ls d + s.used d), by omega⟩
    rw [hc, range_add_split, List.filter_append, h.filter_part (by omega) (le_refl _),
      ih (by omega), wantedList_succ, List.map_append, List.map_map]
    have hnil : List.filter keep ((List.range c).map fun k => ls d + s.used d + k) = [] := by
      rw [List.filter_eq_nil_iff]
      intro b hb
      obtain ⟨j, hj, rfl⟩ := List.mem_map.1 hb
      have hj := List.mem_range.1 hj
      have hle : ls (d + 1) ≤ ls (L + 1) := h.lay.mono hd (le_refl _)
      rw [h.keep_unused _ (.inr ⟨d, by omega, by omega, by omega⟩) (by omega)]
      simp
    rw [hnil, List.append_nil]
    rfl

theorem nboxes_eq (h : Shows P skip L s ls keep F) :
    ((List.range F.nboxes).filter keep).length = (wantedList skip s (L + 1)).length := by
  rw [h.nboxes, h.filter_level _ (le_refl _), List.length_map]

theorem src_eq (h : Shows P skip L s ls keep F) (b : Nat) :
    srcBoxId F.nboxes keep b = ls ((wantedList skip s (L + 1)).getD b (0, 0)).1
      + ((wantedList skip s (L + 1)).getD b (0, 0)).2 := by
  unfold srcBoxId
  rw [h.nboxes, h.filter_level _ (le_refl _)]
  by_cases hb : b < (wantedList skip s (L + 1)).length
  · rw [List.getD_eq_getElem _ _ (by simpa using hb), List.getD_eq_getElem _ _ hb, List.getElem_map]
  · rw [List.getD_eq_default _ _ (by simpa using hb), List.getD_eq_default _ _ (by omega),
      h.lay.start0]
    rfl

/-- New number of a box. -/
theorem dst_eq (h : Shows P skip L s ls keep F) {l k : Nat} (hl : l < L + 1) (hk : k < s.used l) :
    dstBoxId keep (ls l + k) = if wanted skip s l k then
      (wantedList skip s l).length + ((List.range k).filter (wanted skip s l)).length else 0 := by
  unfold dstBoxId rankOf
  rw [h.keep_used l hl k hk, h.filter_part hl (by omega), List.length_append,
    h.filter_level l (by omega), List.length_map, List.length_map]

theorem dst_zero (keep : Nat → Bool) : dstBoxId keep 0 = 0 := by
  unfold dstBoxId rankOf
  simp

end Shows

/-- The pruned arrays depend on the state only. -/
theorem Shows.prune_eq {ls' : Nat → Nat} {keep' : Nat → Bool} {F' : Flat}
    (h : Shows P skip L s ls keep F) (h' : Shows P skip L s ls' keep' F') (hs : Closed P L s) :
    { prune keep F with pbox := fun _ => 0 } = { prune keep' F' with pbox := fun _ => 0 } ∧
      ∀ i < P.n, (prune keep F).pbox i = (prune keep' F').pbox i := by
  have hin : ∀ b, ((wantedList skip s (L + 1)).getD b (0, 0)).1 < L + 1 ∧
      ((wantedList skip s (L + 1)).getD b (0, 0)).2
        < s.used ((wantedList skip s (L + 1)).getD b (0, 0)).1 := by
    intro b
    by_cases hb : b < (wantedList skip s (L + 1)).length
    · rw [List.getD_eq_getElem _ _ hb]
      exact mem_wantedList (List.getElem_mem hb)
    · rw [List.getD_eq_default _ _ (by omega)]
      exact ⟨by simp, hs.root⟩
  have hdst : ∀ l < L + 1, ∀ k < s.used l, dstBoxId keep (ls l + k) = dstBoxId keep' (ls' l + k) :=
    fun l hl k hk => by rw [h.dst_eq hl hk, h'.dst_eq hl hk]
  refine ⟨?_, fun i hi => ?_⟩
  · unfold prune
    simp only [Flat.mk.injEq, and_true]
    refine ⟨by rw [h.nboxes_eq, h'.nboxes_eq], ?_, ?_, ?_, ?_, ?_, ?_, ?_, ?_, ?_⟩
    · funext b
      rw [h.src_eq, h'.src_eq, h.level _ (hin b).1 _ (hin b).2, h'.level _ (hin b).1 _ (hin b).2]
    · funext b
      rw [h.src_eq, h'.src_eq, h.parent _ (hin b).1 _ (hin b).2, h'.parent _ (hin b).1 _ (hin b).2]
      split
      · rw [Shows.dst_zero, Shows.dst_zero]
      · rename_i h0
        exact hdst _ (by have := (hin b).1; omega) _ (hs.parent _ (hin b).1 _ (hin b).2 h0)
    · funext m b
      rw [h.src_eq, h'.src_eq, h.child _ (hin b).1 _ (hin b).2, h'.child _ (hin b).1 _ (hin b).2]
      split
      · rename_i c hc
        obtain ⟨h1, h2⟩ := hs.child _ _ _ _ hc
        exact hdst _ h1 _ h2
      · rw [Shows.dst_zero, Shows.dst_zero]
    · funext b
      rw [h.src_eq, h'.src_eq, h.start _ (hin b).1 _ (hin b).2, h'.start _ (hin b).1 _ (hin b).2]
    · funext b
      rw [h.src_eq, h'.src_eq, h.count _ (hin b).1 _ (hin b).2, h'.count _ (hin b).1 _ (hin b).2]
    · funext b
      rw [h.src_eq, h'.src_eq, h.nonchild _ (hin b).1 _ (hin b).2,
        h'.nonchild _ (hin b).1 _ (hin b).2]
    · funext b
      rw [h.src_eq, h'.src_eq, h.hasCh _ (hin b).1 _ (hin b).2, h'.hasCh _ (hin b).1 _ (hin b).2]
    · funext b a
      rw [h.src_eq, h'.src_eq, h.center _ (hin b).1 _ (hin b).2, h'.center _ (hin b).1 _ (hin b).2]
    · funext b a
      rw [h.src_eq, h'.src_eq, h.stored _ (hin b).1 _ (hin b).2, h'.stored _ (hin b).1 _ (hin b).2]
  · show dstBoxId keep (F.pbox i) = dstBoxId keep' (F'.pbox i)
    rw [h.pbox i hi, h'.pbox i hi]
    exact hdst _ (hs.box i hi).1 _ (hs.box i hi).2

theorem Shows.finish_eq {ls' : Nat → Nat} {keep' : Nat → Bool} {F' : Flat}
    (h : Shows P skip L s ls keep F) (h' : Shows P skip L s ls' keep' F') (hs : Closed P L s)
    (C : Cloud) (used ids : Nat → Nat) :
    finishFlat P C L used ids (prune keep F) = finishFlat P C L used ids (prune keep' F') := by
  obtain ⟨h1, h2⟩ := h.prune_eq h' hs
  have e : { prune keep F with pbox := (prune keep' F').pbox } = prune keep' F' :=
    congrArg (fun G : Flat => { G with pbox := (prune keep' F').pbox }) h1
  rw [finishFlat_pbox P C L used ids (prune keep F) _ h2, e]

/-- A state with padding. -/
theorem FinOK.shows {len : Nat → Nat} (hf : FinOK P skip len L s) (hc : Nat → Nat → Bool) (o : Bool) :
    Shows P skip L { s with hasCh := hc, oversize := o } (levelStart len)
      (keeps skip len L { s with hasCh := hc, oversize := o })
      (flatten P len L { s with hasCh := hc, oversize := o }) := by
  have hlay : Lay (levelStart len) s.used (L + 1) :=
    ⟨rfl, fun l hl => by rw [levelStart_succ]; have := hf.len_ge l (by omega); omega⟩
  have hloc : ∀ l < L + 1, ∀ k < s.used l, locate len (L + 1) 0 (levelStart len l + k) = (l, k) :=
    fun l hl k hk => locate_id len hl (by have := hf.len_ge l (by omega); omega)
  constructor
  · exact hlay
  · rfl
  · intro l hl k hk
    unfold keeps wanted
    simp only [hloc l hl k hk]
    cases skip with
    | true => simpa using hk
    | false => simp
  · intro b hb hlt
    rcases hb with h1 | ⟨l, h1, h2, h3⟩
    · omega
    · have h2 : levelStart len l + s.used l ≤ b := h2
      obtain ⟨k, rfl⟩ : ∃ k, b = levelStart len l + k := ⟨b - levelStart len l, by omega⟩
      rw [levelStart_succ] at h3
      unfold keeps
      rw [locate_id len h1 (by omega)]
      cases skip with
      | true => simp only [if_true, decide_eq_false_iff_not]; omega
      | false =>
        simp only [Bool.false_eq_true, if_false, decide_eq_false_iff_not, not_not]
        exact hf.inv.unused_count l k (by omega)
  case pbox => exact fun _ _ => rfl
  all_goals intro l hl k hk
  · show (locate _ _ _ _).1 = _
    rw [hloc l hl k hk]
  · show s.start (locate _ _ _ _).1 (locate _ _ _ _).2 = _
    rw [hloc l hl k hk]
  · show s.count (locate _ _ _ _).1 (locate _ _ _ _).2 = _
    rw [hloc l hl k hk]
  · unfold flatten
    simp only [hloc l hl k hk]
    have : levelStart len L ≤ levelStart len l + k ↔ l = L := by
      have hk : k < s.used l := hk
      have := hf.len_ge l (by omega)
      have h1 := levelStart_succ len l
      constructor
      · intro h2
        by_contra h3
        have := levelStart_mono len (show l + 1 ≤ L by omega)
        omega
      · rintro rfl; omega
    simp only [this]
  · show hc (locate _ _ _ _).1 (locate _ _ _ _).2 = _
    rw [hloc l hl k hk]
  · intro a
    show s.center (locate _ _ _ _).1 (locate _ _ _ _).2 a = _
    rw [hloc l hl k hk]
  · intro a
    show s.stored (locate _ _ _ _).1 (locate _ _ _ _).2 a = _
    rw [hloc l hl k hk]
  · unfold flatten
    simp only [hloc l hl k hk]
  · intro m
    unfold flatten
    simp only [hloc l hl k hk]
    cases s.child m l k <;> rfl

theorem FinOK.closed {len : Nat → Nat} (hf : FinOK P skip len L s) (hc : Nat → Nat → Bool) (o : Bool) :
    Closed P L { s with hasCh := hc, oversize := o } where
  root := by show 0 < s.used 0; rw [hf.inv.used_zero]; omega
  parent := fun l _ k hk h0 => by
    obtain ⟨l, rfl⟩ := Nat.exists_eq_succ_of_ne_zero h0
    exact (hf.inv.parent_ok l k hk).1
  child := fun m l k c h => by
    have := (hf.child_used h).2.2.1
    exact ⟨hf.inv.used_level this, this⟩
  box := fun i hi => by
    have := (hf.inv.box_used hi).1
    exact ⟨hf.inv.used_level this, this⟩

/-- The flat arrays at the end of the level loop. -/
theorem Rel.shows {B : Buf} (h : Rel P (L + 1) B s) (skip : Bool) :
    Shows P skip L s B.lstart (B.keeps skip L) (B.flat P L) where
  lay := h.lay
  nboxes := rfl
  keep_used := fun l hl k hk => by
    unfold Buf.keeps wanted
    cases skip with
    | true =>
      simp only [if_true, Bool.true_or, List.any_eq_true, List.mem_range, decide_eq_true_eq]
      exact ⟨l, hl, by omega, by rw [h.used]; omega⟩
    | false => simp [(h.same l hl k hk).count]
  keep_unused := fun b hb hlt => by
    unfold Buf.keeps
    cases skip with
    | true =>
      simp only [if_true, List.any_eq_false, List.mem_range, decide_eq_true_eq]
      rintro l hl ⟨h1, h2⟩
      rw [h.used] at h2
      exact h.lay.not_unused hl (k := b - B.lstart l) (by omega)
        (by rwa [show B.lstart l + (b - B.lstart l) = b by omega])
    | false => simp [(h.blank b hb).count]
  level := fun l hl k hk => h.lev_at hl hk
  start := fun l hl k hk => (h.same l hl k hk).start
  count := fun l hl k hk => (h.same l hl k hk).count
  nonchild := fun l hl k hk => by
    unfold Buf.flat
    simp only [(h.same l hl k hk).count, (h.same l hl k hk).bins]
    have : B.lstart L ≤ B.lstart l + k ↔ l = L := by
      constructor
      · intro h2
        by_contra h3
        have h4 := h.lay.mono (show l + 1 ≤ L by omega) (by omega)
        have := h.lay.in_level hl hk
        omega
      · rintro rfl; omega
    simp only [this]
  hasCh := fun l hl k hk => (h.same l hl k hk).hasCh
  center := fun l hl k hk => (h.same l hl k hk).center
  stored := fun l hl k hk => (h.same l hl k hk).stored
  parent := fun l hl k hk => (h.same l hl k hk).parent
  child := fun l hl k hk => (h.same l hl k hk).child
  pbox := fun i _ => h.box i

end
end Boxtree.Build
