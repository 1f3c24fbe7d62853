import Verif.Model.TreeFinish
import Verif.Lemmas.TreeLoop

/-! Flat box numbers and pruning. -/

namespace Boxtree.Build

/-! ### Numbering by level -/

theorem levelStart_succ (len : Nat → Nat) (l : Nat) :
    levelStart len (l + 1) = levelStart len l + len l := sum_range_succ len l

theorem levelStart_mono (len : Nat → Nat) {a b : Nat} (h : a ≤ b) :
    levelStart len a ≤ levelStart len b := sum_range_le h

theorem levelStart_zero (len : Nat → Nat) : levelStart len 0 = 0 := rfl

theorem locate_aux (len : Nat → Nat) : ∀ (d l0 l k : Nat), l < d → k < len (l0 + l) →
    locate len d l0 (((List.range l).map fun i => len (l0 + i)).sum + k) = (l0 + l, k) := by
  intro d
  induction d with
  | zero => intro l0 l k h; omega
  | succ d ih =>
    intro l0 l k hl hk
    unfold locate
    cases l with
    | zero => rw [if_pos (by simpa using hk)]; simp
    | succ l =>
      have e : ((List.range (l + 1)).map fun i => len (l0 + i)).sum
          = len l0 + ((List.range l).map fun i => len (l0 + 1 + i)).sum := by
        rw [List.range_succ_eq_map, List.map_cons, List.map_map, List.sum_cons]
        congr 2
        apply List.map_congr_left
        intro i _
        show len (l0 + (i + 1)) = _
        congr 1
        omega
      rw [if_neg (by rw [e]; omega), e]
      rw [show len l0 + ((List.range l).map fun i => len (l0 + 1 + i)).sum + k - len l0
        = ((List.range l).map fun i => len (l0 + 1 + i)).sum + k by omega]
      rw [ih (l0 + 1) l k (by omega) (by rw [show l0 + 1 + l = l0 + (l + 1) by omega]; exact hk)]
      rw [show l0 + 1 + l = l0 + (l + 1) by omega]

theorem locate_id (len : Nat → Nat) {d l k : Nat} (hl : l < d) (hk : k < len l) :
    locate len d 0 (levelStart len l + k) = (l, k) := by
  have := locate_aux len d 0 l k hl (by rw [Nat.zero_add]; exact hk)
  simpa [levelStart] using this

theorem exists_loc (len : Nat → Nat) {d b : Nat} (hb : b < levelStart len d) :
    ∃ l k, l < d ∧ k < len l ∧ b = levelStart len l + k := by
  induction d with
  | zero => simp [levelStart] at hb
  | succ d ih =>
    rcases Nat.lt_or_ge b (levelStart len d) with h | h
    · obtain ⟨l, k, h1, h2, h3⟩ := ih h
      exact ⟨l, k, by omega, h2, h3⟩
    · rw [levelStart_succ] at hb
      exact ⟨d, b - levelStart len d, by omega, by omega, by omega⟩

/-- Requirements on the state at the end of the level loop. -/
structure FinOK (P : Params) (skip : Bool) (len : Nat → Nat) (L : Nat) (s : State) : Prop where
  inv : Inv P (L + 1) s
  len_ge : ∀ l ≤ L, s.used l ≤ len l
  moves : P.haveExtent = false → ∀ i < P.n, ∀ l, P.mort (s.ids i) l ≠ none
  root : skip = false → 0 < P.n

/-- Box `(l, k)` is in the final tree. -/
def Kept (skip : Bool) (s : State) (l k : Nat) : Prop :=
  k < s.used l ∧ (skip = true ∨ s.count l k ≠ 0)

section
variable {P : Params} {skip : Bool} {len : Nat → Nat} {L : Nat} {s : State}

/-- Final number of a kept box. -/
def nid (skip : Bool) (len : Nat → Nat) (L : Nat) (s : State) (l k : Nat) : Nat :=
  rankOf (keeps skip len L s) (levelStart len l + k)

namespace FinOK

theorem kept_level (h : FinOK P skip len L s) {l k : Nat} (hk : Kept skip s l k) :
    l < L + 1 ∧ k < len l := by
  have h1 := h.inv.used_level hk.1
  exact ⟨h1, Nat.lt_of_lt_of_le hk.1 (h.len_ge l (by omega))⟩

theorem keeps_iff (h : FinOK P skip len L s) {l k : Nat} (hl : l < L + 1) (hk : k < len l) :
    keeps skip len L s (levelStart len l + k) = true ↔ Kept skip s l k := by
  unfold keeps Kept
  rw [locate_id len hl hk]
  cases skip with
  | true => simp
  | false =>
    simp only [Bool.false_eq_true, if_false, decide_eq_true_eq, false_or]
    constructor
    · intro hc
      refine ⟨?_, hc⟩
      by_contra hu
      exact hc (h.inv.unused_count l k (by omega))
    · exact fun hc => hc.2

theorem keeps_kept (h : FinOK P skip len L s) {l k : Nat} (hk : Kept skip s l k) :
    keeps skip len L s (levelStart len l + k) = true :=
  (h.keeps_iff (h.kept_level hk).1 (h.kept_level hk).2).2 hk

theorem id_lt (h : FinOK P skip len L s) {l k : Nat} (hk : Kept skip s l k) :
    levelStart len l + k < levelStart len (L + 1) := by
  obtain ⟨h1, h2⟩ := h.kept_level hk
  have := levelStart_mono len (show l + 1 ≤ L + 1 by omega)
  rw [levelStart_succ] at this
  omega

theorem nboxes_eq (F : Flat) (keep : Nat → Bool) :
    (prune keep F).nboxes = rankOf keep F.nboxes := rfl

theorem nid_lt (h : FinOK P skip len L s) {l k : Nat} (hk : Kept skip s l k) :
    nid skip len L s l k < (prune (keeps skip len L s) (flatten P len L s)).nboxes := by
  rw [nboxes_eq]
  exact rankOf_lt_of_lt (h.keeps_kept hk) (h.id_lt hk)

theorem src_nid (h : FinOK P skip len L s) {l k : Nat} (hk : Kept skip s l k) :
    srcBoxId (flatten P len L s).nboxes (keeps skip len L s) (nid skip len L s l k)
      = levelStart len l + k :=
  filter_getD (h.keeps_kept hk) (h.id_lt hk)

theorem dst_id (h : FinOK P skip len L s) {l k : Nat} (hk : Kept skip s l k) :
    dstBoxId (keeps skip len L s) (levelStart len l + k) = nid skip len L s l k := by
  unfold dstBoxId nid
  rw [h.keeps_kept hk]; rfl

theorem exists_nid (h : FinOK P skip len L s) {b : Nat}
    (hb : b < (prune (keeps skip len L s) (flatten P len L s)).nboxes) :
    ∃ l k, Kept skip s l k ∧ b = nid skip len L s l k := by
  have hb' := hb
  rw [nboxes_eq] at hb
  obtain ⟨i, hi⟩ : ∃ i, ((List.range (flatten P len L s).nboxes).filter (keeps skip len L s))[b]?
      = some i := ⟨_, List.getElem?_eq_getElem (by exact hb')⟩
  have hmem := List.mem_of_getElem? hi
  rw [List.mem_filter, List.mem_range] at hmem
  obtain ⟨l, k, h1, h2, h3⟩ := exists_loc len hmem.1
  subst h3
  have hK := (h.keeps_iff h1 h2).1 hmem.2
  refine ⟨l, k, hK, ?_⟩
  have h4 := filter_getElem? (h.keeps_kept hK) (h.id_lt hK)
  have hnd : ((List.range (flatten P len L s).nboxes).filter (keeps skip len L s)).Nodup :=
    List.nodup_range.filter _
  exact (List.getElem?_inj (by exact hb') hnd).1 (by rw [hi]; exact h4.symm)

theorem nid_inj (h : FinOK P skip len L s) {l k l' k' : Nat} (hk : Kept skip s l k)
    (hk' : Kept skip s l' k') (he : nid skip len L s l k = nid skip len L s l' k') :
    l = l' ∧ k = k' := by
  have h1 := h.src_nid hk
  rw [he, h.src_nid hk'] at h1
  have h2 := locate_id len (h.kept_level hk).1 (h.kept_level hk).2
  rw [← h1, locate_id len (h.kept_level hk').1 (h.kept_level hk').2] at h2
  exact ⟨(congrArg Prod.fst h2).symm, (congrArg Prod.snd h2).symm⟩

theorem kept_root (h : FinOK P skip len L s) : Kept skip s 0 0 := by
  refine ⟨by rw [h.inv.used_zero]; omega, ?_⟩
  cases hs : skip with
  | true => exact .inl rfl
  | false => exact .inr (by rw [h.inv.root_count]; have := h.root hs; omega)

theorem nid_root : nid skip len L s 0 0 = 0 := rfl

theorem kept_parent (h : FinOK P skip len L s) {l k : Nat} (hk : Kept skip s (l + 1) k) :
    Kept skip s l (s.parent (l + 1) k) := by
  refine ⟨(h.inv.parent_ok l k hk.1).1, ?_⟩
  rcases hk.2 with h1 | h1
  · exact .inl h1
  · exact .inr (by have := (h.inv.child_range hk.1 (by omega)).2.2; omega)

theorem nid_ne_zero (h : FinOK P skip len L s) {l k : Nat} (hk : Kept skip s (l + 1) k) :
    nid skip len L s (l + 1) k ≠ 0 := by
  intro hc
  have := h.nid_inj hk h.kept_root (by rw [hc, nid_root])
  omega

/-- Numbers are ordered by level, then by the position on the level. -/
theorem nid_lt_iff (h : FinOK P skip len L s) {l k l' k' : Nat} (hk : Kept skip s l k)
    (hk' : Kept skip s l' k') :
    nid skip len L s l k < nid skip len L s l' k' ↔ l < l' ∨ (l = l' ∧ k < k') := by
  unfold nid
  rw [rankOf_lt_iff (h.keeps_kept hk)]
  have a1 := (h.kept_level hk).2
  have a2 := (h.kept_level hk').2
  rcases Nat.lt_trichotomy l l' with hl | hl | hl
  · have := levelStart_mono len (show l + 1 ≤ l' by omega)
    rw [levelStart_succ] at this
    omega
  · subst hl; omega
  · have := levelStart_mono len (show l' + 1 ≤ l by omega)
    rw [levelStart_succ] at this
    omega

/-- A kept box is in its level. -/
theorem loc (h : FinOK P skip len L s) {l k : Nat} (hk : Kept skip s l k) :
    locate len (L + 1) 0 (srcBoxId (flatten P len L s).nboxes (keeps skip len L s)
      (nid skip len L s l k)) = (l, k) := by
  rw [h.src_nid hk, locate_id len (h.kept_level hk).1 (h.kept_level hk).2]

/-- The final arrays. -/
def fin (P : Params) (skip : Bool) (len : Nat → Nat) (L : Nat) (s : State) : Flat :=
  prune (keeps skip len L s) (flatten P len L s)

theorem fin_level (h : FinOK P skip len L s) {l k : Nat} (hk : Kept skip s l k) :
    (fin P skip len L s).level (nid skip len L s l k) = l := congrArg Prod.fst (h.loc hk)

theorem fin_start (h : FinOK P skip len L s) {l k : Nat} (hk : Kept skip s l k) :
    (fin P skip len L s).start (nid skip len L s l k) = s.start l k := by
  show s.start (locate _ _ _ _).1 (locate _ _ _ _).2 = _
  rw [h.loc hk]

theorem fin_count (h : FinOK P skip len L s) {l k : Nat} (hk : Kept skip s l k) :
    (fin P skip len L s).count (nid skip len L s l k) = s.count l k := by
  show s.count (locate _ _ _ _).1 (locate _ _ _ _).2 = _
  rw [h.loc hk]

theorem fin_hasCh (h : FinOK P skip len L s) {l k : Nat} (hk : Kept skip s l k) :
    (fin P skip len L s).hasCh (nid skip len L s l k) = s.hasCh l k := by
  show s.hasCh (locate _ _ _ _).1 (locate _ _ _ _).2 = _
  rw [h.loc hk]

theorem fin_center (h : FinOK P skip len L s) {l k : Nat} (hk : Kept skip s l k) :
    (fin P skip len L s).center (nid skip len L s l k) = s.center l k := by
  funext a
  show s.center (locate _ _ _ _).1 (locate _ _ _ _).2 a = _
  rw [h.loc hk]

theorem fin_stored (h : FinOK P skip len L s) {l k : Nat} (hk : Kept skip s l k) :
    (fin P skip len L s).stored (nid skip len L s l k) = s.stored l k := by
  funext a
  show s.stored (locate _ _ _ _).1 (locate _ _ _ _).2 a = _
  rw [h.loc hk]

theorem fin_parent_root (h : FinOK P skip len L s) : (fin P skip len L s).parent 0 = 0 := by
  show dstBoxId _ (if (locate _ _ _ _).1 = 0 then 0 else _) = 0
  have h1 : locate len (L + 1) 0 (srcBoxId (flatten P len L s).nboxes (keeps skip len L s) 0)
      = (0, 0) := h.loc h.kept_root
  rw [h1, if_pos rfl]
  exact h.dst_id h.kept_root

theorem fin_parent (h : FinOK P skip len L s) {l k : Nat} (hk : Kept skip s (l + 1) k) :
    (fin P skip len L s).parent (nid skip len L s (l + 1) k)
      = nid skip len L s l (s.parent (l + 1) k) := by
  show dstBoxId _ (if (locate _ _ _ _).1 = 0 then 0 else
    levelStart len ((locate _ _ _ _).1 - 1) + s.parent (locate _ _ _ _).1 (locate _ _ _ _).2) = _
  rw [h.loc hk, if_neg (by simp)]
  exact h.dst_id (h.kept_parent hk)

theorem dst_zero (h : FinOK P skip len L s) : dstBoxId (keeps skip len L s) 0 = 0 :=
  h.dst_id h.kept_root

theorem fin_child_kept (h : FinOK P skip len L s) {l k m c : Nat} (hk : Kept skip s l k)
    (hc : s.child m l k = some c) (hkc : Kept skip s (l + 1) c) :
    (fin P skip len L s).child m (nid skip len L s l k) = nid skip len L s (l + 1) c := by
  show dstBoxId _ (match s.child m (locate _ _ _ _).1 (locate _ _ _ _).2 with
    | some c => levelStart len ((locate _ _ _ _).1 + 1) + c
    | none => 0) = _
  rw [h.loc hk]
  simp only [hc]
  exact h.dst_id hkc

theorem fin_child_none (h : FinOK P skip len L s) {l k m : Nat} (hk : Kept skip s l k)
    (hc : s.child m l k = none) :
    (fin P skip len L s).child m (nid skip len L s l k) = 0 := by
  show dstBoxId _ (match s.child m (locate _ _ _ _).1 (locate _ _ _ _).2 with
    | some c => levelStart len ((locate _ _ _ _).1 + 1) + c
    | none => 0) = _
  rw [h.loc hk]
  simp only [hc]
  exact h.dst_zero

/-- Children are in the list of boxes. -/
theorem child_used (h : FinOK P skip len L s) {l k m c : Nat} (hc : s.child m l k = some c) :
    m < P.nch ∧ s.hasCh l k = true ∧ c < s.used (l + 1) ∧ s.parent (l + 1) c = k ∧
      c % P.nch = m := by
  have hm : m < P.nch := by
    by_contra hn
    rw [h.inv.child_some m l k (.inr (by omega))] at hc
    cases hc
  have hh : s.hasCh l k = true := by
    cases hb : s.hasCh l k with
    | true => rfl
    | false => rw [h.inv.child_some m l k (.inl hb)] at hc; cases hc
  obtain ⟨_, base, hd, hle, hch⟩ := h.inv.children l k hh
  have h1 := hch m hm
  rw [h1.1] at hc
  obtain rfl := Option.some.inj hc
  obtain ⟨q, rfl⟩ := hd
  refine ⟨hm, hh, by omega, h1.2.1, ?_⟩
  rw [Nat.mul_add_mod, Nat.mod_eq_of_lt hm]

theorem fin_child_removed (h : FinOK P skip len L s) {l k m c : Nat} (hk : Kept skip s l k)
    (hc : s.child m l k = some c) (hkc : ¬ Kept skip s (l + 1) c) :
    (fin P skip len L s).child m (nid skip len L s l k) = 0 := by
  show dstBoxId _ (match s.child m (locate _ _ _ _).1 (locate _ _ _ _).2 with
    | some c => levelStart len ((locate _ _ _ _).1 + 1) + c
    | none => 0) = _
  rw [h.loc hk]
  simp only [hc]
  have hu := (h.child_used hc).2.2.1
  have hl := h.inv.used_level hu
  have hle := h.len_ge (l + 1) (by omega)
  unfold dstBoxId
  rw [if_neg]
  intro hkeep
  exact hkc ((h.keeps_iff hl (by omega)).1 hkeep)

/-- A child that is not zero is a kept child. -/
theorem fin_child (h : FinOK P skip len L s) {l k m : Nat} (hk : Kept skip s l k)
    (h0 : (fin P skip len L s).child m (nid skip len L s l k) ≠ 0) :
    ∃ c, s.child m l k = some c ∧ Kept skip s (l + 1) c ∧
      (fin P skip len L s).child m (nid skip len L s l k) = nid skip len L s (l + 1) c := by
  cases hc : s.child m l k with
  | none => exact absurd (h.fin_child_none hk hc) h0
  | some c =>
    by_cases hkc : Kept skip s (l + 1) c
    · exact ⟨c, rfl, hkc, h.fin_child_kept hk hc hkc⟩
    · exact absurd (h.fin_child_removed hk hc hkc) h0

theorem kept_box (h : FinOK P skip len L s) {i : Nat} (hi : i < P.n) :
    Kept skip s (s.box i).1 (s.box i).2 := by
  have h1 := h.inv.box_used hi
  have h2 := h.inv.own_le (s.box i).1 (s.box i).2
  exact ⟨h1.1, .inr (by omega)⟩

theorem fin_pbox (h : FinOK P skip len L s) {i : Nat} (hi : i < P.n) :
    (fin P skip len L s).pbox i = nid skip len L s (s.box i).1 (s.box i).2 :=
  h.dst_id (h.kept_box hi)

/-- Own particles of a box with children. -/
theorem fin_nonchild (h : FinOK P skip len L s) {l k : Nat} (hk : Kept skip s l k)
    (hc : s.hasCh l k = true) :
    (fin P skip len L s).nonchild (nid skip len L s l k) = own s l k := by
  show (if P.haveExtent then
      if levelStart len L ≤ srcBoxId _ _ _ then 0
      else if s.count (locate _ _ _ _).1 (locate _ _ _ _).2 = 0 then 0
      else (s.bins (locate _ _ _ _).1 (locate _ _ _ _).2).nonchild
    else 0) = _
  rw [h.loc hk, h.src_nid hk]
  have hl := (h.inv.hasCh_used l k hc).2
  have hmono := levelStart_mono len (show l + 1 ≤ L by omega)
  rw [levelStart_succ] at hmono
  have hlen := (h.kept_level hk).2
  cases he : P.haveExtent with
  | true =>
    rw [if_pos rfl, if_neg (by omega)]
    unfold own
    rw [if_pos hc]
    split
    · rename_i h0
      rw [h.inv.empty_bins l k h0]; rfl
    · rfl
  | false =>
    rw [if_neg (by simp)]
    by_contra hne
    have h0 : 0 < own s l k := by omega
    have hm := h.inv.own_mem hk.1 h0
    rw [Nat.add_zero] at hm
    have hst := h.inv.stay _ hm.1 (by rw [hm.2]; exact hc)
    exact h.moves he _ hm.1 _ hst

end FinOK
end
end Boxtree.Build
