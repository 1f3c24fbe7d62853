import Verif.Spec.Partition
import Verif.Lemmas.Fmm
import Mathlib.Data.List.GetD
import Mathlib.Tactic.FieldSimp
import Mathlib.Tactic.Positivity

set_option linter.unusedSimpArgs false
set_option linter.unusedVariables false

namespace Boxtree.Dist
open BoxTree

variable {t : BoxTree}

/-! ### depth-first order -/

def kids (t : BoxTree) (b : Nat) : List Nat :=
  (((List.range t.nch).map fun i => t.child i b).filter fun c => 0 < c).reverse

theorem mem_kids {b c : Nat} : c ∈ kids t b ↔ ∃ m, m < t.nch ∧ t.child m b = c ∧ c ≠ 0 := by
  unfold kids
  simp only [List.mem_reverse, List.mem_filter, List.mem_map, List.mem_range, decide_eq_true_eq]
  constructor
  · rintro ⟨⟨m, h1, h2⟩, h3⟩; exact ⟨m, h1, h2, by omega⟩
  · rintro ⟨m, h1, h2, h3⟩; exact ⟨⟨m, h1, h2⟩, by omega⟩

theorem kids_props (hw : t.WF) {b c : Nat} (hb : b < t.nboxes) (hc : c ∈ kids t b) :
    c < t.nboxes ∧ t.level c = t.level b + 1 := by
  obtain ⟨m, h1, rfl, h3⟩ := mem_kids.1 hc
  exact ⟨hw.child_lt m h1 b hb, hw.level_child h1 hb h3⟩

theorem nodup_kids (hw : t.WF) {b : Nat} (hb : b < t.nboxes) : (kids t b).Nodup := by
  unfold kids
  rw [List.nodup_reverse, List.filter_map]
  apply List.Nodup.map_on
  · intro m hm m' hm' he
    simp only [List.mem_filter, List.mem_range, Function.comp, decide_eq_true_eq] at hm hm'
    exact hw.child_inj m hm.1 m' hm'.1 b hb (by omega) he
  · exact List.nodup_range.filter _

def sub (t : BoxTree) : Nat → Nat → List Nat
  | 0, _ => []
  | h + 1, b => b :: (kids t b).flatMap (sub t h)

/-- the boxes of the subtree of `b`, depth first -/
def subtree (t : BoxTree) (b : Nat) : List Nat := sub t (t.nlevels - t.level b) b

theorem subtree_eq (hw : t.WF) {b : Nat} (hb : b < t.nboxes) :
    subtree t b = b :: (kids t b).flatMap (subtree t) := by
  have hl := hw.level_lt b hb
  unfold subtree
  obtain ⟨h, hh⟩ : ∃ h, t.nlevels - t.level b = h + 1 := ⟨t.nlevels - t.level b - 1, by omega⟩
  rw [hh, sub]
  congr 1
  apply List.flatMap_congr
  intro c hc
  have := (kids_props hw hb hc).2
  rw [this]
  congr 1
  omega

/-- induction from the deepest boxes upward -/
theorem upward_induction (hw : t.WF) {P : Nat → Prop}
    (h : ∀ b, b < t.nboxes → (∀ c ∈ kids t b, P c) → P b) : ∀ b, b < t.nboxes → P b := by
  have : ∀ n b, b < t.nboxes → t.nlevels ≤ t.level b + n → P b := by
    intro n
    induction n with
    | zero => intro b hb hn; have := hw.level_lt b hb; omega
    | succ n ih =>
      intro b hb hn
      apply h b hb
      intro c hc
      obtain ⟨h1, h2⟩ := kids_props hw hb hc
      exact ih c h1 (by omega)
  intro b hb
  exact this t.nlevels b hb (by omega)

theorem mem_subtree (hw : t.WF) (x : Nat) (hx : x < t.nboxes) :
    ∀ b, b < t.nboxes → (x ∈ subtree t b ↔ t.IsAncOrSelf b x) := by
  refine upward_induction hw (P := fun b => x ∈ subtree t b ↔ t.IsAncOrSelf b x) ?_
  intro b hb ih
  rw [subtree_eq hw hb, List.mem_cons, List.mem_flatMap]
  constructor
  · rintro (rfl | ⟨c, hc, hxc⟩)
    · exact ⟨le_rfl, ancAt_self t x⟩
    · obtain ⟨m, hm, rfl, h0⟩ := mem_kids.1 hc
      exact ((isAncOrSelf_iff_child hw hb hx).2 ⟨m, hm, h0, (ih _ hc).1 hxc⟩).1
  · intro h
    by_cases hxb : x = b
    · exact Or.inl hxb
    · obtain ⟨m, hm, h0, ha⟩ := (isAncOrSelf_iff_child hw hb hx).1 ⟨h, hxb⟩
      have hc : t.child m b ∈ kids t b := mem_kids.2 ⟨m, hm, rfl, h0⟩
      exact Or.inr ⟨_, hc, (ih _ hc).2 ha⟩

theorem subtree_lt (hw : t.WF) : ∀ b, b < t.nboxes → ∀ x ∈ subtree t b, x < t.nboxes := by
  refine upward_induction hw (P := fun b => ∀ x ∈ subtree t b, x < t.nboxes) ?_
  intro b hb ih x hx
  rw [subtree_eq hw hb, List.mem_cons, List.mem_flatMap] at hx
  rcases hx with rfl | ⟨c, hc, hxc⟩
  · exact hb
  · exact ih c hc x hxc

theorem nodup_subtree (hw : t.WF) : ∀ b, b < t.nboxes → (subtree t b).Nodup := by
  refine upward_induction hw (P := fun b => (subtree t b).Nodup) ?_
  intro b hb ih
  rw [subtree_eq hw hb, List.nodup_cons]
  constructor
  · intro h
    obtain ⟨c, hc, hbc⟩ := List.mem_flatMap.1 h
    obtain ⟨h1, h2⟩ := kids_props hw hb hc
    have := (mem_subtree hw b hb c h1).1 hbc
    have := this.1
    omega
  · rw [List.nodup_flatMap]
    refine ⟨ih, (nodup_kids hw hb).imp_of_mem ?_⟩
    intro c c' hc hc' hne x hx hx'
    obtain ⟨h1, h2⟩ := kids_props hw hb hc
    obtain ⟨h1', h2'⟩ := kids_props hw hb hc'
    have hxlt := subtree_lt hw c h1 x hx
    have e1 := ((mem_subtree hw x hxlt c h1).1 hx).2
    have e2 := ((mem_subtree hw x hxlt c' h1').1 hx').2
    rw [h2] at e1
    rw [h2'] at e2
    exact hne (e1.symm.trans e2)

theorem isAnc_root (hw : t.WF) {x : Nat} (hx : x < t.nboxes) : t.IsAncOrSelf 0 x :=
  ⟨by rw [hw.level_root]; omega, by rw [hw.level_root]; exact hw.ancAt_zero hx⟩

theorem subtree_root_perm (hw : t.WF) : (subtree t 0).Perm (List.range t.nboxes) := by
  rw [List.perm_ext_iff_of_nodup (nodup_subtree hw 0 hw.nboxes_pos) List.nodup_range]
  intro x
  rw [List.mem_range]
  exact ⟨subtree_lt hw 0 hw.nboxes_pos x,
    fun hx => (mem_subtree hw x hx 0 hw.nboxes_pos).2 (isAnc_root hw hx)⟩

theorem dfsLoop_eq (hw : t.WF) : ∀ n stack, (∀ b ∈ stack, b < t.nboxes) →
    (stack.flatMap (subtree t)).length ≤ n →
    dfsLoop t n stack = some (stack.flatMap (subtree t)) := by
  intro n
  induction n with
  | zero =>
    intro stack hs hn
    cases stack with
    | nil => rfl
    | cons b st =>
      rw [List.flatMap_cons, subtree_eq hw (hs b List.mem_cons_self)] at hn
      simp at hn
  | succ n ih =>
    intro stack hs hn
    cases stack with
    | nil => rfl
    | cons b st =>
      have hb := hs b List.mem_cons_self
      have e : (b :: st).flatMap (subtree t) = b :: (kids t b ++ st).flatMap (subtree t) := by
        rw [List.flatMap_cons, subtree_eq hw hb, List.flatMap_append, List.cons_append]
      rw [e] at hn ⊢
      rw [dfsLoop]
      rw [show (((List.range t.nch).map fun i => t.child i b).filter fun c => 0 < c).reverse
        = kids t b from rfl, ih (kids t b ++ st) _ (by simpa using hn)]
      · rfl
      · intro c hc
        rcases List.mem_append.1 hc with hc | hc
        · exact (kids_props hw hb hc).1
        · exact hs c (List.mem_cons_of_mem _ hc)

theorem dfsOrder_eq (hw : t.WF) : dfsOrder t = some (subtree t 0) := by
  unfold dfsOrder
  rw [dfsLoop_eq hw]
  · simp
  · intro b hb; simp at hb; subst hb; exact hw.nboxes_pos
  · have := (subtree_root_perm hw).length_eq
    simp at this
    simp [this]

theorem subtree_block (hw : t.WF) : ∀ n b, b < t.nboxes → t.level b = n →
    ∃ pre post, subtree t 0 = pre ++ subtree t b ++ post := by
  intro n
  induction n with
  | zero =>
    intro b hb hl
    rw [hw.eq_zero_of_level hb hl]
    exact ⟨[], [], by simp⟩
  | succ n ih =>
    intro b hb hl
    have h0 : b ≠ 0 := by rintro rfl; rw [hw.level_root] at hl; omega
    have hp := hw.parent_lt b hb
    have hlp := hw.level_parent b hb h0
    obtain ⟨pre, post, he⟩ := ih (t.parent b) hp (by omega)
    obtain ⟨m, hm, hc⟩ := hw.parent_child b hb h0
    have hk : b ∈ kids t (t.parent b) := mem_kids.2 ⟨m, hm, hc, h0⟩
    obtain ⟨k1, k2, hk12⟩ := List.append_of_mem hk
    rw [subtree_eq hw hp, hk12] at he
    refine ⟨pre ++ t.parent b :: k1.flatMap (subtree t), k2.flatMap (subtree t) ++ post, ?_⟩
    rw [he]
    simp [List.flatMap_append, List.flatMap_cons]

theorem isDepthFirst (hw : t.WF) : IsDepthFirst t (subtree t 0) where
  perm := subtree_root_perm hw
  block := by
    intro b hb
    obtain ⟨pre, post, he⟩ := subtree_block hw _ b hb rfl
    refine ⟨pre, (kids t b).flatMap (subtree t), post, ?_, ?_⟩
    · rw [he, ← subtree_eq hw hb]
    · intro x hx
      rw [← subtree_eq hw hb]
      exact mem_subtree hw x hx b hb

/-! ### segments -/

def segsOf : Nat → List Nat → List (Nat × Nat)
  | _, [] => []
  | s, e :: es => (s, e) :: segsOf e es

theorem length_segsOf (s : Nat) (es : List Nat) : (segsOf s es).length = es.length := by
  induction es generalizing s with
  | nil => rfl
  | cons e es ih => simp [segsOf, ih]

/-- `ends` is strictly increasing from `s`, and ends with `n` -/
def EndsOK (n : Nat) : Nat → List Nat → Prop
  | _, [] => False
  | s, [e] => s < e ∧ e = n
  | s, e :: e' :: es => s < e ∧ EndsOK n e (e' :: es)

theorem EndsOK.lt_head {n s : Nat} {es : List Nat} (h : EndsOK n s es) : s < n := by
  induction es generalizing s with
  | nil => exact h.elim
  | cons e es ih =>
    cases es with
    | nil => obtain ⟨h1, rfl⟩ := h; exact h1
    | cons e' es => exact lt_trans h.1 (ih h.2)

theorem EndsOK.cons {n s e : Nat} {es : List Nat} (h : EndsOK n e es) (hs : s < e) :
    EndsOK n s (e :: es) := by
  cases es with
  | nil => exact h.elim
  | cons e' es => exact ⟨hs, h⟩

theorem EndsOK.flatten {n s : Nat} {es : List Nat} (h : EndsOK n s es) (dfs : List Nat)
    (hd : dfs.length = n) :
    ((segsOf s es).map fun se => (dfs.drop se.1).take (se.2 - se.1)).flatten = dfs.drop s := by
  induction es generalizing s with
  | nil => exact h.elim
  | cons e es ih =>
    have hs : s < e := by cases es with
      | nil => exact h.1
      | cons e' es => exact h.1
    rw [segsOf, List.map_cons, List.flatten_cons]
    cases es with
    | nil =>
      obtain ⟨h1, rfl⟩ := h
      simp only [segsOf, List.map_nil, List.flatten_nil, List.append_nil]
      exact List.take_of_length_le (by simp [hd])
    | cons e' es =>
      rw [ih h.2]
      have : dfs.drop e = (dfs.drop s).drop (e - s) := by
        rw [List.drop_drop]; congr 1; omega
      simp only
      rw [this, List.take_append_drop]

theorem EndsOK.nonempty {n s : Nat} {es : List Nat} (h : EndsOK n s es) :
    ∀ se ∈ segsOf s es, se.1 < se.2 ∧ se.2 ≤ n := by
  induction es generalizing s with
  | nil => exact h.elim
  | cons e es ih =>
    intro se hse
    rw [segsOf, List.mem_cons] at hse
    cases es with
    | nil =>
      rcases hse with rfl | hse
      · obtain ⟨h1, rfl⟩ := h; exact ⟨h1, le_rfl⟩
      · simp [segsOf] at hse
    | cons e' es =>
      rcases hse with rfl | hse
      · exact ⟨h.1, h.2.lt_head.le⟩
      · exact ih h.2 se hse

theorem partLoop_spec (cost : Nat → ℚ) (dfs : List Nat) (total : ℚ) (size n : Nat) :
    ∀ m i seg start wl (segs : Segments), 0 < m → i + m = n → start ≤ i → seg < size →
    segs.length = size →
    ∃ ends, EndsOK n start ends ∧ seg + ends.length ≤ size ∧
      partLoop cost dfs total size n (List.range' i m) seg start wl segs =
        segs.take seg ++ (segsOf start ends).map some ++ segs.drop (seg + ends.length) ∧
      ((∀ k, k < n → 0 ≤ cost (dfs.getD k 0)) →
        (∀ k, k < n → cost (dfs.getD k 0) ≤ total / size) →
        cost (dfs.getD (n - 1) 0) < total / size →
        ((List.range n).map fun k => cost (dfs.getD k 0)).sum = total →
        wl = ((List.range i).map fun k => cost (dfs.getD k 0)).sum →
        wl ≤ (seg + 1) * (total / size) →
        seg + ends.length = size) := by
  intro m
  induction m with
  | zero => intro i seg start wl segs h0; omega
  | succ m ih =>
    intro i seg start wl segs _ him hs hseg hlen
    rw [List.range'_succ, partLoop]
    have hset : ∀ v : Option (Nat × Nat), segs.set seg v = segs.take seg ++ v :: segs.drop (seg + 1) :=
      fun v => List.set_eq_take_append_cons_drop .. |>.trans (if_pos (by omega))
    by_cases hsz : seg + 1 = size
    · rw [if_pos hsz]
      refine ⟨[n], ⟨by omega, rfl⟩, by simp; omega, ?_, fun _ _ _ _ _ _ => by simpa using hsz⟩
      rw [hset]
      simp [segsOf]
    · rw [if_neg hsz]
      simp only
      by_cases hc : (seg + 1) * total / size < wl + cost (dfs.getD i 0) ∨ i = n - 1
      · rw [if_pos hc]
        rcases Nat.eq_zero_or_pos m with rfl | hm
        · refine ⟨[i + 1], ⟨by omega, by omega⟩, by simp; omega, ?_, ?_⟩
          · rw [hset]; simp [segsOf, partLoop]
          · intro hnn hle hlast htot hwl hthr
            exfalso
            have hi : i = n - 1 := by omega
            have hn : n = (n - 1) + 1 := by omega
            rw [hn, List.range_succ, List.map_append, List.sum_append] at htot
            simp only [List.map_cons, List.map_nil, List.sum_cons, List.sum_nil, add_zero] at htot
            rw [← hi, ← hwl] at htot
            rw [← hi] at hlast
            have hsz' : ((seg : ℚ) + 1) + 1 ≤ size := by
              have : seg + 1 + 1 ≤ size := by omega
              exact_mod_cast this
            have havg : 0 ≤ total / size := le_trans (hnn i (by omega)) (hle i (by omega))
            have hszpos : (0 : ℚ) < size := by
              have : 0 < size := by omega
              exact_mod_cast this
            have e : total = size * (total / size) := by field_simp
            have : (size : ℚ) * (total / size) ≥ ((seg : ℚ) + 1 + 1) * (total / size) :=
              mul_le_mul_of_nonneg_right hsz' havg
            linarith
        · obtain ⟨ends, h1, h2, h3, h4⟩ := ih (i + 1) (seg + 1) (i + 1)
            (wl + cost (dfs.getD i 0)) (segs.set seg (some (start, i + 1))) hm (by omega) le_rfl
            (by omega) (by simpa using hlen)
          refine ⟨(i + 1) :: ends, h1.cons (by omega), by simp; omega, ?_, ?_⟩
          · have htk : (segs.set seg (some (start, i + 1))).take (seg + 1) =
                segs.take seg ++ [some (start, i + 1)] := by
              rw [hset, List.take_append, List.length_take, min_eq_left (by omega),
                List.take_of_length_le (by simp)]
              simp
            have hdr : (segs.set seg (some (start, i + 1))).drop (seg + 1 + ends.length) =
                segs.drop (seg + ((i + 1) :: ends).length) := by
              rw [List.drop_set_of_lt (by omega)]
              congr 1
              simp only [List.length_cons]; omega
            rw [h3, htk, hdr]
            simp [segsOf]
          · intro hnn hle hlast htot hwl hthr
            have := h4 hnn hle hlast htot ?_ ?_
            · simp only [List.length_cons]; omega
            · rw [List.range_succ, List.map_append, List.sum_append, ← hwl]; simp
            · have := hle i (by omega)
              push_cast
              linarith
      · rw [if_neg hc]
        push Not at hc
        obtain ⟨ends, h1, h2, h3, h4⟩ := ih (i + 1) seg start (wl + cost (dfs.getD i 0)) segs
          (by omega) (by omega) (by omega) hseg hlen
        refine ⟨ends, h1, h2, h3, ?_⟩
        intro hnn hle hlast htot hwl hthr
        refine h4 hnn hle hlast htot ?_ ?_
        · rw [List.range_succ, List.map_append, List.sum_append, ← hwl]; simp
        · have := hc.1
          rw [mul_div_assoc] at this
          exact this

end Boxtree.Dist
