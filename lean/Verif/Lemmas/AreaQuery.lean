import Verif.Spec.AreaQuery
import Verif.Lemmas.Walk
import Verif.Lemmas.Grid
import Verif.Lemmas.Locate
import Verif.Lemmas.Traversal
import Mathlib.Algebra.Order.Floor.Ring

set_option linter.unusedSimpArgs false
set_option linter.unusedVariables false

namespace Boxtree
open BoxTree Area

variable {t : BoxTree}

theorem hasChildFlag_iff (t : BoxTree) (b : Nat) :
    hasChildFlag t b = true ↔ t.hasSourceChild b = true ∨ t.hasTargetChild b = true := by
  unfold hasChildFlag
  rw [hasFlag_or, Bool.or_eq_true]; rfl

theorem hasChildFlag_of (hf : t.ChildFlagsOK) {b : Nat} (hb : b < t.nboxes) :
    hasChildFlag t b = true ↔ ¬ t.IsLeaf b := by
  rw [hasChildFlag_iff]; exact hf b hb

/-- proper ancestors are not leaves -/
theorem BoxTree.WF.not_leaf_anc (hw : t.WF) {b l : Nat} (hb : b < t.nboxes) (hl : l < t.level b) :
    ¬ t.IsLeaf (t.ancAt b l) := by
  intro hleaf
  have h1 := hw.ancAt_lt hb (l + 1)
  have h2 := hw.ancAt_ne_zero hb (show l + 1 ≤ t.level b from hl) (by omega)
  obtain ⟨m, hm, hc⟩ := hw.parent_child _ h1 h2
  rw [ancAt_parent t hl] at hc
  exact h2 (by rw [← hc]; exact hleaf m hm)

theorem BoxTree.WF.width_le_iff (hw : t.WF) (a b : Nat) :
    t.width a ≤ t.width b ↔ t.level b ≤ t.level a := by
  unfold width
  constructor
  · intro h
    by_contra hlt
    push Not at hlt
    have h1 := hw.rad_anti (show t.level a + 1 ≤ t.level b by omega)
    have h2 := rad_succ t (t.level a)
    have h3 := hw.rad_pos (t.level a + 1)
    linarith
  · intro h
    have := hw.rad_anti h
    linarith

/-! ### peers -/

theorem foldl_must (l : List Nat) (f : Nat → Nat) (g : Nat → Bool) (a : Bool) :
    l.foldl (fun must m => if must then (if f m = 0 then must else must && !g m) else must) a = true ↔
      a = true ∧ ∀ m ∈ l, f m ≠ 0 → g m = false := by
  induction l generalizing a with
  | nil => simp
  | cons x l ih =>
    rw [List.foldl_cons, ih]
    cases a
    · simp
    · by_cases hx : f x = 0 <;> simp [hx]

theorem mustBePeer_iff (hw : t.WF) {b c : Nat} (hc : c < t.nboxes) (k : Nat)
    (hk : t.level c = k + 1) :
    mustBePeer t b k c = true ↔ ∀ m, m < t.nch → t.child m c ≠ 0 → ¬ t.nws 1 b (t.child m c) := by
  unfold mustBePeer
  simp only []
  rw [foldl_must (List.range t.nch) (fun m => t.child m c)
    (fun m => t.adjOver (t.center b) (t.level b) (t.center (t.child m c)) (k + 2)) true]
  simp only [List.mem_range, true_and]
  refine forall_congr' fun m => forall_congr' fun hm => forall_congr' fun hne => ?_
  rw [← adjOver_iff, hw.level_child hm hc hne, hk, Bool.not_eq_true]

theorem peerVisit_own {b k c e : Nat} (h : e ∈ (peerVisit t b k c).1) : c = e := by
  unfold peerVisit at h
  repeat' split at h
  all_goals simp at h
  all_goals exact h.symm

theorem peerVisit_push (hw : t.WF) (hf : t.ChildFlagsOK) {b c k : Nat} (hc : c < t.nboxes)
    (hk : t.level c = k + 1) :
    (peerVisit t b k c).2 = true ↔
      t.nws 1 b c ∧ t.level c ≠ t.level b ∧
        ∃ m, m < t.nch ∧ t.child m c ≠ 0 ∧ t.nws 1 b (t.child m c) := by
  unfold peerVisit
  beta_reduce
  have hadj := adjOver_iff t b c
  rw [hk] at hadj
  have hmust := mustBePeer_iff hw (b := b) hc k hk
  have hfl := hasChildFlag_of hf hc
  by_cases h1 : t.nws 1 b c
  · rw [hadj.2 h1, if_pos rfl]
    by_cases h2 : k + 1 = t.level b
    · rw [if_pos h2]; simp [hk, h2]
    · rw [if_neg h2]
      by_cases h3 : hasChildFlag t c = true
      · rw [h3]
        by_cases h4 : mustBePeer t b k c = true
        · rw [h4]
          have := hmust.1 h4
          simp only [Bool.not_true, Bool.false_eq_true, if_false, if_true, false_iff]
          rintro ⟨_, _, m, hm, hne, hn⟩
          exact this m hm hne hn
        · have h4' : mustBePeer t b k c = false := by simpa using h4
          rw [h4']
          simp only [Bool.not_true, Bool.false_eq_true, if_false, true_iff]
          refine ⟨h1, by omega, ?_⟩
          by_contra hcon
          apply h4
          rw [hmust]
          intro m hm hne hn
          exact hcon ⟨m, hm, hne, hn⟩
      · have h3' : hasChildFlag t c = false := by simpa using h3
        rw [h3']
        simp only [Bool.not_false, if_true, Bool.false_eq_true, false_iff]
        rintro ⟨_, _, m, hm, hne, hn⟩
        have : t.IsLeaf c := by
          by_contra hl; exact h3 (hfl.2 hl)
        exact hne (this m hm)
  · have : t.adjOver (t.center b) (t.level b) (t.center c) (k + 1) = false := by
      rw [Bool.eq_false_iff]; exact fun h => h1 (hadj.1 h)
    rw [this]
    simp [h1]

open Classical in
theorem peerVisit_count (hw : t.WF) (hf : t.ChildFlagsOK) {b c k : Nat} (hc : c < t.nboxes)
    (hk : t.level c = k + 1) :
    (peerVisit t b k c).1.count c =
      if t.nws 1 b c ∧ (t.level c = t.level b ∨
        ∀ m, m < t.nch → t.child m c ≠ 0 → ¬ t.nws 1 b (t.child m c)) then 1 else 0 := by
  have hp := peerVisit_push hw hf (b := b) hc hk
  have hadj := adjOver_iff t b c
  rw [hk] at hadj
  by_cases h1 : t.nws 1 b c
  · have h2 : (peerVisit t b k c).1 = if (peerVisit t b k c).2 = true then [] else [c] := by
      unfold peerVisit
      beta_reduce
      rw [hadj.2 h1]
      split_ifs <;> simp_all
    rw [h2]
    by_cases h3 : (peerVisit t b k c).2 = true
    · rw [if_pos h3, if_neg]
      · simp
      · rintro ⟨_, h4⟩
        obtain ⟨_, hne, m, hm, hm0, hn⟩ := hp.1 h3
        rcases h4 with h4 | h4
        · exact hne h4
        · exact h4 m hm hm0 hn
    · rw [if_neg h3, if_pos]
      · simp
      · refine ⟨h1, ?_⟩
        by_contra hcon
        push Not at hcon
        obtain ⟨hne, m, hm, hm0, hn⟩ := hcon
        exact h3 (hp.2 ⟨h1, hne, m, hm, hm0, hn⟩)
  · have : t.adjOver (t.center b) (t.level b) (t.center c) (k + 1) = false := by
      rw [Bool.eq_false_iff]; exact fun h => h1 (hadj.1 h)
    unfold peerVisit
    beta_reduce
    rw [this]
    simp [h1]

/-- `IsPeer` in terms of the code's adjacency test and levels. -/
theorem BoxTree.WF.isPeer_iff (hw : t.WF) {b q : Nat} (hb : b < t.nboxes) :
    t.IsPeer b q ↔ q < t.nboxes ∧ t.nws 1 b q ∧ t.level q ≤ t.level b ∧
      (t.level q = t.level b ∨ ∀ m, m < t.nch → t.child m q ≠ 0 → ¬ t.nws 1 b (t.child m q)) := by
  unfold IsPeer AdjacentNotSmaller
  constructor
  · rintro ⟨hq, ⟨h1, h2⟩, h3⟩
    refine ⟨hq, (hw.nws_one_iff hb hq).2 h1, (hw.width_le_iff _ _).1 h2, ?_⟩
    by_cases hl : t.level q = t.level b
    · exact Or.inl hl
    · right
      intro m hm hne hn
      apply h3 m hm hne
      refine ⟨(hw.nws_one_iff hb (hw.child_lt m hm q hq)).1 hn, ?_⟩
      rw [hw.width_le_iff, hw.level_child hm hq hne]
      have := (hw.width_le_iff _ _).1 h2
      omega
  · rintro ⟨hq, h1, h2, h3⟩
    refine ⟨hq, ⟨(hw.nws_one_iff hb hq).1 h1, (hw.width_le_iff _ _).2 h2⟩, ?_⟩
    rintro m hm hne ⟨h4, h5⟩
    rcases h3 with h3 | h3
    · rw [hw.width_le_iff, hw.level_child hm hq hne] at h5; omega
    · exact h3 m hm hne ((hw.nws_one_iff hb (hw.child_lt m hm q hq)).2 h4)

theorem BoxTree.WF.root_not_peer (hw : t.WF) {b : Nat} (hb : b < t.nboxes) (h0 : b ≠ 0) :
    ¬ t.IsPeer b 0 := by
  rw [hw.isPeer_iff hb]
  rintro ⟨_, _, _, h⟩
  have hlb := hw.level_pos hb h0
  rcases h with h | h
  · rw [hw.level_root] at h; omega
  · have h1 := hw.ancAt_lt hb 1
    have h2 := hw.ancAt_ne_zero hb (show 1 ≤ t.level b from hlb) (by omega)
    obtain ⟨m, hm, hc⟩ := hw.parent_child _ h1 h2
    have h3 : t.parent (t.ancAt b 1) = 0 := by
      rw [ancAt_parent t hlb, hw.ancAt_zero hb]
    rw [h3] at hc
    apply h m hm (by rw [hc]; exact h2)
    rw [hc]
    exact nws_one_symm t (hw.nws_anc hb)

open Classical in
theorem count_peers (hw : t.WF) (hf : t.ChildFlagsOK) {b s : Nat} (hb : b < t.nboxes)
    (hs : s < t.nboxes) :
    (peerKernel t b).count s = if t.IsPeer b s then 1 else 0 := by
  unfold peerKernel
  by_cases h0 : b = 0
  · subst h0
    rw [if_pos rfl]
    have : t.IsPeer 0 s ↔ s = 0 := by
      rw [hw.isPeer_iff hb]
      constructor
      · rintro ⟨_, _, h, _⟩
        rw [hw.level_root] at h
        exact hw.eq_zero_of_level hs (by omega)
      · rintro rfl
        exact ⟨hb, hw.nws_self le_rfl, le_rfl, Or.inl rfl⟩
    by_cases hs0 : s = 0
    · rw [if_pos (this.2 hs0), hs0]; simp
    · rw [if_neg (fun h => hs0 (this.1 h)), List.count_eq_zero]; simpa using hs0
  rw [if_neg h0]
  have hlb := hw.level_pos hb h0
  have hcw := count_walk (peerVisit t b) hw s s hs (fun k c _ h => peerVisit_own h) 0 hw.nboxes_pos
  rw [hw.level_root] at hcw
  have hreach : Reached t (peerVisit t b) 0 0 s → t.level s ≤ t.level b := by
    rintro ⟨h1, _, h3⟩
    by_contra hlt
    push Not at hlt
    rw [hw.level_root] at h1 h3
    have h4 := h3 (t.level b) hlb hlt
    have hla := hw.level_ancAt hs hlt.le
    rw [peerVisit_push hw hf (hw.ancAt_lt hs _) (by rw [hla]; omega)] at h4
    exact h4.2.1 hla
  by_cases hp : t.IsPeer b s
  · rw [if_pos hp]
    have hs0 : s ≠ 0 := by rintro rfl; exact hw.root_not_peer hb h0 hp
    have hls := hw.level_pos hs hs0
    rw [hw.isPeer_iff hb] at hp
    obtain ⟨_, hn, hl, hch⟩ := hp
    rw [hcw.1]
    · rw [peerVisit_count hw hf hs (by omega), if_pos ⟨hn, hch⟩]
    · refine ⟨by rw [hw.level_root]; omega, by rw [hw.level_root, hw.ancAt_zero hs], ?_⟩
      intro l hl1 hl2
      rw [hw.level_root] at *
      have hla := hw.level_ancAt hs hl2.le
      rw [peerVisit_push hw hf (hw.ancAt_lt hs _) (by rw [hla]; omega), hla]
      refine ⟨hw.nws_ancAt_right hs hn, by omega, ?_⟩
      have h1 := hw.ancAt_lt hs (l + 1)
      have h2 := hw.ancAt_ne_zero hs (show l + 1 ≤ t.level s from hl2) (by omega)
      obtain ⟨m, hm, hc⟩ := hw.parent_child _ h1 h2
      rw [ancAt_parent t hl2] at hc
      exact ⟨m, hm, by rw [hc]; exact h2, by rw [hc]; exact hw.nws_ancAt_right hs hn⟩
  · rw [if_neg hp]
    by_cases hr : Reached t (peerVisit t b) 0 0 s
    · have hl := hreach hr
      obtain ⟨hr1, -⟩ := id hr
      rw [hw.level_root] at hr1
      rw [hcw.1 hr, peerVisit_count hw hf hs (by omega), if_neg]
      rintro ⟨h1, h2⟩
      exact hp ((hw.isPeer_iff hb).2 ⟨hs, h1, hl, h2⟩)
    · exact hcw.2 hr

theorem peers_lt (hw : t.WF) {b s : Nat} (hb : b < t.nboxes) (h : s ∈ peerKernel t b) :
    s < t.nboxes := by
  unfold peerKernel at h
  split at h
  · simp at h; omega
  · obtain ⟨k, c, hc, _, he⟩ := mem_walk _ hw s hw.nboxes_pos h
    have := peerVisit_own he
    omega

theorem mem_peers (hw : t.WF) (hf : t.ChildFlagsOK) {b s : Nat} (hb : b < t.nboxes) :
    s ∈ peerKernel t b ↔ t.IsPeer b s := by
  constructor
  · intro h
    have hs := peers_lt hw hb h
    by_contra hp
    have := count_peers hw hf hb hs
    rw [if_neg hp, List.count_eq_zero] at this
    exact this h
  · intro h
    rw [← List.count_pos_iff, count_peers hw hf hb h.1, if_pos h]; omega

theorem peers_nodup (hw : t.WF) (hf : t.ChildFlagsOK) {b : Nat} (hb : b < t.nboxes) :
    (peerKernel t b).Nodup := by
  rw [List.nodup_iff_count_le_one]
  intro a
  by_cases ha : a ∈ peerKernel t b
  · rw [count_peers hw hf hb (peers_lt hw hb ha)]
    split <;> omega
  · rw [List.count_eq_zero.2 ha]; omega

/-! ### guiding box -/

theorem testBit_and_one_shift (n k j : Nat) :
    ((n &&& 1) <<< k).testBit j = (decide (j = k) && decide (n % 2 = 1)) := by
  rw [Nat.testBit_shiftLeft]
  by_cases h : k ≤ j
  · by_cases h2 : j = k
    · subst h2
      simp [Nat.testBit_and, Nat.testBit_zero]
    · have : j - k ≠ 0 := by omega
      have h3 : (n % 2).testBit (j - k) = false := by
        apply Nat.testBit_lt_two_pow
        calc n % 2 < 2 := Nat.mod_lt _ (by omega)
          _ = 2 ^ 1 := rfl
          _ ≤ 2 ^ (j - k) := Nat.pow_le_pow_right (by omega) (by omega)
      simp [h, h2, h3]
  · have : j ≠ k := by omega
    simp [h, this]

theorem testBit_morton_fold (d : Nat) (bits : Nat → Nat) (n j : Nat) :
    ((List.range n).foldl (fun acc i => acc ||| ((bits i &&& 1) <<< (d - 1 - i))) 0).testBit j = true ↔
      ∃ i, i < n ∧ j = d - 1 - i ∧ bits i % 2 = 1 := by
  induction n with
  | zero => simp
  | succ n ih =>
    rw [List.range_succ, List.foldl_append, List.foldl_cons, List.foldl_nil, Nat.testBit_or,
      Bool.or_eq_true, ih, testBit_and_one_shift, Bool.and_eq_true, decide_eq_true_eq,
      decide_eq_true_eq]
    constructor
    · rintro (⟨i, h1, h2⟩ | ⟨h1, h2⟩)
      · exact ⟨i, by omega, h2⟩
      · exact ⟨n, by omega, h1, h2⟩
    · rintro ⟨i, h1, h2, h3⟩
      by_cases hn : i = n
      · subst hn; exact Or.inr ⟨h2, h3⟩
      · exact Or.inl ⟨i, by omega, h2, h3⟩

theorem queryMorton_lt (t : BoxTree) (bmin x : Nat → ℚ) (l : Nat) :
    queryMorton t bmin x l < t.nch := by
  unfold nch
  apply Nat.lt_pow_two_of_testBit
  intro j hj
  rw [Bool.eq_false_iff]
  intro h
  unfold queryMorton at h
  rw [testBit_morton_fold] at h
  obtain ⟨i, h1, h2, _⟩ := h
  omega

theorem mortonSign_queryMorton (t : BoxTree) (bmin x : Nat → ℚ) (l : Nat) {i : Nat}
    (hi : i < t.dims) :
    mortonSign t.dims (queryMorton t bmin x l) i =
      if ⌊(x i - bmin i) / t.rootExtent * 2 ^ (1 + l)⌋.toNat % 2 = 1 then 1 else -1 := by
  unfold mortonSign
  have key : queryMorton t bmin x l / 2 ^ (t.dims - 1 - i) % 2 = 1 ↔
      ⌊(x i - bmin i) / t.rootExtent * 2 ^ (1 + l)⌋.toNat % 2 = 1 := by
    rw [← decide_eq_true_iff (p := queryMorton t bmin x l / 2 ^ (t.dims - 1 - i) % 2 = 1),
      ← Nat.testBit_eq_decide_div_mod_eq]
    unfold queryMorton
    rw [testBit_morton_fold]
    constructor
    · rintro ⟨j, h1, h2, h3⟩
      have : j = i := by omega
      subst this; exact h3
    · intro h; exact ⟨i, hi, rfl, h⟩
  by_cases h : ⌊(x i - bmin i) / t.rootExtent * 2 ^ (1 + l)⌋.toNat % 2 = 1
  · rw [if_pos (key.2 h), if_pos h]
  · rw [if_neg (fun h' => h (key.1 h')), if_neg h]

theorem BoxTree.WF.queryBit (hw : t.WF) {b : Nat} {x : Nat → ℚ} (hb : b < t.nboxes)
    (hx : t.InCell b x) {i : Nat} (hi : i < t.dims) :
    ⌊(x i - t.lo 0 i) / t.rootExtent * 2 ^ (1 + t.level b)⌋.toNat % 2 = 1 ↔ t.center b i ≤ x i := by
  obtain ⟨k, hk⟩ := hw.grid hb i hi
  obtain ⟨h1, h2⟩ := hx i hi
  have hr := hw.rad_pos (t.level b)
  have he := hw.ext_pos
  have hrad : t.rootExtent = t.rad (t.level b) * 2 ^ (1 + t.level b) := by
    unfold rad; rw [add_comm 1]; field_simp
  have hscale : (x i - t.lo 0 i) / t.rootExtent * 2 ^ (1 + t.level b)
      = (x i - t.lo 0 i) / t.rad (t.level b) := by
    rw [hrad]; field_simp
  rw [hscale]
  set u := (x i - t.lo 0 i) / t.rad (t.level b) with hu
  have hux : x i = t.lo 0 i + u * t.rad (t.level b) := by rw [hu]; field_simp; ring
  have hlo : (2 * k : ℚ) ≤ u := by
    rw [hk, hux] at h1
    by_contra hc
    push Not at hc
    have := mul_lt_mul_of_pos_right hc hr
    linarith
  have hhi : u < 2 * k + 2 := by
    rw [hk, hux] at h2
    by_contra hc
    push Not at hc
    have := mul_le_mul_of_nonneg_right hc hr.le
    linarith
  have hiff : t.center b i ≤ x i ↔ (2 * k + 1 : ℚ) ≤ u := by
    rw [hk, hux]
    constructor
    · intro h
      by_contra hc
      push Not at hc
      have := mul_lt_mul_of_pos_right hc hr
      linarith
    · intro h
      have := mul_le_mul_of_nonneg_right h hr.le
      linarith
  -- cells start at or to the right of the lower corner of the root
  have hk0 : 0 ≤ k := by
    have h0 := (hw.inCell_iter hb hx (t.level b)).1
    have hz : t.parent^[t.level b] b = 0 := by
      have := hw.ancAt_zero hb; unfold ancAt at this; simpa using this
    rw [hz] at h0
    have h3 := (h0 i hi).1
    have h4 : 0 ≤ u := by
      rw [hu]; apply div_nonneg _ hr.le
      unfold lo; linarith
    have h5 : (-1 : ℚ) < k := by linarith
    have : (-1 : ℤ) < k := by exact_mod_cast h5
    omega
  rw [hiff]
  have hf1 : 2 * k ≤ ⌊u⌋ := by rw [Int.le_floor]; push_cast; exact hlo
  have hf2 : ⌊u⌋ < 2 * k + 2 := by rw [Int.floor_lt]; push_cast; exact hhi
  have hf3 : (2 * k + 1 : ℚ) ≤ u ↔ 2 * k + 1 ≤ ⌊u⌋ := by
    rw [Int.le_floor]; push_cast; rfl
  rw [hf3]
  omega

theorem BoxTree.WF.inCell_query_child (hw : t.WF) {b : Nat} {x : Nat → ℚ} (hb : b < t.nboxes)
    {bmin : Nat → ℚ} (hbm : ∀ i, i < t.dims → bmin i = t.lo 0 i)
    (hx : t.InCell b x) (hne : t.child (queryMorton t bmin x (t.level b)) b ≠ 0) :
    t.InCell (t.child (queryMorton t bmin x (t.level b)) b) x := by
  rw [hw.inCell_child_iff hb (queryMorton_lt t bmin x _) hne hx]
  intro i hi
  rw [mortonSign_queryMorton t bmin x _ hi, hbm i hi]
  have := hw.queryBit hb hx hi
  by_cases h : t.center b i ≤ x i
  · rw [if_pos (this.2 h), if_pos h]
  · rw [if_neg (fun h' => h (this.1 h')), if_neg h]

theorem guidingLoop_spec (hw : t.WF) {bmin x : Nat → ℚ}
    (hbm : ∀ i, i < t.dims → bmin i = t.lo 0 i) (qr : ℚ) :
    ∀ (fuel b : Nat), b < t.nboxes → t.nlevels + 1 ≤ t.level b + fuel → t.InCell b x →
      qr ≤ t.rad (t.level b) →
      ∃ g, guidingLoop t bmin x qr fuel (t.level b) b = some g ∧ g < t.nboxes ∧ t.InCell g x ∧
        qr ≤ t.rad (t.level g) := by
  intro fuel
  induction fuel with
  | zero => intro b hb hl; have := hw.level_lt b hb; omega
  | succ fuel ih =>
    intro b hb hl hx hq
    unfold guidingLoop guidingLoopBy
    split
    · exact ⟨b, rfl, hb, hx, hq⟩
    · rename_i hcond
      simp only []
      split
      · rename_i hne
        have hm := queryMorton_lt t bmin x (t.level b)
        have hlc := hw.level_child hm hb hne
        have hlt := hw.child_lt _ hm b hb
        have hin := hw.inCell_query_child hb hbm hx hne
        rw [← hlc]
        have hq' : qr ≤ t.rad (t.level b) / 2 := by
          by_contra hc
          push Not at hc
          apply hcond
          simp [hc, hq]
        obtain ⟨g, hg⟩ := ih _ hlt (by omega) hin (by
          rw [hlc]; have := rad_succ t (t.level b); linarith)
        exact ⟨g, hg⟩
      · exact ⟨b, rfl, hb, hx, hq⟩

theorem foldl_max_ge {ι : Type} (f : ι → ℚ) (l : List ι) (a : ℚ) :
    a ≤ l.foldl (fun acc i => max acc (f i)) a ∧
      ∀ i ∈ l, f i ≤ l.foldl (fun acc i => max acc (f i)) a :=
  (foldl_max_le f l a _).1 le_rfl

theorem foldl_foldl_max_ge (f : Nat → Nat → ℚ) (l l' : List Nat) (a : ℚ) :
    a ≤ l.foldl (fun acc m => l'.foldl (fun acc i => max acc (f m i)) acc) a ∧
      ∀ m ∈ l, ∀ i ∈ l', f m i ≤ l.foldl (fun acc m => l'.foldl (fun acc i => max acc (f m i)) acc) a := by
  induction l generalizing a with
  | nil => simp
  | cons x l ih =>
    rw [List.foldl_cons]
    obtain ⟨h1, h2⟩ := ih (l'.foldl (fun acc i => max acc (f x i)) a)
    obtain ⟨h3, h4⟩ := foldl_max_ge (f x) l' a
    refine ⟨h3.trans h1, ?_⟩
    intro m hm i hi
    rcases List.mem_cons.1 hm with rfl | hm
    · exact (h4 i hi).trans h1
    · exact h2 m hm i hi

theorem queryRadius_ge (t : BoxTree) (bmin : Nat → ℚ) (ball : Ball) :
    0 ≤ queryRadius t bmin ball ∧ ∀ mnr, mnr < t.nch → ∀ i, i < t.dims →
      |clamp t bmin (fun j => ball.center j + cornerOffset t mnr ball.radius j) i
        - clamp t bmin ball.center i| ≤ queryRadius t bmin ball := by
  obtain ⟨h1, h2⟩ := foldl_foldl_max_ge (fun mnr i =>
    |clamp t bmin (fun j => ball.center j + cornerOffset t mnr ball.radius j) i
        - clamp t bmin ball.center i|) (List.range t.nch) (List.range t.dims) 0
  exact ⟨h1, fun m hm i hi => h2 m (List.mem_range.2 hm) i (List.mem_range.2 hi)⟩

theorem clamp_mono (t : BoxTree) (bmin : Nat → ℚ) {x y : Nat → ℚ} {i : Nat} (h : x i ≤ y i) :
    clamp t bmin x i ≤ clamp t bmin y i := by
  unfold clamp
  exact min_le_min_left _ (max_le_max_left _ h)

theorem cornerOffset_lo (t : BoxTree) (r : ℚ) (i : Nat) : cornerOffset t 0 r i = -r := by
  simp [cornerOffset]

theorem cornerOffset_hi (t : BoxTree) (r : ℚ) {i : Nat} (hi : i < t.dims) :
    cornerOffset t (2 ^ t.dims - 1) r i = r := by
  unfold cornerOffset
  rw [if_pos]
  intro h
  have := congrArg (fun n => n.testBit (t.dims - 1 - i)) h
  simp [Nat.testBit_and, Nat.testBit_two_pow_self, Nat.testBit_two_pow_sub_one] at this
  omega

/-- The clamped image of every point of the ball is within the query radius of the query
center. -/
theorem clamp_ball (t : BoxTree) (bmin : Nat → ℚ) (ball : Ball) {y : Nat → ℚ} {i : Nat}
    (hi : i < t.dims) (hy : |y i - ball.center i| ≤ ball.radius) :
    |clamp t bmin y i - clamp t bmin ball.center i| ≤ queryRadius t bmin ball := by
  have h0 : (0:Nat) < t.nch := nch_pos t
  have h1 := (queryRadius_ge t bmin ball).2 0 h0 i hi
  have h2 := (queryRadius_ge t bmin ball).2 (2 ^ t.dims - 1) (by unfold nch at *; omega) i hi
  rw [abs_le] at *
  have h3 := clamp_mono t bmin (x := fun j => ball.center j + cornerOffset t 0 ball.radius j)
    (y := y) (i := i) (by simp only [cornerOffset_lo]; linarith)
  have h4 := clamp_mono t bmin (x := y) 
    (y := fun j => ball.center j + cornerOffset t (2 ^ t.dims - 1) ball.radius j) (i := i)
    (by simp only [cornerOffset_hi t _ hi]; linarith)
  constructor <;> linarith

theorem BoxTree.WF.clamp_inCell (hw : t.WF) {bmin : Nat → ℚ}
    (hbm : ∀ i, i < t.dims → bmin i = t.lo 0 i) (x : Nat → ℚ) : t.InCell 0 (clamp t bmin x) := by
  intro i hi
  have he := hw.ext_pos
  have hlt : bboxMax t bmin i < t.center 0 i + t.rad (t.level 0) := by
    unfold bboxMax stretchFactor
    rw [hbm i hi, hw.level_root]
    unfold lo
    rw [hw.level_root]
    have : t.rootExtent = 2 * t.rad 0 := by unfold rad; ring
    have h2 : t.rootExtent / (1 + 1 / 10000) < t.rootExtent := by
      rw [div_lt_iff₀ (by norm_num)]; linarith
    linarith
  have hge : bmin i ≤ bboxMax t bmin i := by
    unfold bboxMax stretchFactor
    have : 0 ≤ t.rootExtent / (1 + 1 / 10000) := by positivity
    linarith
  unfold clamp
  constructor
  · have : t.center 0 i - t.rad (t.level 0) = bmin i := by rw [hbm i hi]; rfl
    rw [this]
    exact le_min hge (le_max_left _ _)
  · exact lt_of_le_of_lt (min_le_left _ _) hlt

theorem guidingBox_spec (hw : t.WF) {bmin : Nat → ℚ}
    (hbm : ∀ i, i < t.dims → bmin i = t.lo 0 i) (ball : Ball) :
    guidingBox t bmin ball < t.nboxes ∧
    t.InCell (guidingBox t bmin ball) (clamp t bmin ball.center) ∧
    (guidingBox t bmin ball = 0 ∨
      queryRadius t bmin ball ≤ t.rad (t.level (guidingBox t bmin ball))) := by
  unfold guidingBox
  simp only []
  split
  · rename_i h
    have h0 := hw.nboxes_pos
    have hr := hw.rad_pos 0
    obtain ⟨g, hg, h1, h2, h3⟩ := guidingLoop_spec hw hbm (queryRadius t bmin ball) (t.nlevels + 1) 0
      h0 (by omega) (hw.clamp_inCell hbm ball.center) (by rw [hw.level_root]; linarith)
    rw [hw.level_root] at hg
    rw [hg]
    exact ⟨h1, h2, Or.inr h3⟩
  · exact ⟨hw.nboxes_pos, hw.clamp_inCell hbm _, Or.inl rfl⟩

/-! ### area query -/

theorem ballOverlaps_iff (hw : t.WF) {ball : Ball} (hr : 0 ≤ ball.radius) (b : Nat) :
    ballOverlaps t ball b = true ↔ t.MeetsBall b ball.center ball.radius := by
  unfold ballOverlaps MeetsBall lo hi
  simp only [decide_eq_true_eq]
  rw [linf_le_iff]
  have hb := hw.rad_pos (t.level b)
  constructor
  · rintro ⟨_, h⟩
    refine ⟨fun i => min (t.center b i + t.rad (t.level b)) (max (t.center b i - t.rad (t.level b))
      (ball.center i)), fun i hi => ?_⟩
    have := h i hi
    rw [abs_le] at this
    simp only []
    refine ⟨⟨le_min (by linarith) (le_max_left _ _), min_le_left _ _⟩, ?_⟩
    rw [abs_le]
    constructor
    · have : ball.center i - ball.radius ≤ min (t.center b i + t.rad (t.level b))
          (max (t.center b i - t.rad (t.level b)) (ball.center i)) :=
        le_min (by linarith) ((by linarith : ball.center i - ball.radius ≤ ball.center i).trans
          (le_max_right _ _))
      linarith
    · have : min (t.center b i + t.rad (t.level b))
          (max (t.center b i - t.rad (t.level b)) (ball.center i)) ≤ ball.center i + ball.radius :=
        (min_le_right _ _).trans (max_le (by linarith) (by linarith))
      linarith
  · rintro ⟨y, hy⟩
    refine ⟨by linarith, fun i hi => ?_⟩
    obtain ⟨⟨h1, h2⟩, h3⟩ := hy i hi
    rw [abs_le] at *
    constructor <;> linarith

theorem areaVisit_own {ball : Ball} {ov : Ball → Nat → Bool} {k c e : Nat}
    (h : e ∈ (areaVisit t ball k c ov).1) : c = e := by
  unfold areaVisit at h
  repeat' split at h
  all_goals simp at h
  all_goals exact h.symm

open Classical in
theorem count_areaPeerBy (hw : t.WF) (hf : t.ChildFlagsOK) {ball : Ball} (ov : Ball → Nat → Bool)
    {q b : Nat} (hq : q < t.nboxes) (hb : b < t.nboxes) :
    (areaPeer t ball q ov).count b =
      if t.IsAncOrSelf q b ∧ t.IsLeaf b ∧ ov ball b = true then 1 else 0 := by
  unfold areaPeer
  by_cases hfq : hasChildFlag t q = true
  · have hnl := (hasChildFlag_of hf hq).1 hfq
    rw [hfq]
    simp only [Bool.not_true, Bool.false_eq_true, if_false]
    have hcw := count_walk (fun k c => areaVisit t ball k c ov) hw b b hb
      (fun k c _ h => areaVisit_own h) q hq
    have hemit : ∀ k, (areaVisit t ball k b ov).1.count b =
        if t.IsLeaf b ∧ ov ball b = true then 1 else 0 := by
      intro k
      unfold areaVisit
      by_cases hl : t.IsLeaf b
      · have : hasChildFlag t b = false := by
          rw [Bool.eq_false_iff]; exact fun h => (hasChildFlag_of hf hb).1 h hl
        rw [this]
        by_cases hm : ov ball b = true
        · simp [hl, hm]
        · simp [hl, hm]
      · rw [(hasChildFlag_of hf hb).2 hl]; simp [hl]
    by_cases hc : t.IsAncOrSelf q b ∧ t.IsLeaf b ∧ ov ball b = true
    · rw [if_pos hc]
      obtain ⟨⟨ha1, ha2⟩, hl, hm⟩ := hc
      have hlt : t.level q < t.level b := by
        rcases Nat.lt_or_ge (t.level q) (t.level b) with h | h
        · exact h
        · rw [ancAt_ge t h] at ha2
          subst ha2; exact absurd hl hnl
      rw [hcw.1 ⟨hlt, ha2, ?_⟩, hemit, if_pos ⟨hl, hm⟩]
      intro l h1 h2
      unfold areaVisit
      beta_reduce
      rw [(hasChildFlag_of hf (hw.ancAt_lt hb l)).2 (hw.not_leaf_anc hb h2)]
      simp
    · rw [if_neg hc]
      by_cases hre : Reached t (fun k c => areaVisit t ball k c ov) 0 q b
      · rw [hcw.1 hre, hemit, if_neg]
        obtain ⟨h1, h2, _⟩ := hre
        rintro ⟨h3, h4⟩
        exact hc ⟨⟨h1.le, h2⟩, h3, h4⟩
      · exact hcw.2 hre
  · have hfq' : hasChildFlag t q = false := by simpa using hfq
    have hl : t.IsLeaf q := by
      by_contra h; exact hfq ((hasChildFlag_of hf hq).2 h)
    rw [hfq']
    simp only [Bool.not_false, if_true]
    have hanc : t.IsAncOrSelf q b ↔ q = b := by
      constructor
      · rintro ⟨h1, h2⟩
        rcases Nat.lt_or_ge (t.level q) (t.level b) with h | h
        · have := hw.not_leaf_anc hb h
          rw [h2] at this; exact absurd hl this
        · rw [ancAt_ge t h] at h2; exact h2.symm
      · rintro rfl; exact ⟨le_rfl, ancAt_self t _⟩
    by_cases hqb : q = b
    · subst hqb
      by_cases hm : ov ball q = true
      · rw [if_pos hm, if_pos ⟨hanc.2 rfl, hl, hm⟩]; simp
      · rw [if_neg hm, if_neg (by tauto)]; simp
    · have hno : ¬ (t.IsAncOrSelf q b ∧ t.IsLeaf b ∧ ov ball b = true) :=
        fun h => hqb (hanc.1 h.1)
      rw [if_neg hno, List.count_eq_zero]
      split <;> simp
      exact fun h => hqb h.symm

open Classical in
theorem count_areaPeer (hw : t.WF) (hf : t.ChildFlagsOK) {ball : Ball} (hr : 0 ≤ ball.radius)
    {q b : Nat} (hq : q < t.nboxes) (hb : b < t.nboxes) :
    (areaPeer t ball q).count b =
      if t.IsAncOrSelf q b ∧ t.IsLeaf b ∧ t.MeetsBall b ball.center ball.radius then 1 else 0 := by
  rw [count_areaPeerBy hw hf _ hq hb]
  simp only [ballOverlaps_iff hw hr]

theorem BoxTree.WF.lo_hi_anc (hw : t.WF) {b l i : Nat} (hb : b < t.nboxes) (hd : i < t.dims) :
    t.lo (t.ancAt b l) i ≤ t.lo b i ∧ t.hi b i ≤ t.hi (t.ancAt b l) i := by
  have key : ∀ n, t.lo (t.parent^[n] b) i ≤ t.lo b i ∧ t.hi b i ≤ t.hi (t.parent^[n] b) i := by
    intro n
    induction n with
    | zero => exact ⟨le_rfl, le_rfl⟩
    | succ n ih =>
      rw [Function.iterate_succ_apply']
      have hlt := (hw.iter_parent hb n).1
      set c := t.parent^[n] b
      by_cases h0 : c = 0
      · rw [h0, hw.parent_root]; rw [h0] at ih; exact ih
      have h1 := ((linf_le_iff t _ _ _).1 (hw.linf_parent hlt)).2 i hd
      have h2 := hw.level_parent c hlt h0
      have h3 := rad_succ t (t.level (t.parent c))
      rw [← h2] at h3
      unfold lo hi at *
      rw [abs_le] at h1
      constructor <;> linarith [ih.1, ih.2]
  exact key _

theorem peer_unique (hw : t.WF) {g b q q' : Nat} (hg : g < t.nboxes) (hb : b < t.nboxes)
    (hp : t.IsPeer g q) (hp' : t.IsPeer g q') (ha : t.IsAncOrSelf q b) (ha' : t.IsAncOrSelf q' b) :
    q = q' := by
  have key : ∀ q q', t.IsPeer g q → t.IsPeer g q' → t.IsAncOrSelf q b → t.IsAncOrSelf q' b →
      ¬ t.level q < t.level q' := by
    intro q q' hp hp' ha ha' hlt
    rw [hw.isPeer_iff hg] at hp hp'
    obtain ⟨hq, hn, hl, hc⟩ := hp
    obtain ⟨hq', hn', hl', -⟩ := hp'
    have hanc : t.ancAt q' (t.level q) = q := by
      rw [← ha'.2, hw.ancAt_ancAt hb hlt.le ha'.1, ha.2]
    rcases hc with hc | hc
    · omega
    · have h1 := hw.ancAt_lt hq' (t.level q + 1)
      have h2 := hw.ancAt_ne_zero hq' (show t.level q + 1 ≤ t.level q' from hlt) (by omega)
      obtain ⟨m, hm, hcm⟩ := hw.parent_child _ h1 h2
      rw [ancAt_parent t hlt, hanc] at hcm
      apply hc m hm (by rw [hcm]; exact h2)
      rw [hcm]
      exact hw.nws_ancAt_right hq' hn'
  have h1 := key q q' hp hp' ha ha'
  have h2 := key q' q hp' hp ha' ha
  have hl : t.level q = t.level q' := by omega
  rw [← ha.2, ← ha'.2, hl]

/-- A leaf that meets the ball lies below (or is) a peer of the guiding box. -/
theorem exists_peer (hw : t.WF) (hocc : t.LeavesOccupied) {bmin : Nat → ℚ}
    (hbm : ∀ i, i < t.dims → bmin i = t.lo 0 i) {ball : Ball} {b : Nat}
    (hb : b < t.nboxes) (hl : t.IsLeaf b) (hm : t.MeetsBall b ball.center ball.radius) :
    ∃ q, t.IsPeer (guidingBox t bmin ball) q ∧ t.IsAncOrSelf q b := by
  obtain ⟨hg, hin, hrad⟩ := guidingBox_spec hw hbm ball
  set g := guidingBox t bmin ball
  rcases hrad with h0 | hrad
  · refine ⟨0, ?_, by rw [IsAncOrSelf, hw.level_root]; exact ⟨Nat.zero_le _, hw.ancAt_zero hb⟩⟩
    rw [h0, hw.isPeer_iff hw.nboxes_pos]
    exact ⟨hw.nboxes_pos, hw.nws_self le_rfl, le_rfl, Or.inl rfl⟩
  set l := min (t.level b) (t.level g) with hldef
  have hlb : l ≤ t.level b := min_le_left _ _
  have hlg : l ≤ t.level g := min_le_right _ _
  have hla := hw.level_ancAt hb hlb
  refine ⟨t.ancAt b l, ?_, by rw [IsAncOrSelf, hla]; exact ⟨hlb, rfl⟩⟩
  rw [hw.isPeer_iff hg, hla]
  refine ⟨hw.ancAt_lt hb l, ?_, hlg, ?_⟩
  · -- the clamped common point lies in the leaf and near the guiding box
    obtain ⟨y, hy⟩ := hm
    obtain ⟨x, hx⟩ := hocc b hb hl
    unfold nws
    rw [linf_le_iff]
    have hrg := hw.rad_pos (t.level g)
    have hra := hw.rad_pos l
    rw [hla, min_eq_left (hw.rad_anti hlg)]
    refine ⟨by push_cast; linarith, fun i hi => ?_⟩
    obtain ⟨⟨hy1, hy2⟩, hy3⟩ := hy i hi
    obtain ⟨⟨hx1, hx2⟩, hx3⟩ := hx i hi
    have hcl := clamp_ball t bmin ball hi hy3
    obtain ⟨hc1, hc2⟩ := hin i hi
    obtain ⟨hanc1, hanc2⟩ := hw.lo_hi_anc (l := l) hb hi
    obtain ⟨hz1, hz2⟩ := hw.lo_hi_anc (l := 0) hb hi
    rw [hw.ancAt_zero hb] at hz1 hz2
    -- the clamped point is still in the leaf
    have hin1 : t.lo b i ≤ clamp t bmin y i ∧ clamp t bmin y i ≤ t.hi b i := by
      unfold clamp bboxMax stretchFactor
      rw [hbm i hi]
      have hmx : max (t.lo 0 i) (y i) = y i := max_eq_right (by linarith)
      rw [hmx]
      constructor
      · exact le_min (by linarith) hy1
      · exact (min_le_right _ _).trans hy2
    unfold BoxTree.lo at hanc1 hin1
    unfold BoxTree.hi at hanc2 hin1
    rw [hla] at hanc1 hanc2
    rw [abs_le] at hcl ⊢
    push_cast
    constructor <;> linarith [hin1.1, hin1.2]
  · rcases Nat.lt_or_ge (t.level b) (t.level g) with h | h
    · right
      intro m hm hne
      have : l = t.level b := by omega
      rw [this, ancAt_self] at hne
      exact absurd (hl m hm) hne
    · left; omega

open Classical in
/-- Any guiding box will do if all overlapping leaves are below its peers. -/
theorem count_areaWalkBy (hw : t.WF) (hf : t.ChildFlagsOK) {bmin : Nat → ℚ} {ball : Ball}
    {guide : Ball → Nat} (ov : Ball → Nat → Bool) (hg : guide ball < t.nboxes)
    {peers : BuiltList} (hp : ∀ b, b < t.nboxes → peers.row b = peerKernel t b) {b : Nat}
    (hb : b < t.nboxes) :
    (areaWalk t bmin peers ball guide ov).count b =
      if (∃ q, t.IsPeer (guide ball) q ∧ t.IsAncOrSelf q b) ∧ t.IsLeaf b ∧ ov ball b = true
      then 1 else 0 := by
  unfold areaWalk
  rw [hp _ hg, count_flatMap']
  by_cases hc : (∃ q, t.IsPeer (guide ball) q ∧ t.IsAncOrSelf q b) ∧ t.IsLeaf b ∧ ov ball b = true
  · rw [if_pos hc]
    obtain ⟨⟨q, hq, hqa⟩, hc⟩ := hc
    rw [sum_eq_single (peers_nodup hw hf hg) ((mem_peers hw hf hg).2 hq)]
    · rw [count_areaPeerBy hw hf ov hq.1 hb, if_pos ⟨hqa, hc⟩]
    · intro q' hq' hne
      have hq'p := (mem_peers hw hf hg).1 hq'
      rw [count_areaPeerBy hw hf ov hq'p.1 hb, if_neg]
      rintro ⟨ha, -⟩
      exact hne (peer_unique hw hg hb hq'p hq ha hqa)
  · rw [if_neg hc]
    apply sum_eq_zero'
    intro q' hq'
    rw [count_areaPeerBy hw hf ov (peers_lt hw hg hq') hb, if_neg]
    rintro ⟨ha, h⟩
    exact hc ⟨⟨q', (mem_peers hw hf hg).1 hq', ha⟩, h⟩

open Classical in
theorem count_areaWalk (hw : t.WF) (hf : t.ChildFlagsOK) (hocc : t.LeavesOccupied) {bmin : Nat → ℚ}
    (hbm : ∀ i, i < t.dims → bmin i = t.lo 0 i) {ball : Ball} (hr : 0 ≤ ball.radius)
    {peers : BuiltList} (hp : ∀ b, b < t.nboxes → peers.row b = peerKernel t b) {b : Nat}
    (hb : b < t.nboxes) :
    (areaWalk t bmin peers ball).count b =
      if t.IsLeaf b ∧ t.MeetsBall b ball.center ball.radius then 1 else 0 := by
  rw [count_areaWalkBy hw hf _ (guidingBox_spec hw hbm ball).1 hp hb]
  simp only [ballOverlaps_iff hw hr]
  by_cases h : t.IsLeaf b ∧ t.MeetsBall b ball.center ball.radius
  · rw [if_pos h, if_pos ⟨exists_peer hw hocc hbm hb h.1 h.2, h⟩]
  · rw [if_neg h, if_neg (fun h' => h h'.2)]

theorem areaWalk_ltBy (hw : t.WF) {bmin : Nat → ℚ} {ball : Ball} {guide : Ball → Nat}
    {ov : Ball → Nat → Bool} (hg : guide ball < t.nboxes)
    {peers : BuiltList} (hp : ∀ b, b < t.nboxes → peers.row b = peerKernel t b) {b : Nat}
    (h : b ∈ areaWalk t bmin peers ball guide ov) : b < t.nboxes := by
  unfold areaWalk at h
  rw [hp _ hg, List.mem_flatMap] at h
  obtain ⟨q, hq, hbq⟩ := h
  have hql := peers_lt hw hg hq
  unfold areaPeer at hbq
  split at hbq
  · split at hbq <;> simp at hbq
    omega
  · obtain ⟨k, c, hc, _, he⟩ := mem_walk _ hw b hql hbq
    have := areaVisit_own he
    omega

theorem areaWalk_lt (hw : t.WF) {bmin : Nat → ℚ}
    (hbm : ∀ i, i < t.dims → bmin i = t.lo 0 i) {ball : Ball}
    {peers : BuiltList} (hp : ∀ b, b < t.nboxes → peers.row b = peerKernel t b) {b : Nat}
    (h : b ∈ areaWalk t bmin peers ball) : b < t.nboxes :=
  areaWalk_ltBy hw (guidingBox_spec hw hbm ball).1 hp h

end Boxtree
