import Verif.Spec.Visualization
import Verif.Lemmas.Traversal
import Verif.Lemmas.Rounding
import Mathlib.Tactic.IntervalCases
import Mathlib.Tactic.Linarith

/-!
# Lemmas: Roman numerals and plots
-/

namespace Boxtree.Vis

open Boxtree.Build

/-! ### Roman numerals -/

/-- The loop with exact division. -/
def exactLoop : List (Nat × List Char) → Nat → List Char
  | [], _ => []
  | (v, s) :: rest, n => (List.replicate (n / v) s).flatten ++ exactLoop rest (n % v)

theorem roundEven_nat (n : Nat) (hn : n < 4000) : roundEven 53 (n : ℚ) = n := by
  refine roundBy_of_representable near_even (by norm_num) ⟨n, 0, ?_, by simp⟩
  rw [abs_of_nonneg (by omega)]
  have : (4000 : ℤ) ≤ 2 ^ 53 := by norm_num
  omega

theorem roundEven_div (n v : Nat) (hn : n < 4000) (hv : 0 < v) (hv' : v ≤ 1000) :
    trunc (roundEven 53 ((n : ℚ) / (v : ℚ))) = (n / v : Nat) := by
  have hvq : (0 : ℚ) < v := by exact_mod_cast hv
  have hmod : v * (n / v) + n % v = n := Nat.div_add_mod n v
  set q := n / v with hq
  have hlt : n % v < v := Nat.mod_lt _ hv
  by_cases h0 : n % v = 0
  · have : (n : ℚ) / v = q := by
      rw [div_eq_iff hvq.ne']
      have : (v * q : ℕ) = n := by omega
      rw [← this]; push_cast; ring
    rw [this, roundEven_nat _ (lt_of_le_of_lt (Nat.div_le_self _ _) hn)]
    unfold trunc
    rw [if_pos (by positivity), Int.floor_natCast]
  · have herr := roundBy_err near_even 53 ((n : ℚ) / v)
    change |roundEven 53 ((n : ℚ) / v) - n / v| ≤ _ at herr
    set y := roundEven 53 ((n : ℚ) / v)
    have hx : (n : ℚ) / v = q + (n % v : ℕ) / v := by
      rw [div_eq_iff hvq.ne', add_mul, div_mul_cancel₀ _ hvq.ne']
      have : (n : ℚ) = ((v * q + n % v : ℕ) : ℚ) := by rw [hmod]
      rw [this]; push_cast; ring
    have hn4 : (n : ℚ) / v ≤ 4000 := by
      rw [div_le_iff₀ hvq]
      have h1 : (n : ℚ) ≤ 4000 := by exact_mod_cast hn.le
      have h2 : (1 : ℚ) ≤ v := by exact_mod_cast hv
      nlinarith
    have hpos : (0 : ℚ) ≤ (n : ℚ) / v := by positivity
    rw [abs_of_nonneg hpos] at herr
    have hsmall : |y - n / v| < 1 / 2000 := by
      refine lt_of_le_of_lt herr ?_
      have : (1 : ℚ) / 2 ^ 53 * (n / v) ≤ 1 / 2 ^ 53 * 4000 := by gcongr
      refine lt_of_le_of_lt this ?_
      norm_num
    have hv1000 : (v : ℚ) ≤ 1000 := by exact_mod_cast hv'
    have hfr : (1 : ℚ) / 1000 ≤ (n % v : ℕ) / v := by
      rw [div_le_div_iff₀ (by norm_num) hvq]
      have : (1 : ℚ) ≤ (n % v : ℕ) := by exact_mod_cast Nat.pos_of_ne_zero h0
      nlinarith
    have hfr' : ((n % v : ℕ) : ℚ) / v ≤ 1 - 1 / 1000 := by
      rw [div_le_iff₀ hvq]
      have : ((n % v : ℕ) : ℚ) + 1 ≤ v := by exact_mod_cast hlt
      nlinarith
    obtain ⟨h1, h2⟩ := abs_lt.1 hsmall
    have hq0 : (0 : ℚ) ≤ (q : ℚ) := by positivity
    unfold trunc
    rw [if_pos (by linarith), Int.floor_eq_iff]
    constructor
    · push_cast; linarith
    · push_cast; linarith

theorem romanLoop_eq (l : List (Nat × List Char)) (hl : ∀ p ∈ l, 0 < p.1 ∧ p.1 ≤ 1000) (n : Nat)
    (hn : n < 4000) : romanLoop (roundEven 53) l n = exactLoop l n := by
  induction l generalizing n with
  | nil => rfl
  | cons p l ih =>
    obtain ⟨v, s⟩ := p
    obtain ⟨hv, hv'⟩ := hl (v, s) (by simp)
    simp only at hv hv'
    unfold romanLoop exactLoop
    simp only
    have h := roundEven_div n v hn hv hv'
    rw [show (((n : ℤ) : ℚ)) = (n : ℚ) by push_cast; rfl, h]
    have hm : (n : ℤ) - v * ((n / v : ℕ) : ℤ) = ((n % v : ℕ) : ℤ) := by
      have := Nat.div_add_mod n v
      rw [← Nat.cast_mul, ← Nat.cast_sub (by omega)]
      congr 1; omega
    rw [hm, ih (fun q hq => hl q (by simp [hq])) _ (lt_of_le_of_lt (Nat.mod_le _ _) hn),
      Int.toNat_natCast]

/-- The numeral of a decimal digit, written with the signs of one, five and ten. -/
def digitStr (o f t : Char) : Nat → List Char
  | 0 => []
  | 1 => [o]
  | 2 => [o, o]
  | 3 => [o, o, o]
  | 4 => [o, f]
  | 5 => [f]
  | 6 => [f, o]
  | 7 => [f, o, o]
  | 8 => [f, o, o, o]
  | _ => [o, t]

theorem div_block (d k m r : Nat) (hr : r < m) : (d * m + r) / (k * m) = d / k := by
  have hm : 0 < m := by omega
  rw [Nat.mul_comm k m, ← Nat.div_div_eq_div_mul]
  congr 1
  rw [Nat.mul_comm, Nat.mul_add_div hm, Nat.div_eq_of_lt hr]; rfl

theorem mod_block (d k m r : Nat) (hr : r < m) : (d * m + r) % (k * m) = d % k * m + r := by
  have hm : 0 < m := by omega
  rw [Nat.mul_comm k m, Nat.mod_mul]
  have h1 : (d * m + r) % m = r := by rw [Nat.mul_comm, Nat.mul_add_mod, Nat.mod_eq_of_lt hr]
  have h2 : (d * m + r) / m = d := by
    rw [Nat.mul_comm, Nat.mul_add_div hm, Nat.div_eq_of_lt hr]; rfl
  rw [h1, h2, Nat.mul_comm m]; omega

theorem exactLoop_block (o f t : Char) (m d r : Nat) (hd : d < 10) (hr : r < m)
    (rest : List (Nat × List Char)) :
    exactLoop ((9 * m, [o, t]) :: (5 * m, [f]) :: (4 * m, [o, f]) :: (1 * m, [o]) :: rest)
      (d * m + r) = digitStr o f t d ++ exactLoop rest r := by
  simp only [exactLoop, div_block _ _ _ _ hr, mod_block _ _ _ _ hr]
  interval_cases d <;> simp [digitStr, Nat.mod_one, List.replicate]

theorem exactLoop_numerals (n : Nat) :
    exactLoop numerals n = List.replicate (n / 1000) 'M' ++ (digitStr 'C' 'D' 'M' (n % 1000 / 100) ++
      (digitStr 'X' 'L' 'C' (n % 100 / 10) ++ digitStr 'I' 'V' 'X' (n % 10))) := by
  unfold numerals
  have e1 := exactLoop_block 'C' 'D' 'M' 100 (n % 1000 / 100) (n % 100) (by omega) (by omega)
    [(90, ['X', 'C']), (50, ['L']), (40, ['X', 'L']), (10, ['X']), (9, ['I', 'X']), (5, ['V']),
      (4, ['I', 'V']), (1, ['I'])]
  have e2 := exactLoop_block 'X' 'L' 'C' 10 (n % 100 / 10) (n % 10) (by omega) (by omega)
    [(9, ['I', 'X']), (5, ['V']), (4, ['I', 'V']), (1, ['I'])]
  have e3 := exactLoop_block 'I' 'V' 'X' 1 (n % 10) 0 (by omega) (by omega) []
  rw [show n % 1000 / 100 * 100 + n % 100 = n % 1000 by omega] at e1
  rw [show n % 100 / 10 * 10 + n % 10 = n % 100 by omega] at e2
  rw [show n % 10 * 1 + 0 = n % 10 by omega] at e3
  norm_num at e1 e2 e3
  rw [exactLoop, e1, e2, e3]
  have hrep : ∀ k : Nat, (List.replicate k ['M']).flatten = List.replicate k 'M' := by
    intro k
    induction k with
    | zero => rfl
    | succ k ih => simp [List.replicate_succ, ih]
  rw [hrep]
  simp [exactLoop]

theorem romanValue_append (xs ys : List Char)
    (h : ∀ x ∈ xs.getLast?, ∀ y ∈ ys.head?, digitValue y ≤ digitValue x) :
    romanValue (xs ++ ys) = romanValue xs + romanValue ys := by
  induction xs with
  | nil => simp [romanValue]
  | cons a xs ih =>
    cases xs with
    | nil =>
      cases ys with
      | nil => simp [romanValue]
      | cons b ys =>
        have := h a (by simp) b (by simp)
        simp only [List.cons_append, List.nil_append, romanValue]
        rw [if_neg (by omega)]
    | cons b xs =>
      have := ih (by simpa using h)
      simp only [List.cons_append, romanValue] at this ⊢
      rw [this]; omega

theorem digitStr_head (o f t : Char) (ho : digitValue o ≤ digitValue t)
    (hf : digitValue f ≤ digitValue t) (d : Nat) :
    ∀ y ∈ (digitStr o f t d).head?, digitValue y ≤ digitValue t := by
  intro y hy
  match d with
  | 0 | 1 | 2 | 3 | 4 | 5 | 6 | 7 | 8 | _ + 9 => simp_all [digitStr]

theorem digitStr_last (o f t : Char) (ho : digitValue o ≤ digitValue t)
    (hf : digitValue o ≤ digitValue f) (d : Nat) :
    ∀ y ∈ (digitStr o f t d).getLast?, digitValue o ≤ digitValue y := by
  intro y hy
  match d with
  | 0 | 1 | 2 | 3 | 4 | 5 | 6 | 7 | 8 | _ + 9 =>
    simp_all [digitStr]

theorem head_append (c : ℤ) (xs ys : List Char) (hx : ∀ y ∈ xs.head?, digitValue y ≤ c)
    (hy : ∀ y ∈ ys.head?, digitValue y ≤ c) : ∀ y ∈ (xs ++ ys).head?, digitValue y ≤ c := by
  cases xs with
  | nil => simpa using hy
  | cons a xs => simpa using hx

theorem romanValue_replicate (k : Nat) : romanValue (List.replicate k 'M') = 1000 * k := by
  induction k with
  | zero => rfl
  | succ k ih =>
    rw [List.replicate_succ, ← List.singleton_append, romanValue_append, ih]
    · simp [romanValue, digitValue]; ring
    · intro x hx y hy
      have hy' := List.mem_of_mem_head? hy
      rw [(List.mem_replicate.1 hy').2]
      simp at hx; subst hx; exact le_refl _

theorem romanValue_exactLoop (n : Nat) :
    romanValue (exactLoop numerals n) = n := by
  rw [exactLoop_numerals n]
  have hI := digitStr_head 'I' 'V' 'X' (by decide) (by decide) (n % 10)
  have hX := digitStr_head 'X' 'L' 'C' (by decide) (by decide) (n % 100 / 10)
  have hC := digitStr_head 'C' 'D' 'M' (by decide) (by decide) (n % 1000 / 100)
  have vI : ∀ d, d < 10 → romanValue (digitStr 'I' 'V' 'X' d) = d := by
    intro d hd; interval_cases d <;> decide
  have vX : ∀ d, d < 10 → romanValue (digitStr 'X' 'L' 'C' d) = 10 * d := by
    intro d hd; interval_cases d <;> decide
  have vC : ∀ d, d < 10 → romanValue (digitStr 'C' 'D' 'M' d) = 100 * d := by
    intro d hd; interval_cases d <;> decide
  have hXI := head_append 100 _ _ hX (fun y hy => le_trans (hI y hy) (by decide))
  have hCXI := head_append 1000 _ _ hC (fun y hy => le_trans (hXI y hy) (by decide))
  rw [romanValue_append, romanValue_append, romanValue_append, romanValue_replicate,
    vC _ (by omega), vX _ (by omega), vI _ (by omega)]
  · omega
  · intro x hx y hy
    exact le_trans (hI y hy) (digitStr_last 'X' 'L' 'C' (by decide) (by decide) _ x hx)
  · intro x hx y hy
    exact le_trans (hXI y hy) (digitStr_last 'C' 'D' 'M' (by decide) (by decide) _ x hx)
  · intro x hx y hy
    have hx' := List.mem_of_mem_getLast? hx
    rw [(List.mem_replicate.1 hx').2]
    exact hCXI y hy

theorem exactLoop_chars (l : List (Nat × List Char)) (n : Nat) :
    ∀ c ∈ exactLoop l n, ∃ p ∈ l, c ∈ p.2 := by
  induction l generalizing n with
  | nil => simp [exactLoop]
  | cons p l ih =>
    intro c hc
    obtain ⟨v, s⟩ := p
    rw [exactLoop, List.mem_append] at hc
    rcases hc with hc | hc
    · rw [List.mem_flatten] at hc
      obtain ⟨s', hs', hc⟩ := hc
      exact ⟨(v, s), by simp, by rw [(List.mem_replicate.1 hs').2] at hc; exact hc⟩
    · obtain ⟨p, hp, h⟩ := ih _ c hc
      exact ⟨p, by simp [hp], h⟩

/-! ### Plots -/

theorem filter_keys (boxes : List Nat) (hnd : boxes.Nodup) (b : Nat) :
    (b ∉ boxes → ((List.range boxes.length).filter fun i => boxes.getD i 0 = b) = []) ∧
    (∀ k, k < boxes.length → boxes.getD k 0 = b →
      ((List.range boxes.length).filter fun i => boxes.getD i 0 = b) = [k]) := by
  constructor
  · intro hb
    rw [List.filter_eq_nil_iff]
    intro i hi
    have hi' : i < boxes.length := by simpa using hi
    rw [List.getD_eq_getElem _ _ hi']
    intro h
    exact hb (by simp only [decide_eq_true_eq] at h; rw [← h]; exact List.getElem_mem hi')
  · intro k hk hkb
    have h1 : ((List.range boxes.length).filter fun i => boxes.getD i 0 = b) =
        (List.range boxes.length).filter fun i => i == k := by
      apply List.filter_congr
      intro i hi
      have hi' : i < boxes.length := by simpa using hi
      by_cases h : i = k
      · subst h; simpa using hkb
      · have : boxes.getD i 0 ≠ b := fun h' => h (getD_inj_of_nodup hnd hi' hk (h'.trans hkb.symm))
        have h2 : (i == k) = false := by simpa using h
        rw [h2]; simpa using this
    rw [h1, List.filter_beq, List.count_eq_one_of_mem List.nodup_range (by simpa using hk)]
    rfl

theorem drawRow_build (rows : List (List Nat)) (k : Nat) (hk : k < rows.length) (c : Color)
    (h : Bool) : drawRow (buildLists rows) k c h =
      .ok ((rows.getD k []).map fun j => ⟨j, c, h, true⟩) := by
  have hlen : (buildLists rows).starts.length = rows.length + 1 := by
    unfold buildLists; simp [length_prefixSums]
  have hslice : ((buildLists rows).starts.drop k).take 2 =
      [(buildLists rows).starts.getD k 0, (buildLists rows).starts.getD (k + 1) 0] := by
    rw [List.drop_eq_getElem_cons (by omega), List.drop_eq_getElem_cons (by omega),
      List.getD_eq_getElem _ _ (by omega), List.getD_eq_getElem _ _ (by omega)]
    rfl
  have hrow := row_build rows k hk
  have hl := row_length_build rows k hk
  unfold drawRow
  rw [hslice]
  simp only
  unfold BuiltList.row at hrow hl
  split
  · rename_i he
    rw [← hrow, he]; simp
  · rw [hrow]

theorem drawBoxList_build (boxes : List Nat) (hnd : boxes.Nodup) (f : Nat → List Nat) (b : Nat)
    (c : Color) (h : Bool) :
    drawBoxList b (buildLists (boxes.map f)) (some boxes) c h =
      .ok (if b ∈ boxes then (f b).map fun j => ⟨j, c, h, true⟩
        else [⟨b, .blue, false, false⟩]) := by
  unfold drawBoxList
  obtain ⟨h1, h2⟩ := filter_keys boxes hnd b
  simp only
  by_cases hb : b ∈ boxes
  · obtain ⟨k, hk, hkb⟩ := List.mem_iff_getElem.1 hb
    rw [h2 k hk (by rw [List.getD_eq_getElem _ _ hk]; exact hkb)]
    simp only [if_pos hb]
    rw [drawRow_build _ _ (by simpa using hk), List.getD_eq_getElem _ _ (by simpa using hk)]
    simp [hkb]
  · rw [h1 hb]; simp only [if_neg hb]

/-- What drawing one list amounts to. -/
def listMarks (row boxes : List Nat) (b : Nat) (c : Color) (h : Bool) : List Mark :=
  if b ∈ boxes then row.map fun j => ⟨j, c, h, true⟩ else [⟨b, .blue, false, false⟩]

theorem drawBoxList_eq (boxes : List Nat) (hnd : boxes.Nodup) (f : Nat → List Nat) (b : Nat)
    (c : Color) (h : Bool) :
    drawBoxList b (buildLists (boxes.map f)) (some boxes) c h =
      .ok (listMarks ((buildLists (boxes.map f)).rowFor boxes b) boxes b c h) := by
  rw [drawBoxList_build _ hnd, rowFor_build _ hnd, listMarks]
  split <;> rfl

theorem filledBoxes_append (c : Color) (h : Bool) (xs ys : List Mark) :
    filledBoxes c h (xs ++ ys) = filledBoxes c h xs ++ filledBoxes c h ys := by
  simp [filledBoxes]

theorem filledBoxes_flatten (c : Color) (h : Bool) (xss : List (List Mark)) :
    filledBoxes c h xss.flatten = (xss.map (filledBoxes c h)).flatten := by
  induction xss with
  | nil => rfl
  | cons x xss ih => simp [filledBoxes_append, ih]

theorem filled_map (row : List Nat) (c c' : Color) (h h' : Bool) :
    filledBoxes c' h' (row.map fun j => (⟨j, c, h, true⟩ : Mark)) =
      if c = c' ∧ h = h' then row else [] := by
  unfold filledBoxes
  split
  · rename_i hc
    obtain ⟨rfl, rfl⟩ := hc
    rw [List.filter_eq_self.2 (by simp)]
    simp [Function.comp_def]
  · rename_i hc
    rw [List.filter_eq_nil_iff.2]
    · rfl
    · intro m hm
      obtain ⟨j, -, rfl⟩ := List.mem_map.1 hm
      simpa using hc

theorem filled_listMarks (row boxes : List Nat) (b : Nat) (c c' : Color) (h h' : Bool) (hn : b ∉ boxes → row = []) :
    filledBoxes c' h' (listMarks row boxes b c h) = if c = c' ∧ h = h' then row else [] := by
  unfold listMarks
  split
  · exact filled_map row c c' h h'
  · rename_i hb
    rw [hn hb]; simp [filledBoxes]

theorem outline_listMarks (row boxes : List Nat) (b : Nat) (c : Color) (h : Bool) :
    ∀ m ∈ listMarks row boxes b c h, m.filled = false → m = ⟨b, .blue, false, false⟩ := by
  intro m hm hf
  unfold listMarks at hm
  split at hm
  · obtain ⟨j, -, rfl⟩ := List.mem_map.1 hm; cases hf
  · simpa using hm

theorem rowFor_not_mem (bl : BuiltList) (boxes : List Nat) (b : Nat) (hb : b ∉ boxes) :
    bl.rowFor boxes b = [] := by
  unfold BuiltList.rowFor
  rw [List.flatMap_eq_nil_iff]
  intro i hi
  rw [if_neg]
  intro h
  have hi' : i < boxes.length := by simpa using hi
  rw [List.getD_eq_getElem _ _ hi'] at h
  exact hb (h ▸ List.getElem_mem hi')

theorem mapM_ok {α β ε : Type} (f : α → Except ε β) (g : α → β) (l : List α)
    (h : ∀ x ∈ l, f x = .ok (g x)) : l.mapM f = .ok (l.map g) := by
  induction l with
  | nil => rfl
  | cons a l ih =>
    rw [List.mapM_cons, h a (by simp), ih fun x hx => h x (by simp [hx])]
    rfl

end Boxtree.Vis
