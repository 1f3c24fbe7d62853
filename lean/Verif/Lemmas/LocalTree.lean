import Verif.Model.LocalTree
import Verif.Lemmas.Compact
import Mathlib.Data.Nat.Bitwise

/-!
# Lemmas about local trees
-/

namespace Boxtree.Dist

theorem foldl_set_one (l : List Nat) (pm : List Nat) :
    (l.foldl (fun pm pid => pm.set pid 1) pm).length = pm.length ∧
    ∀ p, p < pm.length → (l.foldl (fun pm pid => pm.set pid 1) pm).getD p 0 =
      if p ∈ l then 1 else pm.getD p 0 := by
  induction l generalizing pm with
  | nil => simp
  | cons a l ih =>
    rw [List.foldl_cons]
    obtain ⟨h1, h2⟩ := ih (pm.set a 1)
    rw [List.length_set] at h1 h2
    refine ⟨h1, fun p hp => ?_⟩
    rw [h2 p hp]
    by_cases hpl : p ∈ l
    · simp [hpl]
    · simp only [hpl, if_false, List.mem_cons, or_false]
      rw [List.getD_eq_getElem _ _ (by simpa using hp), List.getD_eq_getElem _ _ hp,
        List.getElem_set]
      by_cases h : a = p
      · simp [h]
      · rw [if_neg h, if_neg (fun h' => h h'.symm)]

theorem particleMask_spec (n nboxes : Nat) (boxMask : Nat → Bool) (starts counts : Nat → Nat) :
    (particleMask n nboxes boxMask starts counts).length = n ∧
    ∀ p, p < n → (particleMask n nboxes boxMask starts counts).getD p 0 =
      if ∃ b, b < nboxes ∧ boxMask b = true ∧ starts b ≤ p ∧ p < starts b + counts b then 1
      else 0 := by
  classical
  unfold particleMask
  induction nboxes with
  | zero =>
    refine ⟨by simp, fun p hp => ?_⟩
    rw [if_neg (by rintro ⟨b, hb, _⟩; omega)]
    simp
  | succ k ih =>
    rw [List.range_succ, List.foldl_append, List.foldl_cons, List.foldl_nil]
    set pm := (List.range k).foldl (fun pm i =>
      if boxMask i then (List.range' (starts i) (counts i)).foldl (fun pm pid => pm.set pid 1) pm
      else pm) (List.replicate n 0) with hpm
    obtain ⟨h1, h2⟩ := ih
    by_cases hm : boxMask k = true
    · rw [if_pos hm]
      obtain ⟨f1, f2⟩ := foldl_set_one (List.range' (starts k) (counts k)) pm
      refine ⟨f1.trans h1, fun p hp => ?_⟩
      rw [f2 p (by omega), h2 p hp]
      by_cases hin : p ∈ List.range' (starts k) (counts k)
      · rw [if_pos hin, if_pos]
        rw [List.mem_range'_1] at hin
        exact ⟨k, by omega, hm, hin.1, hin.2⟩
      · rw [if_neg hin]
        congr 1
        apply propext
        constructor
        · rintro ⟨b, hb, h⟩
          exact ⟨b, by omega, h⟩
        · rintro ⟨b, hb, h⟩
          refine ⟨b, ?_, h⟩
          rcases Nat.lt_or_ge b k with h' | h'
          · exact h'
          · have : b = k := by omega
            subst this
            exact absurd (List.mem_range'_1.2 h.2) hin
    · rw [if_neg hm]
      refine ⟨h1, fun p hp => ?_⟩
      rw [h2 p hp]
      congr 1
      apply propext
      constructor
      · rintro ⟨b, hb, h⟩
        exact ⟨b, by omega, h⟩
      · rintro ⟨b, hb, h⟩
        refine ⟨b, ?_, h⟩
        rcases Nat.lt_or_ge b k with h' | h'
        · exact h'
        · have : b = k := by omega
          subst this
          exact absurd h.1 hm

/-- The particle is owned by a box of the mask. -/
def maskedAt (n nboxes : Nat) (boxMask : Nat → Bool) (starts counts : Nat → Nat) (p : Nat) : Bool :=
  (particleMask n nboxes boxMask starts counts).getD p 0 != 0

theorem maskedAt_iff {n nboxes : Nat} {boxMask : Nat → Bool} {starts counts : Nat → Nat} {p : Nat}
    (hp : p < n) : maskedAt n nboxes boxMask starts counts p = true ↔
      ∃ b, b < nboxes ∧ boxMask b = true ∧ starts b ≤ p ∧ p < starts b + counts b := by
  classical
  unfold maskedAt
  rw [(particleMask_spec n nboxes boxMask starts counts).2 p hp]
  split
  · rename_i h; simpa using h
  · rename_i h; simpa using h

theorem scan_spec (n nboxes : Nat) (boxMask : Nat → Bool) (starts counts : Nat → Nat) {i : Nat}
    (hi : i ≤ n) :
    (prefixSums 0 (particleMask n nboxes boxMask starts counts)).getD i 0 =
      rankOf (maskedAt n nboxes boxMask starts counts) i := by
  classical
  obtain ⟨h1, h2⟩ := particleMask_spec n nboxes boxMask starts counts
  exact scan_getD _ (fun j hj => by rw [h2 j (by omega)]; split <;> simp) i (by omega)

theorem fetchParticles_spec {α : Type} (zero : α) (n : Nat) (mask scan : List Nat)
    (part : Nat → α) (p : Nat → Bool) (hm : ∀ i, i < n → p i = (mask.getD i 0 != 0))
    (hs : ∀ i, i ≤ n → scan.getD i 0 = rankOf p i) :
    fetchParticles zero n mask scan part = ((List.range n).filter p).map part := by
  have key : ∀ k, k ≤ n → (List.range k).foldl (fun out i =>
      if mask.getD i 0 ≠ 0 then out.set (scan.getD i 0) (part i) else out)
      (List.replicate (scan.getD n 0) zero) =
      ((List.range k).filter p).map part ++ List.replicate (rankOf p n - rankOf p k) zero := by
    intro k
    induction k with
    | zero => intro _; rw [hs n le_rfl]; simp [rankOf_zero]
    | succ k ih =>
      intro hk
      rw [List.range_succ, List.foldl_append, ih (by omega), List.foldl_cons, List.foldl_nil,
        List.filter_append, List.map_append]
      have hmk := hm k (by omega)
      by_cases hp : p k = true
      · have hne : mask.getD k 0 ≠ 0 := by
          rw [hp] at hmk; simpa using hmk.symm
        rw [if_pos hne, hs k (by omega)]
        have hlt : rankOf p k < rankOf p n := rankOf_lt_of_lt hp (by omega)
        have hsucc := rankOf_succ p k
        rw [hp, if_pos rfl] at hsucc
        rw [List.set_append_right _ _ (by simp [rankOf])]
        have : rankOf p k - (List.map part (List.filter p (List.range k))).length = 0 := by
          simp [rankOf]
        rw [this, hsucc]
        obtain ⟨m, hm'⟩ : ∃ m, rankOf p n - rankOf p k = m + 1 :=
          ⟨rankOf p n - rankOf p k - 1, by omega⟩
        rw [hm', show rankOf p n - (rankOf p k + 1) = m by omega, List.replicate_succ,
          List.set_cons_zero]
        simp [hp]
      · have hz : ¬ mask.getD k 0 ≠ 0 := by
          rw [Bool.not_eq_true] at hp
          rw [hp] at hmk
          simpa using hmk.symm
        rw [if_neg hz, rankOf_succ, if_neg hp]
        simp [hp]
  have := key n le_rfl
  rw [Nat.sub_self, List.replicate_zero, List.append_nil] at this
  exact this

/-! ### flags -/

theorem hasFlag_eq_testBit (f k : Nat) : hasFlag f (2 ^ k) = f.testBit k := by
  unfold hasFlag
  rw [Nat.and_two_pow]
  cases h : f.testBit k <;> simp

theorem testBit_clearFlag (f k j : Nat) :
    (clearFlag f (2 ^ k)).testBit j = (f.testBit j && decide (j ≠ k)) := by
  unfold clearFlag
  rw [Nat.testBit_xor, Nat.testBit_and, Nat.testBit_two_pow]
  by_cases h : k = j
  · subst h; cases f.testBit k <;> simp
  · have : j ≠ k := fun h' => h h'.symm
    simp [h, this]

theorem testBit_orFlag (f k j : Nat) :
    (f ||| 2 ^ k).testBit j = (f.testBit j || decide (j = k)) := by
  rw [Nat.testBit_or, Nat.testBit_two_pow]
  by_cases h : k = j
  · subst h; simp
  · have : j ≠ k := fun h' => h h'.symm
    simp [h, this]

theorem modifyTargetFlags_testBit (cn cc flags : Nat → Nat) (b j : Nat) :
    (modifyTargetFlags cn cc flags b).testBit j =
      if j = 1 then decide (cn b ≠ 0) else if j = 3 then decide (cn b < cc b)
      else (flags b).testBit j := by
  unfold modifyTargetFlags
  simp only [show flagIsTarget = 2 ^ 1 from rfl, show flagHasTargetChild = 2 ^ 3 from rfl]
  by_cases h1 : cn b ≠ 0 <;> by_cases h2 : cn b < cc b <;>
    simp only [h1, h2, if_true, if_false, ne_eq, not_false_eq_true, testBit_clearFlag,
      testBit_orFlag] <;>
    by_cases hj1 : j = 1 <;> by_cases hj3 : j = 3 <;> simp_all

end Boxtree.Dist
