import Verif.Lemmas.DeviceTests
import Verif.Props.RotationClasses

/-! Translation classes in floating point arithmetic. -/

set_option linter.unusedVariables false

namespace Boxtree
open BoxTree Build Tools

theorem rint_near {q : ℚ} {z : ℤ} (h : |q - z| < 1 / 2) : rint q = z := by
  rw [abs_lt] at h
  unfold rint
  rcases le_or_gt (z : ℚ) q with hq | hq
  · have hf : ⌊q⌋ = z := by
      rw [Int.floor_eq_iff]; exact ⟨hq, by linarith [h.2]⟩
    simp only [hf]
    rw [if_pos (by linarith [h.2])]
  · have hf : ⌊q⌋ = z - 1 := by
      rw [Int.floor_eq_iff]; push_cast; exact ⟨by linarith [h.1], by linarith⟩
    simp only [hf]
    push_cast
    rw [if_neg (by linarith [h.1]), if_pos (by linarith [h.1])]
    ring

variable {t : BoxTree} {fl hf : ℚ → ℚ} {u M : ℚ} {c0 : Nat → ℚ}

/-- The rounded vector of two boxes of a level that are `v` widths apart is `v`. -/
theorem normVecF_eq {n : Nat} (h : Rounds fl u) (hw : t.WF) (hd : 0 < t.dims)
    (hF : FineEnough t c0 u M n) {src tgt : Nat} (hs : src < t.nboxes) (ht : tgt < t.nboxes)
    {i : Nat} (hi : i < t.dims) (v : ℤ) (v1 : -(2 * n + 1 : ℤ) ≤ v) (v2 : v ≤ 2 * n + 1)
    (hv : t.center tgt i - t.center src i = v * (2 * t.rad (t.level src))) :
    normVecF fl t c0 (t.level src) src tgt i = v := by
  unfold normVecF
  apply rint_near
  have hu := h.u_nonneg
  have hM := hF.nonneg hw hd
  obtain ⟨h1, h2⟩ := diff_err h hw hd hF ht hs hi
  have hr := radF_err h hw (t.level src)
  set r := t.rad (t.level src) with hrdef
  set R := t.radF fl (t.level src)
  set x := fl (t.storedCenter fl c0 tgt i - t.storedCenter fl c0 src i)
  have hrp : 0 < r := hw.rad_pos _
  have hra : t.rad (t.nlevels - 1) ≤ r := hw.rad_anti (by have := hw.level_lt src hs; omega)
  have hfine := hF.fine
  have hfM := (hF.err_le h hw hd (hw.level_lt src hs)).2
  have hsm := h.small
  set L := (t.nlevels : ℚ)
  have hL : 0 ≤ L := Nat.cast_nonneg _
  have hn : (0:ℚ) ≤ n := Nat.cast_nonneg _
  have huM : 0 ≤ u * M := mul_nonneg hu hM.le
  rw [hv] at h1 h2
  rw [abs_le] at hr
  have hR : 7 / 8 * r ≤ R := by
    have : u * r ≤ 1 / 8 * r := mul_le_mul_of_nonneg_right hsm hrp.le
    linarith [hr.1]
  have hRp : 0 < R := by linarith
  -- the quotient before rounding
  have q1 : |x / (2 * R) - v| ≤ 13 / 50 := by
    have e : x / (2 * R) - v = (x - v * (2 * R)) / (2 * R) := by field_simp
    rw [e, abs_div, abs_of_pos (by linarith : (0:ℚ) < 2 * R), div_le_iff₀ (by linarith)]
    have e2 : x - v * (2 * R) = (x - v * (2 * r)) - v * (2 * (R - r)) := by ring
    have b1 : |(v : ℚ) * (2 * (R - r))| ≤ u * M := by
      have : |(v:ℚ) * (2 * (R - r))| = |(v:ℚ)| * 2 * |R - r| := by
        rw [abs_mul, abs_mul, abs_two]; ring
      rw [this]
      have b2 : |R - r| ≤ u * r := by rw [abs_le]; exact hr
      have b3 : |(v:ℚ)| * 2 * |R - r| ≤ |(v:ℚ)| * 2 * (u * r) :=
        mul_le_mul_of_nonneg_left b2 (by positivity)
      have b4 : |(v:ℚ)| * (2 * r) ≤ M := by
        rw [abs_mul, abs_of_pos (by linarith : (0:ℚ) < 2 * r)] at h2; exact h2
      have b5 := mul_le_mul_of_nonneg_left b4 hu
      have b6 : |(v:ℚ)| * 2 * (u * r) = u * (|(v:ℚ)| * (2 * r)) := by ring
      linarith
    have b7 := abs_sub (x - v * (2 * r)) (v * (2 * (R - r)))
    rw [e2]
    have e3 : 5 * (4 * L + n + 16) * u * M = 20 * (L * (u * M)) + 5 * (n * (u * M)) + 80 * (u * M) := by
      ring
    have e4 : (9 * L + 7) * u * M = 9 * (L * (u * M)) + 7 * (u * M) := by ring
    have : 0 ≤ L * (u * M) := mul_nonneg hL huM
    have : 0 ≤ n * (u * M) := mul_nonneg hn huM
    rw [e3] at hfine
    rw [e4] at h1
    linarith
  have bv : |(v : ℚ)| ≤ 2 * n + 1 := by
    rw [abs_le]; constructor <;> [exact_mod_cast v1; exact_mod_cast v2]
  have := h.near q1 bv
  have un : u * (2 * n + 1 + 13 / 50) < 1 / 5 := by
    have e3 : 5 * (4 * L + n + 16) * u * M = (5 * u * (4 * L + n + 16)) * M := by ring
    rw [e3] at hfM
    have : 5 * u * (4 * L + n + 16) < 1 / 2 := by
      by_contra hc
      push Not at hc
      have := mul_le_mul_of_nonneg_right hc hM.le
      linarith
    have : 0 ≤ u * L := mul_nonneg hu hL
    nlinarith
  linarith

/-- The stored distance of a class has a relative error of a few roundings. -/
theorem classDistF_err (h : Rounds fl u) (hh : Rounds hf u) (v : ℤ) (l : Nat) :
    |classDistF fl hf t v l - classDist t v l| ≤ 4 * u * |classDist t v l| := by
  unfold classDistF classDist
  have hu := h.u_nonneg
  have hsm := h.small
  have hp : (0:ℚ) < 2 ^ l := by positivity
  set a := (v : ℚ) * t.rootExtent
  set D := a / 2 ^ l with hD
  have e1 := hh.err a
  have e2 : |hf a / 2 ^ l - D| ≤ u * |D| := by
    rw [hD, ← sub_div, abs_div, abs_div, abs_of_pos hp, ← mul_div_assoc]
    exact div_le_div_of_nonneg_right e1 hp.le
  have e3 := hh.near e2 (le_refl |D|)
  have e4 := h.near e3 (le_refl |D|)
  have hD0 := abs_nonneg D
  refine e4.trans ?_
  have : u * |D| + u * (|D| + u * |D|) + u * (|D| + (u * |D| + u * (|D| + u * |D|))) =
    u * |D| * (3 + u * (3 + u)) := by ring
  rw [this]
  have h5 : u * (3 + u) ≤ 1 := by nlinarith
  have h6 : 0 ≤ u * |D| := mul_nonneg hu hD0
  calc u * |D| * (3 + u * (3 + u)) ≤ u * |D| * 4 := mul_le_mul_of_nonneg_left (by linarith) h6
    _ = 4 * u * |D| := by ring

/-- The numbering loop does the same whatever computes the distances. -/
structure SameNumbers (t : BoxTree) (dist : ℤ → Nat → ℚ) (st st' : ClsState) : Prop where
  count : st'.count = st.count
  prev : st'.prevLevel = st.prevLevel
  starts : st'.levelStarts = st.levelStarts
  map : st'.map = st.map
  dists : ∀ k, (st.distances k = none ∧ st'.distances k = none) ∨
    ∃ (v : Nat → ℤ) (l : Nat), st.distances k = some (fun a => classDist t (v a) l) ∧
      st'.distances k = some fun a => dist (v a) l

theorem SameNumbers.step {dist : ℤ → Nat → ℚ} {st st' : ClsState} (n : Nat) (used : Nat → Bool)
    (h : SameNumbers t dist st st') (i : Nat) :
    SameNumbers t dist (clsStep t n used st i) (clsStep t n used st' i dist) := by
  obtain ⟨c, p, s, m, d⟩ := st
  obtain ⟨c', p', s', m', d'⟩ := st'
  obtain ⟨h1, h2, h3, h4, h5⟩ := h
  simp only at h1 h2 h3 h4 h5
  subst h1 h2 h3 h4
  unfold clsStep
  have key : ∀ k, (Function.update d c' (some fun axis =>
      classDist t ((classToVec n t.dims (i % nClassesPerLevel n t.dims)).getD axis 0)
        (i / nClassesPerLevel n t.dims)) k = none ∧
      Function.update d' c' (some fun axis =>
        dist ((classToVec n t.dims (i % nClassesPerLevel n t.dims)).getD axis 0)
        (i / nClassesPerLevel n t.dims)) k = none) ∨
      ∃ (v : Nat → ℤ) (l : Nat), Function.update d c' (some fun axis =>
        classDist t ((classToVec n t.dims (i % nClassesPerLevel n t.dims)).getD axis 0)
        (i / nClassesPerLevel n t.dims)) k = some (fun a => classDist t (v a) l) ∧
        Function.update d' c' (some fun axis =>
        dist ((classToVec n t.dims (i % nClassesPerLevel n t.dims)).getD axis 0)
        (i / nClassesPerLevel n t.dims)) k = some fun a => dist (v a) l := by
    intro k
    by_cases hk : k = c'
    · subst hk
      rw [Function.update_self, Function.update_self]
      exact .inr ⟨_, _, rfl, rfl⟩
    · rw [Function.update_of_ne hk, Function.update_of_ne hk]
      exact h5 k
  by_cases hp : p' ≠ ((i / nClassesPerLevel n t.dims : Nat) : ℤ)
  · simp only [if_pos hp]
    by_cases hu : used i = true
    · simp only [hu, if_true]
      exact ⟨rfl, rfl, rfl, rfl, key⟩
    · simp only [hu]
      exact ⟨rfl, rfl, rfl, rfl, h5⟩
  · simp only [if_neg hp]
    by_cases hu : used i = true
    · simp only [hu, if_true]
      exact ⟨rfl, rfl, rfl, rfl, key⟩
    · simp only [hu]
      exact ⟨rfl, rfl, rfl, rfl, h5⟩

theorem SameNumbers.fold {dist : ℤ → Nat → ℚ} (n : Nat) (used : Nat → Bool) (l : List Nat) :
    ∀ st st', SameNumbers t dist st st' → SameNumbers t dist
      (l.foldl (fun st i => clsStep t n used st i) st)
      (l.foldl (fun st i => clsStep t n used st i dist) st') := by
  induction l with
  | nil => exact fun _ _ h => h
  | cons i l ih => exact fun st st' h => ih _ _ (h.step n used i)

end Boxtree
