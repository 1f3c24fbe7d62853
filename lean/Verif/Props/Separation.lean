import Verif.Props.Lists
import Mathlib.Algebra.Order.BigOperators.Ring.Finset
import Mathlib.Analysis.Real.Sqrt
import Mathlib.Tactic.Linarith
import Mathlib.Tactic.Positivity

set_option linter.unusedVariables false

/-!
# C13: separated boxes respect target extents
-/

namespace Boxtree
open BoxTree

theorem sum_range_list {R : Type} [AddCommMonoid R] (n : Nat) (f : Nat → R) :
    ((List.range n).map f).sum = ∑ i ∈ Finset.range n, f i := by
  induction n with
  | zero => simp
  | succ n ih => rw [List.range_succ, Finset.sum_range_succ]; simp [ih]

/-- The square-root-free form of the `static_l2` test used in the model is the test of
`/repo/boxtree/traversal.py:758-811`, computed with real square roots. -/
theorem C13_static_l2_is_sqrt_test (inp : TravInput) (ok : inp.OK) (tgt s : Nat)
    (hc : inp.crit = some .staticL2) :
    let t := inp.tree
    let rs : ℝ := t.rad (t.level s)
    let stick : ℝ := (1 + inp.stickOut) * t.rad (t.level tgt)
    let d2 : ℝ := (((List.range t.dims).map fun i =>
        (t.center tgt i - t.center s i) * (t.center tgt i - t.center s i)).sum : ℚ)
    (critStaticL2 t inp.params tgt s = true ↔
      (2 - 8 * (inp.eps : ℝ)) * rs ≤ Real.sqrt d2 - Real.sqrt t.dims * stick - rs) := by
  intro t rs stick d2
  unfold critStaticL2
  simp only [decide_eq_true_eq]
  set D2 : ℚ := ((List.range t.dims).map fun i =>
        (t.center tgt i - t.center s i) * (t.center tgt i - t.center s i)).sum with hD2
  set cc : ℚ := (3 - 8 * inp.params.eps) * t.rad (t.level s) with hcc
  set T : ℚ := (1 + inp.params.stickOut) * t.rad (t.level tgt) with hT
  have heps : inp.params.eps = inp.eps := rfl
  have hso : inp.params.stickOut = inp.stickOut := rfl
  have hcc0 : 0 < cc := mul_pos (by rw [heps]; have := ok.eps_small; linarith) (ok.wf.rad_pos _)
  have hT0 : 0 < T := mul_pos (by rw [hso]; have := ok.stickOut_nonneg; linarith) (ok.wf.rad_pos _)
  have hTr : stick = (T : ℝ) := by simp only [stick, hT, hso]; push_cast; rfl
  have hccr : (2 - 8 * (inp.eps : ℝ)) * rs + rs = (cc : ℝ) := by
    simp only [rs, hcc, heps]; push_cast; ring
  have hcc0r : (0 : ℝ) < cc := by exact_mod_cast hcc0
  have hT0r : (0 : ℝ) < T := by exact_mod_cast hT0
  have hd0 : (0 : ℝ) ≤ (t.dims : ℝ) := by positivity
  have hsq := Real.sq_sqrt hd0
  have hs0 := Real.sqrt_nonneg (t.dims : ℝ)
  have hrhs : (2 - 8 * (inp.eps : ℝ)) * rs ≤ Real.sqrt d2 - Real.sqrt t.dims * stick - rs ↔
      (cc : ℝ) + Real.sqrt t.dims * T ≤ Real.sqrt d2 := by
    rw [hTr]; constructor <;> intro h <;> linarith
  rw [hrhs]
  have hpos : 0 < (cc : ℝ) + Real.sqrt t.dims * T := by
    have : 0 ≤ Real.sqrt (t.dims : ℝ) * T := mul_nonneg hs0 hT0r.le
    linarith
  rw [Real.le_sqrt' hpos]
  have hd2 : d2 = (D2 : ℝ) := rfl
  rw [hd2]
  have hcast : (0 ≤ D2 - cc * cc - t.dims * (T * T) ∧
      4 * (t.dims : ℚ) * (cc * cc) * (T * T) ≤
        (D2 - cc * cc - t.dims * (T * T)) * (D2 - cc * cc - t.dims * (T * T))) ↔
      ((0 : ℝ) ≤ D2 - cc * cc - t.dims * (T * T) ∧
      4 * (t.dims : ℝ) * (cc * cc) * (T * T) ≤
        (D2 - cc * cc - t.dims * (T * T)) * (D2 - cc * cc - t.dims * (T * T))) := by
    constructor
    · rintro ⟨h1, h2⟩; exact ⟨by exact_mod_cast h1, by exact_mod_cast h2⟩
    · rintro ⟨h1, h2⟩; exact ⟨by exact_mod_cast h1, by exact_mod_cast h2⟩
  rw [hcast]
  set g : ℝ := (D2 : ℝ) - cc * cc - t.dims * (T * T) with hg
  set q : ℝ := Real.sqrt (t.dims : ℝ) with hq
  have e1 : ((cc : ℝ) + q * T) ^ 2 ≤ D2 ↔ 2 * cc * T * q ≤ g := by
    have : ((cc : ℝ) + q * T) ^ 2 = cc * cc + q ^ 2 * (T * T) + 2 * cc * T * q := by ring
    rw [this, hsq, hg]
    constructor <;> intro h <;> linarith
  rw [e1]
  have hk : 0 ≤ 2 * (cc : ℝ) * T * q := by positivity
  have e2 : 4 * (t.dims : ℝ) * (cc * cc) * (T * T) = (2 * cc * T * q) * (2 * cc * T * q) := by
    have : (2 * (cc : ℝ) * T * q) * (2 * cc * T * q) = 4 * q ^ 2 * (cc * cc) * (T * T) := by ring
    rw [this, hsq]
  rw [e2]
  constructor
  · rintro ⟨h1, h2⟩
    exact abs_le_of_sq_le_sq' (by nlinarith) h1 |>.2
  · intro h
    exact ⟨hk.trans h, mul_self_le_mul_self hk h⟩

/-- Every point of the axis-aligned region with the given bounds. -/
def InRegion (d : Nat) (lo hi x : Nat → ℚ) : Prop := ∀ i, i < d → lo i ≤ x i ∧ x i ≤ hi i

/-- **C13**, list 3, `static_linf`: every point of the target box enlarged by the stick-out
factor is, in the max norm, at least `(3 - 8 eps)` source radii away from the center of
every listed source box (so `2 - 8 eps` radii away from the source box). -/
theorem C13_list3_static_linf (inp : TravInput) (trav : Traversal) (ok : inp.OK)
    (h : buildTraversal inp = .ok trav) (hx0 : inp.tests = .exact)
    (he : inp.targetsHaveExtent = true)
    (hc : inp.crit = some .staticLinf) (tgt L s : Nat) (htgt : tgt ∈ trav.targetBoxes)
    (hL : L < inp.tree.nlevels)
    (hs : s ∈ (trav.list3.getD L ⟨[], []⟩).rowFor (trav.list3Targets.getD L []) tgt)
    (x : Nat → ℚ)
    (hx : InRegion inp.tree.dims
      (fun i => inp.tree.center tgt i - (1 + inp.stickOut) * inp.tree.rad (inp.tree.level tgt))
      (fun i => inp.tree.center tgt i + (1 + inp.stickOut) * inp.tree.rad (inp.tree.level tgt))
      x) :
    ∃ i, i < inp.tree.dims ∧
      (3 - 8 * inp.eps) * inp.tree.rad (inp.tree.level s) ≤ |x i - inp.tree.center s i| := by
  have hm := ((C06_list3_exact inp trav ok h tgt L htgt hL).2 s).1 hs
  obtain ⟨_, _, _, _, _, _, _, hsep, _⟩ := hm
  have hf := (hsep he).1
  unfold FarSmaller at hf
  simp only [hx0, hc, Option.getD_some] at hf
  obtain ⟨i, hi, hle⟩ := hf
  refine ⟨i, hi, ?_⟩
  have hxi := hx i hi
  have htri : |inp.tree.center tgt i - inp.tree.center s i| ≤
      |inp.tree.center tgt i - x i| + |x i - inp.tree.center s i| := abs_sub_le _ _ _
  have hxa : |inp.tree.center tgt i - x i| ≤
      (1 + inp.stickOut) * inp.tree.rad (inp.tree.level tgt) := by
    rw [abs_le]; constructor <;> linarith [hxi.1, hxi.2]
  nlinarith

/-- **C13**, list 3, `precise_linf` (the default): the same for every point of the target box's
exact target bounding box. -/
theorem C13_list3_precise_linf (inp : TravInput) (trav : Traversal) (ok : inp.OK)
    (h : buildTraversal inp = .ok trav) (hx0 : inp.tests = .exact)
    (he : inp.targetsHaveExtent = true)
    (hc : inp.crit = none ∨ inp.crit = some .preciseLinf) (tgt L s : Nat)
    (htgt : tgt ∈ trav.targetBoxes) (hL : L < inp.tree.nlevels)
    (hs : s ∈ (trav.list3.getD L ⟨[], []⟩).rowFor (trav.list3Targets.getD L []) tgt)
    (x : Nat → ℚ)
    (hx : InRegion inp.tree.dims (inp.tree.tgtMin tgt) (inp.tree.tgtMax tgt) x) :
    ∃ i, i < inp.tree.dims ∧
      (3 - 8 * inp.eps) * inp.tree.rad (inp.tree.level s) ≤ |x i - inp.tree.center s i| := by
  have hm := ((C06_list3_exact inp trav ok h tgt L htgt hL).2 s).1 hs
  obtain ⟨_, _, _, _, _, _, _, hsep, _⟩ := hm
  have hf := (hsep he).1
  have hg : inp.crit.getD .preciseLinf = .preciseLinf := by
    rcases hc with hc | hc <;> rw [hc] <;> rfl
  unfold FarSmaller at hf
  simp only [hx0, hg] at hf
  obtain ⟨i, hi, hle⟩ := hf
  refine ⟨i, hi, ?_⟩
  have hxi := hx i hi
  set mid := (inp.tree.tgtMin tgt i + inp.tree.tgtMax tgt i) / 2 with hmid
  have htri : |mid - inp.tree.center s i| ≤ |mid - x i| + |x i - inp.tree.center s i| :=
    abs_sub_le _ _ _
  have hxa : |mid - x i| ≤ (inp.tree.tgtMax tgt i - inp.tree.tgtMin tgt i) / 2 := by
    rw [abs_le, hmid]; constructor <;> linarith [hxi.1, hxi.2]
  nlinarith

/-- Cauchy-Schwarz form of the triangle inequality used for `static_l2`. -/
theorem l2_far (d : Nat) (u v : Nat → ℚ) (cc R : ℚ) (hcc : 0 < cc) (hR : 0 < R)
    (hu : ∑ i ∈ Finset.range d, u i ^ 2 ≤ R)
    (hgap : 0 ≤ (∑ i ∈ Finset.range d, v i ^ 2) - cc ^ 2 - R)
    (hsq : 4 * cc ^ 2 * R ≤ ((∑ i ∈ Finset.range d, v i ^ 2) - cc ^ 2 - R) ^ 2) :
    cc ^ 2 ≤ ∑ i ∈ Finset.range d, (u i + v i) ^ 2 := by
  by_contra hc
  rw [not_le] at hc
  set A := ∑ i ∈ Finset.range d, (u i + v i) ^ 2 with hA
  set B := ∑ i ∈ Finset.range d, u i ^ 2 with hB
  set D := ∑ i ∈ Finset.range d, v i ^ 2 with hD
  set W := ∑ i ∈ Finset.range d, (u i + v i) * u i with hW
  have hcs : W ^ 2 ≤ A * B := Finset.sum_mul_sq_le_sq_mul_sq _ _ _
  have hDe : D = A + B - 2 * W := by
    rw [hD, hA, hB, hW, Finset.mul_sum, ← Finset.sum_add_distrib, ← Finset.sum_sub_distrib]
    apply Finset.sum_congr rfl
    intro i _; ring
  have hA0 : 0 ≤ A := Finset.sum_nonneg fun i _ => sq_nonneg _
  have hB0 : 0 ≤ B := Finset.sum_nonneg fun i _ => sq_nonneg _
  have h1 : D - cc ^ 2 - R ≤ -2 * W := by linarith
  have h2 : (D - cc ^ 2 - R) ^ 2 ≤ (-2 * W) ^ 2 := pow_le_pow_left₀ hgap h1 2
  have h3 : (-2 * W) ^ 2 = 4 * W ^ 2 := by ring
  have h4 : A * B ≤ A * R := mul_le_mul_of_nonneg_left hu hA0
  have h5 : A * R < cc ^ 2 * R := mul_lt_mul_of_pos_right hc hR
  linarith

/-- **C13**, list 3, `static_l2`: every point of the ball of radius `sqrt(d) (1+sigma) r_t`
around the target box (which contains the enlarged box) is, in the Euclidean norm, at least
`(3 - 8 eps)` source radii away from the center of every listed source box. -/
theorem C13_list3_static_l2 (inp : TravInput) (trav : Traversal) (ok : inp.OK)
    (h : buildTraversal inp = .ok trav) (hx0 : inp.tests = .exact)
    (he : inp.targetsHaveExtent = true)
    (hc : inp.crit = some .staticL2) (hdim : 0 < inp.tree.dims) (tgt L s : Nat)
    (htgt : tgt ∈ trav.targetBoxes) (hL : L < inp.tree.nlevels)
    (hs : s ∈ (trav.list3.getD L ⟨[], []⟩).rowFor (trav.list3Targets.getD L []) tgt)
    (x : Nat → ℚ)
    (hx : ∑ i ∈ Finset.range inp.tree.dims, (x i - inp.tree.center tgt i) ^ 2 ≤
      inp.tree.dims * ((1 + inp.stickOut) * inp.tree.rad (inp.tree.level tgt)) ^ 2) :
    ((3 - 8 * inp.eps) * inp.tree.rad (inp.tree.level s)) ^ 2 ≤
      ∑ i ∈ Finset.range inp.tree.dims, (x i - inp.tree.center s i) ^ 2 := by
  have hm := ((C06_list3_exact inp trav ok h tgt L htgt hL).2 s).1 hs
  obtain ⟨_, _, _, _, _, _, _, hsep, _⟩ := hm
  have hf := (hsep he).1
  unfold FarSmaller at hf
  simp only [hx0, hc, Option.getD_some] at hf
  obtain ⟨h1, h2⟩ := hf
  rw [sum_range_list] at h1 h2
  set T := (1 + inp.stickOut) * inp.tree.rad (inp.tree.level tgt) with hT
  set cc := (3 - 8 * inp.eps) * inp.tree.rad (inp.tree.level s) with hcc
  have hcc0 : 0 < cc := mul_pos (by have := ok.eps_small; linarith) (ok.wf.rad_pos _)
  have hT0 : 0 < T := mul_pos (by have := ok.stickOut_nonneg; linarith) (ok.wf.rad_pos _)
  have hd : (0 : ℚ) < inp.tree.dims := by exact_mod_cast hdim
  have hsum : ∑ i ∈ Finset.range inp.tree.dims,
      (inp.tree.center tgt i - inp.tree.center s i) * (inp.tree.center tgt i - inp.tree.center s i)
      = ∑ i ∈ Finset.range inp.tree.dims, (inp.tree.center tgt i - inp.tree.center s i) ^ 2 :=
    Finset.sum_congr rfl fun i _ => by ring
  rw [hsum] at h1 h2
  have := l2_far inp.tree.dims (fun i => x i - inp.tree.center tgt i)
    (fun i => inp.tree.center tgt i - inp.tree.center s i) cc (inp.tree.dims * T ^ 2) hcc0
    (by positivity) hx (by nlinarith) (by
      have e : (∑ i ∈ Finset.range inp.tree.dims,
          (inp.tree.center tgt i - inp.tree.center s i) ^ 2 - cc * cc -
            inp.tree.dims * (T * T)) ^ 2 =
          (∑ i ∈ Finset.range inp.tree.dims,
          (inp.tree.center tgt i - inp.tree.center s i) ^ 2 - cc ^ 2 -
            inp.tree.dims * T ^ 2) ^ 2 := by ring
      rw [← e]
      have e2 : 4 * cc ^ 2 * (inp.tree.dims * T ^ 2) =
        4 * inp.tree.dims * (cc * cc) * (T * T) := by ring
      rw [e2]; exact h2)
  refine this.trans (le_of_eq ?_)
  apply Finset.sum_congr rfl
  intro i _; ring

/-- **C13**, list 4: along some axis every point of box `b` enlarged by the stick-out factor is
at least `2 (1+sigma) r_b` away from every point of every listed source box, up to the slack
`8 eps (3 (1+sigma) r_b + r_s)`. -/
theorem C13_list4_separated (inp : TravInput) (trav : Traversal) (ok : inp.OK)
    (h : buildTraversal inp = .ok trav) (hx0 : inp.tests = .exact)
    (he : inp.targetsHaveExtent = true) (b s : Nat)
    (hb : b ∈ trav.ttpBoxes) (hs : s ∈ trav.list4.rowFor trav.ttpBoxes b) (x y : Nat → ℚ)
    (hx : InRegion inp.tree.dims
      (fun i => inp.tree.center b i - (1 + inp.stickOut) * inp.tree.rad (inp.tree.level b))
      (fun i => inp.tree.center b i + (1 + inp.stickOut) * inp.tree.rad (inp.tree.level b)) x)
    (hy : InRegion inp.tree.dims (inp.tree.lo s) (inp.tree.hi s) y) :
    ∃ i, i < inp.tree.dims ∧
      2 * ((1 + inp.stickOut) * inp.tree.rad (inp.tree.level b)) -
        8 * inp.eps * (3 * ((1 + inp.stickOut) * inp.tree.rad (inp.tree.level b)) +
          inp.tree.rad (inp.tree.level s)) ≤ |x i - y i| := by
  have hm := ((C07_list4_exact inp trav ok h b hb).2 s).1 hs
  obtain ⟨_, _, _, _, _, ⟨_, hsep⟩, _⟩ := hm
  have hsep' := hsep he
  simp only [hx0] at hsep'
  obtain ⟨i, hi, hle⟩ := hsep'
  refine ⟨i, hi, ?_⟩
  have hxi := hx i hi
  have hyi := hy i hi
  simp only [BoxTree.lo, BoxTree.hi] at hyi
  set c := inp.tree.center b i
  set c' := inp.tree.center s i
  have htri : |c - c'| ≤ |c - x i| + |x i - y i| + |y i - c'| := by
    have h1 := abs_sub_le c (x i) c'
    have h2 := abs_sub_le (x i) (y i) c'
    linarith
  have hxa : |c - x i| ≤ (1 + inp.stickOut) * inp.tree.rad (inp.tree.level b) := by
    rw [abs_le]; constructor <;> linarith [hxi.1, hxi.2]
  have hya : |y i - c'| ≤ inp.tree.rad (inp.tree.level s) := by
    rw [abs_le]; constructor <;> linarith [hyi.1, hyi.2]
  have he3 : (3 * (1 + inp.stickOut) * inp.tree.rad (inp.tree.level b) +
      inp.tree.rad (inp.tree.level s)) * (1 - 8 * inp.eps) =
      3 * ((1 + inp.stickOut) * inp.tree.rad (inp.tree.level b)) +
      inp.tree.rad (inp.tree.level s) -
      8 * inp.eps * (3 * ((1 + inp.stickOut) * inp.tree.rad (inp.tree.level b)) +
          inp.tree.rad (inp.tree.level s)) := by ring
  rw [he3] at hle
  linarith

/-- With extents, list 3 and list 4 of the example are non-empty. -/
example : ∃ trav, buildTraversal Ex.exInputExt = .ok trav ∧
    8 ∈ (trav.list3.getD 3 ⟨[], []⟩).rowFor (trav.list3Targets.getD 3 []) 5 ∧
    4 ∈ trav.list4.rowFor trav.ttpBoxes 7 := by
  refine ⟨_, rfl, ?_, ?_⟩ <;> decide +kernel

end Boxtree
