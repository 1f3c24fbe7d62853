import Verif.Spec.TreeBuild
import Verif.Lemmas.TreeLoop
import Verif.Lemmas.Flat
import Mathlib.Tactic.Linarith
import Mathlib.Tactic.Ring
import Mathlib.Tactic.FieldSimp

/-! Morton numbers and the geometry of boxes. -/

namespace Boxtree.Build

/-- Binary digits, the first one most significant. -/
def digits (d : Nat) (f : Nat → Nat) : Nat :=
  ((List.range d).map fun a => f a % 2 * 2 ^ (d - 1 - a)).sum

theorem digits_succ (d : Nat) (f : Nat → Nat) : digits (d + 1) f = 2 * digits d f + f d % 2 := by
  unfold digits
  rw [sum_range_succ, ← List.sum_map_mul_left]
  congr 1
  · congr 1
    apply List.map_congr_left
    intro a ha
    rw [List.mem_range] at ha
    rw [show d + 1 - 1 - a = d - 1 - a + 1 by omega, pow_succ]
    ring
  · rw [show d + 1 - 1 - d = 0 by omega]; simp

theorem digits_lt (d : Nat) (f : Nat → Nat) : digits d f < 2 ^ d := by
  induction d with
  | zero => simp [digits]
  | succ d ih => rw [digits_succ, pow_succ]; omega

theorem digits_bit (d : Nat) (f : Nat → Nat) {a : Nat} (ha : a < d) :
    digits d f / 2 ^ (d - 1 - a) % 2 = f a % 2 := by
  induction d with
  | zero => omega
  | succ d ih =>
    rw [digits_succ]
    rcases Nat.eq_or_lt_of_le (Nat.le_of_lt_succ ha) with rfl | h
    · rw [show a + 1 - 1 - a = 0 by omega, pow_zero, Nat.div_one]; omega
    · rw [show d + 1 - 1 - a = d - 1 - a + 1 by omega, pow_succ', ← Nat.div_div_eq_div_mul,
        show (2 * digits d f + f d % 2) / 2 = digits d f by omega]
      exact ih h

namespace Input
variable {inp : Input}

theorem morton_some {p l m : Nat} (h : inp.morton p l = some m) :
    m = digits inp.dims (fun a => inp.bits a p l) ∧ (inp.haveExtent = true →
      inp.stop p l = false) := by
  unfold morton at h
  split at h
  · cases h
  · rename_i hc
    refine ⟨(Option.some.inj h).symm, fun he => ?_⟩
    rw [he, Bool.true_and] at hc
    simpa using hc

theorem mortOK (inp : Input) : inp.params.MortOK := by
  intro p l m h
  rw [(morton_some h).1]
  exact digits_lt _ _

theorem morton_moves (h : inp.haveExtent = false) (p l : Nat) : inp.params.mort p l ≠ none := by
  show inp.morton p l ≠ none
  unfold morton
  rw [h, Bool.false_and, if_neg (by simp)]
  simp

/-- The numbers of which the bits are taken are `u` times a power of two. -/
structure Scaled (inp : Input) (u : Nat → Nat → ℚ) : Prop where
  eq : ∀ a < inp.dims, ∀ p < inp.n, ∀ l,
    inp.arith.scaled (inp.x a p) (inp.lo a) (inp.ext a) l = u a p * 2 ^ (1 + l)
  nonneg : ∀ a < inp.dims, ∀ p < inp.n, 0 ≤ u a p
  lt_one : ∀ a < inp.dims, ∀ p < inp.n, u a p < 1

/-- Position along an axis, in units of the boxes on level `l`. -/
def cellOf (u : Nat → Nat → ℚ) (a p l : Nat) : Nat := ⌊u a p * 2 ^ l⌋.toNat

section
variable {u : Nat → Nat → ℚ} (hu : inp.Scaled u) {a p : Nat} (ha : a < inp.dims) (hp : p < inp.n)
include hu ha hp

theorem Scaled.bits_eq (l : Nat) : inp.bits a p l = cellOf u a p (l + 1) := by
  unfold bits cellOf; rw [hu.eq a ha p hp, Nat.add_comm]

theorem Scaled.cell_spec (l : Nat) :
    (cellOf u a p l : ℚ) ≤ u a p * 2 ^ l ∧ u a p * 2 ^ l < cellOf u a p l + 1 := by
  have h1 : 0 ≤ u a p * 2 ^ l := mul_nonneg (hu.nonneg a ha p hp) (by positivity)
  have h2 : ((cellOf u a p l : ℤ) : ℚ) = ⌊u a p * 2 ^ l⌋ := by
    unfold cellOf
    rw [Int.toNat_of_nonneg (Int.floor_nonneg.2 h1)]
  rw [← Int.cast_natCast, h2]
  exact ⟨Int.floor_le _, Int.lt_floor_add_one _⟩

theorem Scaled.cell_zero : cellOf u a p 0 = 0 := by
  have h1 := (hu.cell_spec ha hp 0).1
  have h2 := hu.lt_one a ha p hp
  rw [pow_zero, mul_one] at h1
  have h3 : (cellOf u a p 0 : ℚ) < ((1 : Nat) : ℚ) := by push_cast; linarith
  have := Nat.cast_lt.1 h3
  omega

theorem Scaled.cell_succ (l : Nat) : cellOf u a p (l + 1) / 2 = cellOf u a p l := by
  obtain ⟨h1, h2⟩ := hu.cell_spec ha hp l
  obtain ⟨h3, h4⟩ := hu.cell_spec ha hp (l + 1)
  rw [pow_succ] at h3 h4
  rw [← mul_assoc] at h3 h4
  generalize u a p * 2 ^ l = y at *
  have h5 : ((cellOf u a p (l + 1) : Nat) : ℚ) < ((2 * cellOf u a p l + 2 : Nat) : ℚ) := by
    push_cast; linarith
  have h6 : ((2 * cellOf u a p l : Nat) : ℚ) < ((cellOf u a p (l + 1) + 1 : Nat) : ℚ) := by
    push_cast; linarith
  have := Nat.cast_lt.1 h5
  have := Nat.cast_lt.1 h6
  omega

theorem Scaled.bits_lt (l : Nat) : inp.bits a p l + 1 ≤ 2 ^ (1 + l) := by
  rw [hu.bits_eq ha hp]
  have q1 := (hu.cell_spec ha hp (l + 1)).1
  have q2 := hu.lt_one a ha p hp
  have q3 : u a p * 2 ^ (l + 1) < 2 ^ (l + 1) := by
    have : (0 : ℚ) < 2 ^ (l + 1) := by positivity
    nlinarith
  have q4 : (cellOf u a p (l + 1) : ℚ) < ((2 ^ (1 + l) : Nat) : ℚ) := by
    push_cast
    rw [Nat.add_comm 1 l]
    linarith
  have := Nat.cast_lt.1 q4
  omega

/-- The point at `u` is in the box. -/
theorem Scaled.in_cell (ok : inp.OK) (l : Nat) :
    inp.lo a + inp.ext a * (cellOf u a p l + 1 / 2) * (1 / 2 ^ l) - inp.ext 0 / 2 ^ (l + 1)
      ≤ inp.lo a + inp.ext a * u a p ∧
    inp.lo a + inp.ext a * u a p
      < inp.lo a + inp.ext a * (cellOf u a p l + 1 / 2) * (1 / 2 ^ l) + inp.ext 0 / 2 ^ (l + 1) := by
  obtain ⟨h1, h2⟩ := hu.cell_spec ha hp l
  have hE : 0 < inp.ext a := by rw [ok.cube a ha]; exact ok.ext_pos
  rw [← ok.cube a ha]
  have hP : (0 : ℚ) < 2 ^ l := by positivity
  have e1 : inp.lo a + inp.ext a * (cellOf u a p l + 1 / 2) * (1 / 2 ^ l) - inp.ext a / 2 ^ (l + 1)
      = inp.lo a + inp.ext a * (cellOf u a p l / 2 ^ l) := by
    rw [pow_succ]; field_simp; ring
  have e2 : inp.lo a + inp.ext a * (cellOf u a p l + 1 / 2) * (1 / 2 ^ l) + inp.ext a / 2 ^ (l + 1)
      = inp.lo a + inp.ext a * ((cellOf u a p l + 1) / 2 ^ l) := by
    rw [pow_succ]; field_simp; ring
  rw [e1, e2]
  have h3 : (cellOf u a p l : ℚ) / 2 ^ l ≤ u a p := (div_le_iff₀ hP).2 h1
  have h4 : u a p < (cellOf u a p l + 1) / 2 ^ l := (lt_div_iff₀ hP).2 h2
  have := mul_le_mul_of_nonneg_left h3 hE.le
  have := mul_lt_mul_of_pos_left h4 hE
  constructor <;> linarith

/-- A particle that belongs into all boxes down to `(l, k)` is in the box that the code computes
from its coordinates. -/
theorem Scaled.path_center (ok : inp.OK) {level : Nat} {s : State} (hI : Inv inp.params level s) :
    ∀ (l k : Nat), k < s.used l → PathOK inp.params s.parent p l k →
      s.center l k a = inp.lo a + inp.ext a * (cellOf u a p l + 1 / 2) * (1 / 2 ^ l) := by
  intro l
  induction l with
  | zero =>
    intro k hk _
    rw [hI.used_zero] at hk
    obtain rfl : k = 0 := by omega
    rw [hI.root_center, hu.cell_zero ha hp]
    show inp.lo a + inp.ext a / 2 = _
    norm_num
    ring
  | succ l ih =>
    intro k hk hpath
    obtain ⟨h1, h2, h3⟩ := hI.parent_ok l k hk
    have hc := ih _ h1 hpath.2
    obtain ⟨_, base, _, _, hch⟩ := hI.children l _ h2
    have hm : k % inp.params.nch < inp.params.nch := Nat.mod_lt _ (nch_pos _)
    obtain ⟨e1, _, _, _, e2, _⟩ := hch _ hm
    rw [h3, Option.some.injEq] at e1
    rw [e1, e2 a]
    unfold childCenter
    rw [(morton_some hpath.1).1]
    show (if digits inp.dims _ / 2 ^ (inp.dims - 1 - a) % 2 = 1 then _ else _) = _
    rw [digits_bit _ _ ha, hu.bits_eq ha hp, hc]
    have hs := hu.cell_succ ha hp l
    have hr : Build.radius inp.params (l + 1) = inp.ext a / 2 ^ (1 + (l + 1)) := by
      unfold Build.radius; rw [ok.cube a ha]; rfl
    rw [hr]
    have hP : (0 : ℚ) < 2 ^ l := by positivity
    split
    · rename_i hb
      have : cellOf u a p (l + 1) = 2 * cellOf u a p l + 1 := by omega
      rw [this, show 1 + (l + 1) = l + 1 + 1 by omega, pow_succ, pow_succ]
      push_cast
      field_simp; ring
    · rename_i hb
      have : cellOf u a p (l + 1) = 2 * cellOf u a p l := by omega
      rw [this, show 1 + (l + 1) = l + 1 + 1 by omega, pow_succ, pow_succ]
      push_cast
      field_simp; ring

end

/-! ### Without rounding -/

/-- Position of a particle along an axis, in units of the boxes on level `l`. -/
def cell (inp : Input) (a p l : Nat) : Nat :=
  ⌊(inp.x a p - inp.lo a) / inp.ext a * 2 ^ l⌋.toNat

/-- `next_level_box_center_${ax}`. -/
def nextCenter (inp : Input) (a p l : Nat) : ℚ :=
  inp.lo a + inp.ext a * (inp.cell a p (l + 1) + 1 / 2) * (1 / 2 ^ (1 + l))

/-- `next_level_box_stick_out_radius_${ax}`. -/
def nextRadius (inp : Input) (a l : Nat) : ℚ :=
  (1 + inp.stickOut) * (1 / 2) * inp.ext a * (1 / 2 ^ (1 + l))

/-- `stop_srcntgt_descent` for the maximum norm. -/
def stopInf (inp : Input) (p l : Nat) : Bool :=
  (List.range inp.dims).any fun a =>
    decide (inp.nextCenter a p l + inp.nextRadius a l ≤ inp.x a p + inp.radius p) ||
    decide (inp.x a p - inp.radius p < inp.nextCenter a p l - inp.nextRadius a l)

/-- Square of the distance from the particle to the center of the next box. -/
def dist2 (inp : Input) (p l : Nat) : ℚ :=
  ((List.range inp.dims).map fun a =>
    (inp.x a p - inp.nextCenter a p l) * (inp.x a p - inp.nextCenter a p l)).sum

/-- `stop_srcntgt_descent` for the Euclidean norm. -/
def stopL2 (inp : Input) (p l : Nat) : Bool :=
  let S := inp.dist2 p l
  let r := inp.radius p
  let T := inp.dims * inp.nextRadius 0 l * inp.nextRadius 0 l - S - r * r
  decide (T ≤ 0) || decide (T * T ≤ 4 * r * r * S)

theorem bits_eq (hx : inp.arith = .exact) (a p l : Nat) : inp.bits a p l = inp.cell a p (l + 1) := by
  unfold bits cell
  rw [hx, Nat.add_comm l 1]
  rfl

theorem stop_eq (hx : inp.arith = .exact) (p l : Nat) :
    inp.stop p l = if inp.l2 then inp.stopL2 p l else inp.stopInf p l := by
  have hb : (fun a => inp.bits a p l) = fun a => inp.cell a p (l + 1) :=
    funext fun a => bits_eq hx a p l
  unfold stop
  rw [hb, hx]
  rfl

theorem OK.ext_pos' (ok : inp.OK) {a : Nat} (ha : a < inp.dims) : 0 < inp.ext a := by
  rw [ok.cube a ha]; exact ok.ext_pos

section
variable (ok : inp.Placed) {a p : Nat} (ha : a < inp.dims) (hp : p < inp.n)
include ok ha hp

theorem Placed.lo_le : inp.lo a ≤ inp.x a p := by
  have := ok.lower a ha p hp
  have := ok.radius_nonneg p hp
  linarith

theorem Placed.frac : 0 ≤ (inp.x a p - inp.lo a) / inp.ext a ∧
    (inp.x a p - inp.lo a) / inp.ext a < 1 := by
  have h1 := ok.lo_le ha hp
  have h2 := ok.ext_pos' ha
  have h3 := ok.off_upper a ha p hp
  exact ⟨div_nonneg (by linarith) h2.le, (div_lt_one h2).2 (by linarith)⟩

omit ha hp in
/-- Without rounding, the numbers are the exact positions. -/
theorem Placed.scaled (hx : inp.arith = .exact) :
    inp.Scaled fun a p => (inp.x a p - inp.lo a) / inp.ext a where
  eq := fun a _ p _ l => by rw [hx]; rfl
  nonneg := fun _ ha _ hp => (ok.frac ha hp).1
  lt_one := fun _ ha _ hp => (ok.frac ha hp).2

variable (hx : inp.arith = .exact)
include hx

theorem Placed.cell_spec (l : Nat) :
    (inp.cell a p l : ℚ) ≤ (inp.x a p - inp.lo a) / inp.ext a * 2 ^ l ∧
    (inp.x a p - inp.lo a) / inp.ext a * 2 ^ l < inp.cell a p l + 1 :=
  (ok.scaled hx).cell_spec ha hp l

theorem Placed.cell_succ (l : Nat) : inp.cell a p (l + 1) / 2 = inp.cell a p l :=
  (ok.scaled hx).cell_succ ha hp l

theorem Placed.in_cell (l : Nat) :
    inp.lo a + inp.ext a * (inp.cell a p l + 1 / 2) * (1 / 2 ^ l) - inp.ext 0 / 2 ^ (l + 1)
      ≤ inp.x a p ∧
    inp.x a p
      < inp.lo a + inp.ext a * (inp.cell a p l + 1 / 2) * (1 / 2 ^ l) + inp.ext 0 / 2 ^ (l + 1) := by
  have h := (ok.scaled hx).in_cell ha hp ok.toOK l
  have hE := ok.ext_pos' ha
  have e : inp.lo a + inp.ext a * ((inp.x a p - inp.lo a) / inp.ext a) = inp.x a p := by
    field_simp; ring
  rw [e] at h
  exact h

theorem Placed.path_center {level : Nat} {s : State} (hI : Inv inp.params level s) :
    ∀ (l k : Nat), k < s.used l → PathOK inp.params s.parent p l k →
      s.center l k a = inp.lo a + inp.ext a * (inp.cell a p l + 1 / 2) * (1 / 2 ^ l) :=
  (ok.scaled hx).path_center ha hp ok.toOK hI

end

theorem dist2_nonneg (p l : Nat) : 0 ≤ inp.dist2 p l := by
  unfold dist2
  apply List.sum_nonneg
  intro v hv
  obtain ⟨a, _, rfl⟩ := List.mem_map.1 hv
  exact mul_self_nonneg _

/-- The test without square roots is the one of the code. -/
theorem stopL2_iff {p l : Nat} (hr : 0 ≤ inp.radius p) : inp.stopL2 p l = true ↔
    (inp.dims : ℝ) * (inp.nextRadius 0 l : ℝ) * (inp.nextRadius 0 l : ℝ)
      ≤ (Real.sqrt (inp.dist2 p l : ℝ) + inp.radius p) * (Real.sqrt (inp.dist2 p l : ℝ) + inp.radius p) := by
  have hS : (0 : ℝ) ≤ (inp.dist2 p l : ℝ) := by exact_mod_cast dist2_nonneg p l
  have hr' : (0 : ℝ) ≤ (inp.radius p : ℝ) := by exact_mod_cast hr
  have hsq := Real.mul_self_sqrt hS
  have hs0 := Real.sqrt_nonneg (inp.dist2 p l : ℝ)
  unfold stopL2
  simp only [Bool.or_eq_true, decide_eq_true_eq]
  rw [← Rat.cast_le (K := ℝ), ← Rat.cast_le (K := ℝ)]
  push_cast
  generalize (inp.dist2 p l : ℝ) = S at *
  generalize Real.sqrt S = q at *
  generalize (inp.radius p : ℝ) = r at *
  generalize hT : (inp.dims : ℝ) * (inp.nextRadius 0 l : ℝ) * (inp.nextRadius 0 l : ℝ) = D
  have hrq : 0 ≤ r * q := mul_nonneg hr' hs0
  constructor
  · rintro (h | h)
    · nlinarith
    · have : |D - S - r * r| ≤ |2 * (r * q)| := by
        rw [abs_le_iff_mul_self_le]
        nlinarith
      rw [abs_of_nonneg (by positivity : 0 ≤ 2 * (r * q))] at this
      have := le_abs_self (D - S - r * r)
      nlinarith
  · intro h
    rcases le_or_gt (D - S - r * r) 0 with h0 | h0
    · exact .inl h0
    · right
      have h1 : D - S - r * r ≤ 2 * (r * q) := by nlinarith
      have h2 := mul_self_le_mul_self h0.le h1
      nlinarith

end Input
end Boxtree.Build
