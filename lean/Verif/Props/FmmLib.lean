import Verif.Lemmas.FmmLibSim
import Verif.Props.RotationClasses
import Mathlib.Tactic.FieldSimp
import Mathlib.Tactic.LinearCombination

/-!
# C58: the `pyfmmlib` wrangler computes the potentials of all sources
-/

namespace Boxtree.FmmLib
open Boxtree BoxTree

variable {A W D C P : Type}

/-- **C58 (storage).** Every box has its own slot in the flat array of expansions: the slot lies
inside the array allocated by `multipole_expansion_zeros` / `local_expansion_zeros`, slots of
different boxes are disjoint, for every choice of orders per level, and what is stored for a box is
read back, while the expansions of all other boxes stay as they are. -/
theorem C58_storage [Zero C] (t : BoxTree) (w : Wrangler A D) (hw : t.WF) (hl : t.LevelsOK)
    (b : Nat) (hb : b < t.nboxes) :
    offset t w (t.level b) b + w.size t (t.level b) ≤ levelStarts t w t.nlevels ∧
    (∀ c, c < t.nboxes → c ≠ b → ∀ k, k < w.size t (t.level b) → ∀ k', k' < w.size t (t.level c) →
      offset t w (t.level b) b + k ≠ offset t w (t.level c) c + k') ∧
    ∀ (a : Nat → C) (v : List C), v.length = w.size t (t.level b) →
      getExpn t w (setExpn t w a (t.level b) b v) (t.level b) b = v ∧
      ∀ c, c < t.nboxes → c ≠ b →
        getExpn t w (setExpn t w a (t.level b) b v) (t.level c) c = getExpn t w a (t.level c) c := by
  refine ⟨?_, ?_, ?_⟩
  · exact (offset_bounds hw hl hb).2.trans (levelStarts_mono (hw.level_lt b hb))
  · intro c hc hne k hk k' hk'
    rcases offset_disjoint (w := w) hw hl hb hc (Ne.symm hne) with h | h <;> omega
  · intro a v hv
    exact ⟨getExpn_set_same _ _ _ _ hv, fun c hc hne => getExpn_set_ne hw hl a hb hc (Ne.symm hne) v⟩

/-- **C58 (any relation).** For every tree and traversal, every choice of orders per level, with or
without rotation data, and every assignment of strengths and dipole directions: whatever relations
between expansions, potentials and sets of sources the routines of the library keep in the
situations listed in `Respects`, the number that `drive_fmm` with the `pyfmmlib` wrangler returns at
a target (before the final scaling) is related to the set of all sources, each taken once. -/
theorem C58_fmmlib_respects [AddCommMonoid C] [AddCommMonoid P] (inp : TravInput) (trav : Traversal)
    (ok : inp.OK) (hlev : inp.tree.LevelsOK) (h : buildTraversal inp = .ok trav)
    (hm : inp.srcMask = none) (hm' : inp.srcParentMask = none)
    (hdim : inp.tree.dims = 2 ∨ inp.tree.dims = 3)
    (q : Particles) (hq : q.OK inp.tree) (R : Lib A W D C P) (w : Wrangler A D)
    (src : Nat → Src W D) (x : Nat → Nat → ℚ) (angle : Nat → Nat → A)
    (PV : Nat → P → Multiset Nat → Prop)
    (MP LOC : Nat → List C → Multiset Nat → Prop) (hE : Respects inp q R w src x angle PV MP LOC)
    (weights : Nat → W) (hH : Holds q w weights src x) (hrot : RotationOK trav w angle) :
    ∃ pot, drive inp.tree q R w trav weights = .ok pot ∧
      ∀ i, i < q.ntargets → ∃ p, pot i = R.scale w.kernel inp.tree.dims p ∧
        PV i p (Multiset.range q.nsources) := by
  have F := travFields h
  have hw := ok.wf
  unfold drive
  rw [if_pos hdim]
  refine ⟨_, rfl, fun i hi => ⟨_, rfl, ?_⟩⟩
  set ts : Nat → Src W D := fun j =>
      { pos := w.sources j
        weight := weights (q.userSourceIds j)
        dipole := w.dipoleVec.map fun d =>
          if w.dipolesAlreadyReordered then d j else d (q.userSourceIds j) } with hts'
  have hts : ∀ b, b < inp.tree.nboxes → inp.tree.isSource b = true →
      Present q q ts src (unitOf q) b := by
    intro b hb hs
    refine ⟨?_, boxWeight_unit q b, rfl⟩
    unfold boxSrc sourcesOf
    rw [List.map_map]
    apply List.map_congr_left
    intro k hk
    have hk := List.mem_range.1 hk
    have hlt : q.srcStart b + k < q.nsources := by have := hq.src_le b hb hs; omega
    have e1 := hH.pos _ hlt
    have e2 := hH.weight _ (hq.user_lt _ hlt)
    have e3 := hH.dipole _ hlt
    simp only [Function.comp, hts']
    rw [e1, ← e2, ← e3]
  have hx := hH.target i hi
  have htb := mem_targetBoxes_iff inp trav ok h hm
  obtain ⟨tgt, h1, h2, h3, h4⟩ := hq.tgt_cover _ (hq.sorted_lt i hi)
  have htgt := (htb tgt).2 ⟨h1, h2⟩
  have hp : ∀ b ∈ trav.targetBoxes, InTgt q b (q.sortedTargetIds i) ↔ b = tgt := by
    intro b hb
    obtain ⟨b1, b2⟩ := (htb b).1 hb
    constructor
    · rintro ⟨h5, h6⟩
      exact hq.tgt_disjoint b b1 b2 tgt h1 h2 _ h5 h6 h3 h4
    · rintro rfl; exact ⟨h3, h4⟩
  -- the companion run
  have hup : Rel inp.tree w MP (upward inp.tree q R w ts trav)
      (Fmm.upward inp.tree q trav (unitOf q)) := by
    apply upward_rel hE ok hlev h
    intro b hb
    rw [F.sourceBoxes, mem_selSource] at hb
    exact hts b hb.1 hb.2.1
  have hev : PV i (evaluate inp.tree q R w ts trav (upward inp.tree q R w ts trav)
        (q.sortedTargetIds i))
      (Fmm.evaluate inp.tree q trav (unitOf q) (Fmm.upward inp.tree q trav (unitOf q))
        (q.sortedTargetIds i)) := by
    refine evaluate_rel hE ok hlev h hrot hx hi htgt ⟨h3, h4⟩ hp ?_ ?_ ?_ ?_
    · intro b hb s hs
      obtain ⟨g1, g2, -⟩ := ((C07_list4_exact inp trav ok h b hb).2 s).1 hs
      exact hts s g1 g2
    · intro s hs
      obtain ⟨g1, g2⟩ := usesSources_is ok h htgt hs
      exact hts s g1 g2
    · intro b hb s hs
      exact hup s (((C05_list2_exact inp trav ok h b hb).2 s).1 hs).1
    · intro l hl s hs
      exact hup s (((C06_list3_exact inp trav ok h tgt l htgt hl).2 s).1 hs).1
  have htot := C02_drive_fmm_total inp trav ok hlev h hm hm' q hq
    (fun j => ({j} : Multiset Nat)) i hi
  unfold Fmm.driveFmm at htot
  have e : (fun k => ({q.userSourceIds k} : Multiset Nat)) = unitOf q := rfl
  simp only [e] at htot
  rw [htot, Finset.sum_multiset_singleton] at hev
  exact hev

/-- **C58.** For every tree and traversal, every library of expansion routines that is exact in the
sense of `Exact`, every choice of orders per level and with or without rotation data, every
assignment of strengths and dipole directions: `drive_fmm` with the `pyfmmlib` wrangler returns at
every target (in user order) the scaled sum over all sources of the potential of that source. -/
theorem C58_fmmlib_exact [AddCommMonoid C] [AddCommMonoid P] (inp : TravInput) (trav : Traversal)
    (ok : inp.OK) (hlev : inp.tree.LevelsOK) (h : buildTraversal inp = .ok trav)
    (hm : inp.srcMask = none) (hm' : inp.srcParentMask = none)
    (hdim : inp.tree.dims = 2 ∨ inp.tree.dims = 3)
    (q : Particles) (hq : q.OK inp.tree) (R : Lib A W D C P) (w : Wrangler A D)
    (src : Nat → Src W D) (x : Nat → Nat → ℚ) (angle : Nat → Nat → A) (K : Nat → Nat → P)
    (MP LOC : Nat → List C → Multiset Nat → Prop) (hE : Exact inp q R w src x angle K MP LOC)
    (weights : Nat → W) (hH : Holds q w weights src x) (hrot : RotationOK trav w angle) :
    ∃ pot, drive inp.tree q R w trav weights = .ok pot ∧
      ∀ i, i < q.ntargets →
        pot i = R.scale w.kernel inp.tree.dims (∑ j ∈ Finset.range q.nsources, K i j) := by
  obtain ⟨pot, h1, h2⟩ := C58_fmmlib_respects inp trav ok hlev h hm hm' hdim q hq R w src x angle _
    MP LOC hE weights hH hrot
  refine ⟨pot, h1, fun i hi => ?_⟩
  obtain ⟨p, h3, h4⟩ := h2 i hi
  rw [h3, h4]
  rfl

/-- **C58 (rotation data).** The rotation data made by `FMMLibRotationData` from the rotation
classes of the same traversal meets the requirement of `C58_fmmlib_exact`: every list 2 entry leads
to the angle between its translation vector and the last axis. -/
theorem C58_rotation_data (inp : TravInput) (trav : Traversal) (ok : inp.OK)
    (h : buildTraversal inp = .ok trav)
    (hfit : (4 * inp.nAway + 3) ^ inp.tree.dims ≤ 2 ^ 31) [DecidableEq ℝ]
    (rc : RotationClasses ℝ)
    (hrc : buildRotationClasses exactAngle inp.tree inp.nAway trav = .ok rc)
    (w : Wrangler ℝ D) (hwr : w.rotation = some (rc.classes, rc.angles)) :
    RotationOK trav w (pairAngle inp.tree) := by
  intro lists angles hla j hj p hp1 hp2
  rw [hwr] at hla
  cases hla
  exact ((C42_rotation_classes ok h hfit).2 rc hrc).2.1 j hj p hp1 hp2

/-- The scaling parameter of a level is positive for every kernel and dimension, and except for
the three-dimensional Laplace kernel, where the library wants the reciprocal, it is at most 1. -/
theorem C58_rscale (t : BoxTree) (w : Wrangler A D) (he : 0 < t.rootExtent)
    (hf : 0 < w.rscaleFactor) (l : Nat) :
    0 < levelToRscale t w l ∧
    ((t.dims = 3 ∧ w.kernel = .laplace → 1 ≤ levelToRscale t w l) ∧
     (¬ (t.dims = 3 ∧ w.kernel = .laplace) → levelToRscale t w l ≤ 1)) := by
  have hr : 0 < t.rootExtent * (1 / 2 ^ l) * w.rscaleFactor := by positivity
  unfold levelToRscale
  simp only
  rw [abs_of_pos hr]
  set r := t.rootExtent * (1 / 2 ^ l) * w.rscaleFactor with hrdef
  have h1 : 0 < (if 1 < r then 1 else r) ∧ (if 1 < r then 1 else r) ≤ 1 := by
    split
    · exact ⟨one_pos, le_rfl⟩
    · exact ⟨hr, not_lt.1 ‹_›⟩
  by_cases hc : t.dims = 3 ∧ w.kernel = .laplace
  · rw [if_pos hc]
    refine ⟨one_div_pos.2 h1.1, fun _ => ?_, fun hn => absurd hc hn⟩
    rw [le_div_iff₀ h1.1, one_mul]
    exact h1.2
  · rw [if_neg hc]
    exact ⟨h1.1, fun hn => absurd hn hc, fun _ => h1.2⟩

/-- **C58 (storage).** The slot of a box has as many entries as an expansion of the order of its
level has coefficients. -/
theorem C58_slot_size (t : BoxTree) (w : Wrangler A D) (hd : t.dims = 2 ∨ t.dims = 3) (l : Nat) :
    w.size t l = (coefficients w.kernel t.dims (w.order l)).card := by
  unfold Wrangler.size expnSize coefficients
  rcases hd with hd | hd <;> rw [hd] <;> cases w.kernel <;>
    simp only [Finset.card_product, Int.card_Icc, Finset.card_singleton, if_pos,
      show (3 : Nat) ≠ 2 by decide, reduceIte]
  · omega
  · omega
  · rw [Nat.mul_comm]; congr 1; omega
  · rw [Nat.mul_comm]; congr 1; omega

/-- **C58 (scaling).** The radius handed to the translations of the Helmholtz kernel in three
dimensions is the side length of the boxes of the level, and the ball with this radius around the
center of a box contains the box. -/
theorem C58_radius (t : BoxTree) (hd : t.dims ≤ 3) (he : 0 < t.rootExtent) (b : Nat)
    (y : Nat → ℚ) (hy : ∀ a < t.dims, |y a - t.center b a| ≤ t.rad (t.level b)) :
    radius t (t.level b) = 2 * t.rad (t.level b) ∧
    ((List.range t.dims).map fun a => (y a - t.center b a) ^ 2).sum ≤ radius t (t.level b) ^ 2 := by
  have h0 : radius t (t.level b) = 2 * t.rad (t.level b) := by
    unfold radius BoxTree.rad
    rw [pow_succ]
    field_simp
  refine ⟨h0, ?_⟩
  have hr : 0 < t.rad (t.level b) := by unfold BoxTree.rad; positivity
  have h1 : ((List.range t.dims).map fun a => (y a - t.center b a) ^ 2).sum
      ≤ ((List.range t.dims).map fun _ => t.rad (t.level b) ^ 2).sum := by
    apply List.sum_le_sum
    intro a ha
    have := hy a (List.mem_range.1 ha)
    rw [← sq_abs]
    exact pow_le_pow_left₀ (abs_nonneg _) this 2
  refine le_trans h1 ?_
  rw [List.map_const', List.sum_replicate, List.length_range, nsmul_eq_mul, h0, mul_pow]
  have h2 : (t.dims : ℚ) ≤ 3 := by exact_mod_cast hd
  nlinarith [sq_nonneg (t.rad (t.level b))]

/-! ### A library that is exact: the kernel `x₀ - y₀` -/

namespace Ex

/-- Expansions with two coefficients for the potential `weight * (x₀ - y₀)`: the multipole
expansion is total strength and scaled first moment, the local expansion value and scaled slope at
the center. -/
def linLib : Lib ℚ ℚ ℚ ℚ ℚ where
  formmp r s c n := [(s.map fun p => p.weight).sum,
    (s.map fun p => p.weight * (p.pos 0 - c 0)).sum / r] ++ List.replicate (n - 1) 0
  mpmp r1 c1 v r2 c2 n _ := [v.getD 0 0, (r1 * v.getD 1 0 + v.getD 0 0 * (c1 0 - c2 0)) / r2] ++
    List.replicate (n - 1) 0
  mploc _ r1 c1 v r2 c2 n _ := [v.getD 0 0 * (c2 0 - c1 0) - r1 * v.getD 1 0, v.getD 0 0 * r2] ++
    List.replicate (n - 1) 0
  formta r s c n := [(s.map fun p => p.weight * (c 0 - p.pos 0)).sum,
    (s.map fun p => p.weight).sum * r] ++ List.replicate (n - 1) 0
  locloc r1 c1 u r2 c2 n _ := [u.getD 0 0 + u.getD 1 0 * (c2 0 - c1 0) / r1,
    u.getD 1 0 * r2 / r1] ++ List.replicate (n - 1) 0
  mpeval r c v x := v.getD 0 0 * (x 0 - c 0) - r * v.getD 1 0
  taeval r c u x := u.getD 0 0 + u.getD 1 0 * (x 0 - c 0) / r
  direct s x := (s.map fun p => p.weight * (x 0 - p.pos 0)).sum
  scale _ _ p := -p

variable (inp : TravInput) (w : Wrangler ℚ ℚ) (src : Nat → Src ℚ ℚ)

def linMP (b : Nat) (v : List ℚ) (S : Multiset Nat) : Prop :=
  v.length = w.size inp.tree (inp.tree.level b) ∧
  v.getD 0 0 = (S.map fun j => (src j).weight).sum ∧
  v.getD 1 0 = (S.map fun j => (src j).weight * ((src j).pos 0 - inp.tree.center b 0)).sum /
    levelToRscale inp.tree w (inp.tree.level b)

def linLOC (b : Nat) (v : List ℚ) (S : Multiset Nat) : Prop :=
  v.length = w.size inp.tree (inp.tree.level b) ∧
  v.getD 0 0 = (S.map fun j => (src j).weight * (inp.tree.center b 0 - (src j).pos 0)).sum ∧
  v.getD 1 0 = (S.map fun j => (src j).weight).sum * levelToRscale inp.tree w (inp.tree.level b)

theorem getD_zip (u v : List ℚ) (h : u.length = v.length) (k : Nat) :
    (List.zipWith (· + ·) u v).getD k 0 = u.getD k 0 + v.getD k 0 := by
  by_cases hk : k < u.length
  · rw [List.getD_eq_getElem _ _ (by simp; omega), List.getD_eq_getElem _ _ hk,
      List.getD_eq_getElem _ _ (by omega)]
    simp
  · rw [List.getD_eq_default _ _ (by simp; omega), List.getD_eq_default _ _ (by omega),
      List.getD_eq_default _ _ (by omega), add_zero]

theorem getD_repl (n k : Nat) : (List.replicate n (0 : ℚ)).getD k 0 = 0 := by
  by_cases hk : k < n
  · rw [List.getD_eq_getElem _ _ (by simpa using hk)]; simp
  · rw [List.getD_eq_default _ _ (by simpa using hk)]

/-- moving the center of a first moment -/
theorem moment_shift (S : Multiset Nat) (c c' : ℚ) :
    (S.map fun j => (src j).weight * ((src j).pos 0 - c')).sum =
      (S.map fun j => (src j).weight * ((src j).pos 0 - c)).sum +
        (S.map fun j => (src j).weight).sum * (c - c') := by
  induction S using Multiset.induction_on with
  | empty => simp
  | cons a S ih => simp only [Multiset.map_cons, Multiset.sum_cons, ih]; ring

theorem moment_neg (S : Multiset Nat) (c c' : ℚ) :
    (S.map fun j => (src j).weight * (c' - (src j).pos 0)).sum =
      (S.map fun j => (src j).weight).sum * (c' - c) -
        (S.map fun j => (src j).weight * ((src j).pos 0 - c)).sum := by
  induction S using Multiset.induction_on with
  | empty => simp
  | cons a S ih => simp only [Multiset.map_cons, Multiset.sum_cons, ih]; ring

theorem sum_coe (l : List Nat) (f : Nat → ℚ) : ((l : Multiset Nat).map f).sum = (l.map f).sum := by
  simp

theorem map_src (l : List Nat) (f : Src ℚ ℚ → ℚ) :
    ((l.map src).map f).sum = ((l : Multiset Nat).map fun j => f (src j)).sum := by
  rw [sum_coe, List.map_map]; rfl

theorem size_lin (hd : inp.tree.dims = 2) (hk : w.kernel = .laplace) (ho : ∀ l, 1 ≤ w.order l)
    (a b : ℚ) (l : Nat) :
    ([a, b] ++ List.replicate (w.order l - 1) (0 : ℚ)).length = w.size inp.tree l := by
  unfold Wrangler.size expnSize
  rw [if_pos hd, hk]
  have := ho l
  simp; omega

/-- The hypotheses of `C58_fmmlib_exact` about the library hold for `linLib` on every
two-dimensional tree, for all orders that are at least 1. -/
theorem linLib_exact (q : Particles) (x : Nat → Nat → ℚ) (angle : Nat → Nat → ℚ)
    (hw : inp.tree.WF) (hd : inp.tree.dims = 2) (hk : w.kernel = .laplace)
    (ho : ∀ l, 1 ≤ w.order l) (hf : 0 < w.rscaleFactor) :
    Exact inp q linLib w src x angle
      (fun i j => (src j).weight * (x i 0 - (src j).pos 0)) (linMP inp w src)
      (linLOC inp w src) := by
  have hr : ∀ l, levelToRscale inp.tree w l ≠ 0 := fun l =>
    ((C58_rscale inp.tree w hw.ext_pos hf l).1).ne'
  have hsz := size_lin inp w hd hk ho
  constructor
  · intro i; simp
  · intro i p S p' S' h h'
    simp only at h h' ⊢
    rw [h, h', Multiset.map_add, Multiset.sum_add]
  · exact fun b v S hv => hv.1
  · intro b
    exact ⟨by simp, by rw [getD_repl]; simp, by rw [getD_repl]; simp⟩
  · intro b v S v' S' h h'
    refine ⟨by rw [List.length_zipWith, h.1, h'.1, min_self], ?_, ?_⟩
    · rw [getD_zip _ _ (h.1.trans h'.1.symm), h.2.1, h'.2.1]; simp
    · rw [getD_zip _ _ (h.1.trans h'.1.symm), h.2.2, h'.2.2, ← add_div]; simp
  · exact fun b v S hv => hv.1
  · intro b
    exact ⟨by simp, by rw [getD_repl]; simp, by rw [getD_repl]; simp⟩
  · intro b v S v' S' h h'
    refine ⟨by rw [List.length_zipWith, h.1, h'.1, min_self], ?_, ?_⟩
    · rw [getD_zip _ _ (h.1.trans h'.1.symm), h.2.1, h'.2.1]; simp
    · rw [getD_zip _ _ (h.1.trans h'.1.symm), h.2.2, h'.2.2, ← add_mul]; simp
  · intro b _ _
    refine ⟨hsz _ _ _, ?_, ?_⟩
    · exact map_src src _ (fun p => p.weight)
    · change (((sourcesOf q b).map src).map fun p => p.weight * (p.pos 0 - _)).sum / _ = _
      rw [map_src src]
  · intro c hc h0 v S hv
    have e := hw.level_parent c hc h0
    have e' : inp.tree.level c - 1 = inp.tree.level (inp.tree.parent c) := by omega
    rw [e']
    refine ⟨hsz _ _ _, hv.2.1, ?_⟩
    change (_ * v.getD 1 0 + v.getD 0 0 * _) / _ = _
    rw [hv.2.1, hv.2.2, mul_div_cancel₀ _ (hr _),
      moment_shift src S (inp.tree.center c 0) (inp.tree.center (inp.tree.parent c) 0)]
  · intro b s _ _ hl _ _ rot _ v S hv
    refine ⟨hsz _ _ _, ?_, ?_⟩
    · change v.getD 0 0 * _ - _ * v.getD 1 0 = _
      rw [hv.2.1, hv.2.2, hl, mul_div_cancel₀ _ (hr _),
        moment_neg src S (inp.tree.center s 0)]
    · change v.getD 0 0 * _ = _
      rw [hv.2.1]
  · intro b s _ _ _ _ _ _ _ _ _
    refine ⟨hsz _ _ _, ?_, ?_⟩
    · exact map_src src _ (fun p => p.weight * (inp.tree.center b 0 - p.pos 0))
    · change (((sourcesOf q s).map src).map fun p => p.weight).sum * _ = _
      rw [map_src src]
  · intro b hb h0 v S hv
    have e := hw.level_parent b hb h0
    have e' : inp.tree.level b - 1 = inp.tree.level (inp.tree.parent b) := by omega
    rw [e']
    refine ⟨hsz _ _ _, ?_, ?_⟩
    · change v.getD 0 0 + v.getD 1 0 * _ / _ = _
      rw [hv.2.1, hv.2.2, moment_neg src S (inp.tree.center b 0) (inp.tree.center b 0),
        moment_neg src S (inp.tree.center b 0) (inp.tree.center (inp.tree.parent b) 0)]
      have := hr (inp.tree.level (inp.tree.parent b))
      field_simp
      ring
    · change v.getD 1 0 * _ / _ = _
      rw [hv.2.2]
      have := hr (inp.tree.level (inp.tree.parent b))
      field_simp
  · intro i b s _ _ _ _ _ _ _ _ _ _ _ v S hv
    change v.getD 0 0 * _ - _ * v.getD 1 0 = _
    rw [hv.2.1, hv.2.2, mul_div_cancel₀ _ (hr _), moment_neg src S (inp.tree.center s 0)]
  · intro i b _ _ _ _ v S hv
    change v.getD 0 0 + v.getD 1 0 * _ / _ = _
    rw [hv.2.1, hv.2.2, moment_neg src S (inp.tree.center b 0) (inp.tree.center b 0),
      moment_neg src S (inp.tree.center b 0) (x i 0)]
    have := hr (inp.tree.level b)
    field_simp
    ring
  · intro i b _ _ _
    exact map_src src _ (fun p => p.weight * (x i 0 - p.pos 0))

/-- Full quadtree with three levels: 21 boxes, 16 leaves. -/
def quad : BoxTree where
  dims := 2
  nboxes := 21
  nlevels := 3
  rootExtent := 8
  parent b := (b - 1) / 4
  child m b := if b < 5 then 4 * b + 1 + m else 0
  level b := if b = 0 then 0 else if b < 5 then 1 else 2
  center b i :=
    if b = 0 then 4
    else if b < 5 then 4 + mortonSign 2 (b - 1) i * 2
    else 4 + mortonSign 2 ((b - 1) / 4 - 1) i * 2 + mortonSign 2 ((b - 1) % 4) i * 1
  flags b := if b < 5 then 12 else 19
  srcCountCumul b := if b = 0 then 16 else if b < 5 then 4 else 1
  tgtMin _ _ := 0
  tgtMax _ _ := 8
  levelStart l := [0, 1, 5, 21].getD l 0

theorem quad_wf : quad.WF where
  ext_pos := by norm_num [quad]
  nboxes_pos := by decide
  level_root := by decide
  parent_root := by decide
  parent_lt := by decide
  level_parent := by decide
  level_lt := by decide
  child_lt := by decide
  child_parent := by decide +kernel
  child_inj := by decide +kernel
  parent_child := by decide +kernel
  center_child := by decide +kernel

theorem quad_levels : quad.LevelsOK where
  start_le := by decide
  lt_start := by
    intro b hb l h1 h2
    have key : ∀ l, l ≤ 3 → ∀ b, b < 21 → quad.level b < l → b < quad.levelStart l := by decide
    exact key l h2 b hb h1

def quadInput : TravInput :=
  { Boxtree.Ex.exInput with tree := quad }

theorem quadInput_ok : quadInput.OK where
  wf := quad_wf
  flags := ⟨by decide +kernel, by decide +kernel⟩
  nAway_pos := by decide
  stickOut_nonneg := by decide
  eps_small := by norm_num [quadInput, Boxtree.Ex.exInput]
  srcTgt := by decide +kernel
  srcTgtChild := fun _ _ => by decide +kernel

/-- One particle per leaf, in reverse user order. -/
def quadParticles : Particles where
  nsources := 16
  ntargets := 16
  srcStart b := b - 5
  srcCount b := if b < 5 then 0 else 1
  tgtStart b := b - 5
  tgtCount b := if b < 5 then 0 else 1
  userSourceIds j := 15 - j
  sortedTargetIds i := 15 - i

theorem quadParticles_ok : quadParticles.OK quad where
  src_le := by decide +kernel
  src_cover := by
    intro j hj
    have hj' : j < 16 := hj
    refine ⟨j + 5, by change j + 5 < 21; omega, ?_, ?_, ?_⟩
    · change hasFlag (if j + 5 < 5 then 12 else 19) 1 = true
      rw [if_neg (by omega)]; decide
    · change j + 5 - 5 ≤ j; omega
    · change j < (j + 5 - 5) + if j + 5 < 5 then 0 else 1
      rw [if_neg (by omega)]; omega
  src_disjoint := by
    intro b hb hs b' hb' hs' j h1 h2 h3 h4
    simp only [quadParticles] at h1 h2 h3 h4
    split at h2 <;> split at h4 <;> omega
  tgt_cover := by
    intro j hj
    have hj' : j < 16 := hj
    refine ⟨j + 5, by change j + 5 < 21; omega, ?_, ?_, ?_⟩
    · change hasFlag (if j + 5 < 5 then 12 else 19) 2 = true
      rw [if_neg (by omega)]; decide
    · change j + 5 - 5 ≤ j; omega
    · change j < (j + 5 - 5) + if j + 5 < 5 then 0 else 1
      rw [if_neg (by omega)]; omega
  tgt_disjoint := by
    intro b hb hs b' hb' hs' j h1 h2 h3 h4
    simp only [quadParticles] at h1 h2 h3 h4
    split at h2 <;> split at h4 <;> omega
  user_lt := by decide
  user_inj := by
    intro i hi j hj h
    simp only [quadParticles] at hi hj h
    omega
  sorted_lt := by decide

/-- Orders 1, 2, 3 on the three levels; the particles sit at the centers of the leaves. -/
def quadWrangler : Wrangler ℚ ℚ where
  kernel := .laplace
  rscaleFactor := 1
  order l := l + 1
  sources j i := quad.center (j + 5) i
  targets j i := quad.center (j + 5) i
  dipoleVec := none
  dipolesAlreadyReordered := false
  rotation := none
  cutoff := 10 ^ 8

example : quad.dims ≤ 3 ∧ 0 < quad.rootExtent ∧
    (∀ a < quad.dims, |quad.center 5 a - quad.center 5 a| ≤ quad.rad (quad.level 5)) ∧
    quadWrangler.size quad 2 = 4 := by
  decide +kernel

/-- All hypotheses of `C58_fmmlib_exact` hold together on a tree with list 2 interactions, three
different orders and permuted particles; the result is `-Σ_j w_j (x_i - y_j)`. -/
example (weights : Nat → ℚ) : ∃ trav pot, buildTraversal quadInput = .ok trav ∧
    drive quad quadParticles linLib quadWrangler trav weights = .ok pot ∧
    ∀ i, i < 16 → pot i = -∑ j ∈ Finset.range 16,
      weights j * (quad.center (20 - i) 0 - quad.center (20 - j) 0) := by
  obtain ⟨trav, htrav⟩ : ∃ trav, buildTraversal quadInput = .ok trav := ⟨_, rfl⟩
  have := C58_fmmlib_exact quadInput trav quadInput_ok quad_levels htrav rfl rfl (Or.inl rfl)
    quadParticles quadParticles_ok linLib quadWrangler
    (fun j => ⟨quad.center (20 - j), weights j, none⟩) (fun i => quad.center (20 - i))
    (fun _ _ => 0) _ _ _
    (linLib_exact quadInput quadWrangler _ quadParticles _ _ quad_wf rfl rfl
      (fun l => by simp [quadWrangler]) (by norm_num [quadWrangler])) weights
    ⟨?_, fun _ _ => rfl, fun _ _ => rfl, ?_⟩ (by intro _ _ h; cases h)
  · obtain ⟨pot, h1, h2⟩ := this
    exact ⟨trav, pot, htrav, h1, h2⟩
  · intro j hj
    have hj' : j < 16 := hj
    funext i
    change quad.center (j + 5) i = quad.center (20 - (15 - j)) i
    rw [show 20 - (15 - j) = j + 5 by omega]
  · intro i hi
    have hi' : i < 16 := hi
    funext k
    change quad.center (15 - i + 5) k = quad.center (20 - i) k
    rw [show 15 - i + 5 = 20 - i by omega]

end Ex
end Boxtree.FmmLib
