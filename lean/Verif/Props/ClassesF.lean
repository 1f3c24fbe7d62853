import Verif.Lemmas.ClassesF
import Verif.Props.DeviceTests

set_option linter.unusedVariables false

/-!
# C67: translation and rotation classes computed in floating point arithmetic
-/

namespace Boxtree
open BoxTree Build

section
variable {inp : TravInput} {trav : Traversal} {fl hf : ℚ → ℚ} {u M : ℚ} {c0 : Nat → ℚ}

/-- **C67**, the vectors: from the stored centers of a list 2 pair the device finds the integer
vector that leads exactly from source center to target center. -/
theorem C67_vector (h : Rounds fl u) (hd : 0 < inp.tree.dims)
    (hF : FineEnough inp.tree c0 u M inp.nAway) (ok : inp.OK)
    (hb : buildTraversal inp = .ok trav) (tgt src : Nat) (ht : tgt ∈ trav.ttpBoxes)
    (hs : src ∈ trav.list2.rowFor trav.ttpBoxes tgt) (i : Nat) (hi : i < inp.tree.dims) :
    inp.tree.center tgt i - inp.tree.center src i =
      (normVecF fl inp.tree c0 (inp.tree.level src) src tgt i : ℚ) * inp.tree.width tgt := by
  obtain ⟨hlev, hv⟩ := C41_vector_in_range ok hb tgt src ht hs
  obtain ⟨v, v1, v2, v3⟩ := hv i hi
  have hsl := (((C05_list2_exact inp trav ok hb tgt ht).2 src).1 hs).1
  rw [normVecF_eq h ok.wf hd hF hsl ((travFields hb).ttp_lt ht) hi v v1 v2
    (by rw [v3, hlev]; rfl)]
  exact v3

/-- **C67**, the classes: translation classes, and with them rotation classes, do not depend on
rounding. -/
theorem C67_same_classes (h : Rounds fl u) (hd : 0 < inp.tree.dims)
    (hF : FineEnough inp.tree c0 u M inp.nAway) (ok : inp.OK)
    (hb : buildTraversal inp = .ok trav) (perLevel : Bool) :
    computeClasses inp.tree inp.nAway perLevel trav.list2.starts trav.list2.lists trav.ttpBoxes
        (normVecF fl inp.tree c0) =
      computeClasses inp.tree inp.nAway perLevel trav.list2.starts trav.list2.lists trav.ttpBoxes ∧
    ∀ (A : Type) [DecidableEq A] (angle : List ℤ → A),
      buildRotationClasses angle inp.tree inp.nAway trav (normVecF fl inp.tree c0) =
        buildRotationClasses angle inp.tree inp.nAway trav := by
  have key : ∀ pl, computeClasses inp.tree inp.nAway pl trav.list2.starts trav.list2.lists
      trav.ttpBoxes (normVecF fl inp.tree c0) =
      computeClasses inp.tree inp.nAway pl trav.list2.starts trav.list2.lists trav.ttpBoxes := by
    intro pl
    have e : ((List.range trav.list2.lists.length).map fun p =>
        classOfPair inp.tree inp.nAway pl trav.list2.starts trav.list2.lists trav.ttpBoxes p
          (normVecF fl inp.tree c0)) =
        (List.range trav.list2.lists.length).map fun p =>
        classOfPair inp.tree inp.nAway pl trav.list2.starts trav.list2.lists trav.ttpBoxes p := by
      apply List.map_congr_left
      intro p hp
      rw [List.mem_range] at hp
      have F := travFields hb
      set rows := trav.ttpBoxes.map (list2Kernel inp.tree inp.params trav.slnws.row) with hrows
      have hl2 : trav.list2 = buildLists rows := F.list2
      have hrl : rows.length = trav.ttpBoxes.length := by simp [hrows]
      obtain ⟨j, hbs, hj, h1, h2⟩ := csr_bsearch rows p (1 + rows.length)
        (by rw [hl2] at hp; exact hp) le_rfl
      have hent := csr_entry rows p j hj h1 h2
      rw [← hl2] at hbs h1 h2 hent
      rw [hrl] at hbs hj
      have htm : trav.ttpBoxes.getD j 0 ∈ trav.ttpBoxes := by
        rw [List.getD_eq_getElem _ _ hj]; exact List.getElem_mem _
      have hrow : trav.list2.row j =
          trav.list2.rowFor trav.ttpBoxes (trav.ttpBoxes.getD j 0) := by
        rw [F.row2, if_pos htm, hl2, row_build _ _ (by omega), List.getD_eq_getElem _ _ (by omega),
          List.getD_eq_getElem _ _ hj]
        simp [hrows]
      rw [hrow] at hent
      unfold classOfPair
      simp only [hbs, Int.toNat_natCast]
      rw [translationClass_congr inp.tree.dims inp.nAway
        (v := normVecF fl inp.tree c0 _ _ _) (w := normVec inp.tree _ _ _)]
      intro i hi
      have hv := C67_vector h hd hF ok hb _ _ htm hent i hi
      have hlev := (C41_vector_in_range ok hb _ _ htm hent).1
      have hr := ok.wf.rad_pos (inp.tree.level (trav.ttpBoxes.getD j 0))
      unfold normVec
      rw [hv, hlev]
      change _ = rint (_ * inp.tree.width (trav.ttpBoxes.getD j 0) /
        inp.tree.width (trav.ttpBoxes.getD j 0))
      rw [mul_div_assoc, div_self (by unfold width; positivity), mul_one, rint_intCast]
    unfold computeClasses
    rw [e]
  refine ⟨key perLevel, fun A _ angle => ?_⟩
  unfold buildRotationClasses
  rw [key false]

/-- **C67** (compare C41): if the smallest boxes are large compared with rounding errors, the
builder of translation classes succeeds although the device and the host round.  Classes are
numbered without gaps; two list 2 pairs have the same class exactly if they are on the same level
and their boxes lie exactly the same way; classes of a level are consecutive.  The stored distance
vector is accurate to four roundings, and differs from the difference of the stored centers by at
most the errors of these. -/
theorem C67_translation_classes (h : Rounds fl u) (hh : Rounds hf u) (hd : 0 < inp.tree.dims)
    (hF : FineEnough inp.tree c0 u M inp.nAway) (ok : inp.OK)
    (hb : buildTraversal inp = .ok trav)
    (hfit : (4 * inp.nAway + 3) ^ inp.tree.dims ≤ 2 ^ 31) :
    ∃ tc total, buildTranslationClasses inp.tree inp.nAway trav true (normVecF fl inp.tree c0)
        (classDistF fl hf inp.tree) = .ok tc ∧
      tc.classes.length = trav.list2.lists.length ∧
      tc.levelStarts inp.tree.nlevels = some total ∧
      (∀ j < trav.ttpBoxes.length, ∀ p, trav.list2.starts.getD j 0 ≤ p →
        p < trav.list2.starts.getD (j + 1) 0 →
        ∃ k : Nat, tc.classes.getD p 0 = k ∧ k < total ∧
          (∃ d, tc.distances k = some d ∧ ∀ i < inp.tree.dims,
            |d i - (inp.tree.center (trav.ttpBoxes.getD j 0) i -
              inp.tree.center (trav.list2.lists.getD p 0) i)| ≤
              4 * u * |inp.tree.center (trav.ttpBoxes.getD j 0) i -
                inp.tree.center (trav.list2.lists.getD p 0) i| ∧
            |d i - (inp.tree.storedCenter fl c0 (trav.ttpBoxes.getD j 0) i -
              inp.tree.storedCenter fl c0 (trav.list2.lists.getD p 0) i)| ≤
              (6 * inp.tree.nlevels + 8) * u * M) ∧
          ∃ lo hi, tc.levelStarts (inp.tree.level (trav.ttpBoxes.getD j 0)) = some lo ∧
            tc.levelStarts (inp.tree.level (trav.ttpBoxes.getD j 0) + 1) = some hi ∧
            lo ≤ k ∧ k < hi) ∧
      (∀ k < total, ∃ p < trav.list2.lists.length, tc.classes.getD p 0 = (k : ℤ)) ∧
      (∀ j < trav.ttpBoxes.length, ∀ p, trav.list2.starts.getD j 0 ≤ p →
        p < trav.list2.starts.getD (j + 1) 0 →
        ∀ j' < trav.ttpBoxes.length, ∀ p', trav.list2.starts.getD j' 0 ≤ p' →
        p' < trav.list2.starts.getD (j' + 1) 0 →
        (tc.classes.getD p 0 = tc.classes.getD p' 0 ↔
          inp.tree.level (trav.ttpBoxes.getD j 0) = inp.tree.level (trav.ttpBoxes.getD j' 0) ∧
          ∀ i < inp.tree.dims,
            inp.tree.center (trav.ttpBoxes.getD j 0) i -
                inp.tree.center (trav.list2.lists.getD p 0) i =
              inp.tree.center (trav.ttpBoxes.getD j' 0) i -
                inp.tree.center (trav.list2.lists.getD p' 0) i)) := by
  obtain ⟨tc, total, h1, h2, h3, h4, h5, h6⟩ := C41_translation_classes ok hb hfit
  have hc := (C67_same_classes h hd hF ok hb true).1
  have F := travFields hb
  -- the rounded result
  have key : ∃ tc', buildTranslationClasses inp.tree inp.nAway trav true
      (normVecF fl inp.tree c0) (classDistF fl hf inp.tree) = .ok tc' ∧ tc'.classes = tc.classes ∧
      tc'.levelStarts = tc.levelStarts ∧ ∀ k,
      (tc.distances k = none ∧ tc'.distances k = none) ∨
      ∃ (v : Nat → ℤ) (l : Nat), tc.distances k = some (fun a => classDist inp.tree (v a) l) ∧
        tc'.distances k = some fun a => classDistF fl hf inp.tree (v a) l := by
    unfold buildTranslationClasses at h1 ⊢
    rw [hc]
    cases hcc : computeClasses inp.tree inp.nAway true trav.list2.starts trav.list2.lists
        trav.ttpBoxes with
    | error e => rw [hcc] at h1; cases h1
    | ok cls =>
      rw [hcc] at h1
      simp only [Except.ok.injEq] at h1
      have S := SameNumbers.fold (t := inp.tree) (dist := classDistF fl hf inp.tree) inp.nAway
        (fun i : Nat => cls.any fun c => decide (c = (i : ℤ)))
        (List.range (nClassesPerLevel inp.nAway inp.tree.dims * inp.tree.nlevels))
        ClsState.init ClsState.init ⟨rfl, rfl, rfl, rfl, fun k => .inl ⟨rfl, rfl⟩⟩
      subst h1
      refine ⟨_, rfl, ?_, ?_, ?_⟩
      · simp only [if_true, S.map]
      · simp only [if_true, S.starts, S.count]
      · simp only [if_true]
        exact S.dists
  obtain ⟨tc', g1, g2, g3, g4⟩ := key
  refine ⟨tc', total, g1, by rw [g2]; exact h2, by rw [g3]; exact h3, ?_, by rw [g2]; exact h5,
    by rw [g2]; exact h6⟩
  intro j hj p hp1 hp2
  obtain ⟨k, k1, k2, ⟨d, d1, d2⟩, k4⟩ := h4 j hj p hp1 hp2
  refine ⟨k, by rw [g2]; exact k1, k2, ?_, by rw [g3]; exact k4⟩
  rcases g4 k with ⟨gn, _⟩ | ⟨v, l, gv, gv'⟩
  · rw [gn] at d1; cases d1
  · refine ⟨_, gv', fun i hi => ?_⟩
    rw [gv] at d1
    have hdi := d2 i hi
    rw [← Option.some.inj d1] at hdi
    have he := classDistF_err (t := inp.tree) h hh (v i) l
    simp only at hdi
    rw [hdi] at he
    refine ⟨he, ?_⟩
    have hlt : p < trav.list2.lists.length := by
      rw [F.list2] at hp2 ⊢; exact csr_lt_length _ p j (by simpa using hj) hp2
    obtain ⟨j', hj', h1', h2', hent, htm, -⟩ := classOfPair_eq ok hb true p hlt
    have hjj : j = j' := by
      have := F.list2
      rw [F.list2] at hp1 hp2 h1' h2'
      exact csr_row_unique _ p j j' (by simpa using hj) (by simpa using hj') hp1 hp2 h1' h2'
    subst hjj
    have hsl := (((C05_list2_exact inp trav ok hb _ htm).2 _).1 hent).1
    have htl := F.ttp_lt htm
    have ea := storedCenter_err h ok.wf hd hF htl hi
    have eb := storedCenter_err h ok.wf hd hF hsl hi
    have fa := (hF.err_le h ok.wf hd (ok.wf.level_lt _ htl)).1
    have fb := (hF.err_le h ok.wf hd (ok.wf.level_lt _ hsl)).1
    have hB := (diff_err h ok.wf hd hF htl hsl hi).2
    have hu := h.u_nonneg
    generalize inp.tree.center (trav.ttpBoxes.getD j 0) i = x at *
    generalize inp.tree.center (trav.list2.lists.getD p 0) i = y at *
    generalize inp.tree.storedCenter fl c0 (trav.ttpBoxes.getD j 0) i = x' at *
    generalize inp.tree.storedCenter fl c0 (trav.list2.lists.getD p 0) i = y' at *
    generalize classDistF fl hf inp.tree (v i) l = D at *
    have hx := ea.trans fa
    have hy := eb.trans fb
    have hm : 4 * u * |x - y| ≤ 4 * u * M := mul_le_mul_of_nonneg_left hB (by linarith)
    have e : (6 * (inp.tree.nlevels : ℚ) + 8) * u * M =
      4 * u * M + (2 + 3 * inp.tree.nlevels) * u * M + (2 + 3 * inp.tree.nlevels) * u * M := by ring
    rw [e]
    rw [abs_le] at *
    constructor <;> linarith [hx.1, hx.2, hy.1, hy.2, he.1, he.2]

end

namespace Ex

/-- Translation classes of an input from stored centers with rounding. -/
def classesF (inp : TravInput) (fl hf : ℚ → ℚ) (c0 : Nat → ℚ) :
    Option (List ℤ × Option Nat × List (List ℚ)) :=
  match buildTraversal inp with
  | .ok trav =>
    match buildTranslationClasses inp.tree inp.nAway trav true (normVecF fl inp.tree c0)
        (classDistF fl hf inp.tree) with
    | .ok tc => some (tc.classes, tc.levelStarts inp.tree.nlevels,
        (List.range ((tc.levelStarts inp.tree.nlevels).getD 0)).map fun k =>
          (List.range inp.tree.dims).map fun a => ((tc.distances k).getD fun _ => 0) a)
    | .error _ => none
  | .error _ => none

/-- The example in single precision on the device and double precision on the host. -/
example : 0 < (exInputF none).tree.dims ∧
    FineEnough (exInputF none).tree (fun _ => rootCenterF (roundEven 24) 0 16) (1 / 2 ^ 24) 24
      (exInputF none).nAway ∧ (exInputF none).OK ∧
    (4 * (exInputF none).nAway + 3) ^ (exInputF none).tree.dims ≤ 2 ^ 31 ∧
    classesF (exInputF none) (roundEven 24) (roundEven 53)
      (fun _ => rootCenterF (roundEven 24) 0 16) = some ([0, 1], some 2, [[-12], [12]]) :=
  ⟨by decide, (exInputF_rounded none).fine, exInputF_ok none, by decide, by decide +kernel⟩

/-- The host's double precision meets the demands of single precision. -/
theorem roundEven_coarser : Rounds (roundEven 53) (1 / 2 ^ 24) := by
  have h := roundEven_rounds (p := 53) (by decide)
  exact ⟨fun x => (h.err x).trans (mul_le_mul_of_nonneg_right (by norm_num) (abs_nonneg x)),
    h.scale, by norm_num⟩

/-- The example tree moved by `s`. -/
def farTree (s : ℚ) : BoxTree := { exTree with center := fun b a => exTree.center b a + s }

/-- The example far from the origin on a device with `p` significant bits. -/
def far (p : Nat) (s : ℚ) : TravInput :=
  { exInput with
    tree := farTree s
    tests := .device (Device.rounded (roundEven p) (rootTo p) (farTree s) .preciseLinf 0 (1 / 1000)
      (fun _ => rootCenterF (roundEven p) s 16) (farTree s).tgtMin (farTree s).tgtMax) }

/-- If boxes are not large compared with rounding errors, pairs of boxes that lie differently share
a class (four bits, moved by 20), or the builder raises (moved by 24). -/
theorem C67_small_boxes_fail :
    classesF (far 4 20) (roundEven 4) (roundEven 53) (fun _ => rootCenterF (roundEven 4) 20 16) =
      some ([0, 0, 1, 1], some 2, [[-8], [8]]) ∧
    (match buildTraversal (far 4 20) with
      | .ok trav => some (trav.ttpBoxes.map fun b => (trav.list2.rowFor trav.ttpBoxes b).map fun s =>
          (farTree 20).center b 0 - (farTree 20).center s 0)
      | .error _ => none) = some [[], [], [], [-8, -12], [], [8], [12], [], []] ∧
    classesF (far 4 24) (roundEven 4) (roundEven 53)
      (fun _ => rootCenterF (roundEven 4) 24 16) = none := by
  refine ⟨by decide +kernel, by decide +kernel, by decide +kernel⟩

end Ex

end Boxtree
