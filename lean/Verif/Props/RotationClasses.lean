import Verif.Spec.RotationClasses
import Verif.Props.TranslationClasses

set_option linter.unusedSimpArgs false
set_option linter.unusedVariables false

/-!
# C42: rotation classes
-/

namespace Boxtree
open BoxTree Tools

/-! ### The numbering loop -/

/-- State of the loop after the classes in `done`. -/
structure RotInv {A : Type} [DecidableEq A] (angle : List ℤ → A) (n dims : Nat) (done : List Nat)
    (st : RotState A) : Prop where
  dict : ∀ a k, st.dict.lookup a = some k ↔ st.angles[k]? = some a
  nodup : st.angles.Nodup
  map : ∀ c ∈ done, ∃ k : Nat, st.map c = k ∧
    st.angles[k]? = some (angle (reduceVec (classToVec n dims c)))
  used : ∀ a ∈ st.angles, ∃ c ∈ done, angle (reduceVec (classToVec n dims c)) = a

theorem rot_step {A : Type} [DecidableEq A] (angle : List ℤ → A) (n dims : Nat) (done : List Nat)
    (st : RotState A) (inv : RotInv angle n dims done st) (cls : Nat)
    (hnz : ∃ e ∈ reduceVec (classToVec n dims cls), e ≠ 0) :
    ∃ st', rotStep angle n dims st cls = .ok st' ∧ RotInv angle n dims (done ++ [cls]) st' := by
  have hall : ((reduceVec (classToVec n dims cls)).all fun e => decide (e = 0)) = false := by
    rw [List.all_eq_false]
    obtain ⟨e, he, hne⟩ := hnz
    exact ⟨e, he, by simpa using hne⟩
  unfold rotStep
  simp only [hall, Bool.false_eq_true, if_false]
  generalize ha : angle (reduceVec (classToVec n dims cls)) = a
  cases hl : st.dict.lookup a with
  | some rot =>
    refine ⟨_, rfl, inv.dict, inv.nodup, ?_, ?_⟩
    · intro c hc
      by_cases h : c = cls
      · subst h
        exact ⟨rot, by simp, by rw [ha]; exact (inv.dict a rot).1 hl⟩
      · rw [List.mem_append, List.mem_singleton] at hc
        simp only [Function.update_of_ne h]
        exact inv.map c (hc.resolve_right h)
    · intro b hb
      obtain ⟨c, hc, h⟩ := inv.used b hb
      exact ⟨c, List.mem_append_left _ hc, h⟩
  | none =>
    have hnot : a ∉ st.angles := by
      intro hm
      obtain ⟨k, hk⟩ := List.mem_iff_getElem?.1 hm
      rw [(inv.dict a k).2 hk] at hl
      cases hl
    refine ⟨_, rfl, ?_, ?_, ?_, ?_⟩
    · intro b k
      simp only [List.lookup_cons]
      by_cases h : b = a
      · subst h
        simp only [BEq.rfl, Option.some.injEq]
        constructor
        · rintro rfl; simp
        · intro hk
          rcases Nat.lt_trichotomy k st.angles.length with h1 | h1 | h1
          · rw [List.getElem?_append_left h1] at hk
            exact absurd (List.mem_of_getElem? hk) hnot
          · exact h1.symm
          · rw [List.getElem?_eq_none (by simp; omega)] at hk; cases hk
      · have : (b == a) = false := by simpa using h
        simp only [this, inv.dict]
        constructor
        · intro hk
          rw [List.getElem?_append_left (List.getElem?_eq_some_iff.1 hk).1]; exact hk
        · intro hk
          rcases Nat.lt_trichotomy k st.angles.length with h1 | h1 | h1
          · rwa [List.getElem?_append_left h1] at hk
          · subst h1
            simp at hk
            exact absurd hk.symm h
          · rw [List.getElem?_eq_none (by simp; omega)] at hk; cases hk
    · simp only
      rw [List.nodup_append]
      refine ⟨inv.nodup, by simp, ?_⟩
      intro x hx y hy
      rw [List.mem_singleton] at hy
      subst hy
      rintro rfl
      exact hnot hx
    · intro c hc
      by_cases h : c = cls
      · subst h
        exact ⟨st.angles.length, by simp, by simp [ha]⟩
      · rw [List.mem_append, List.mem_singleton] at hc
        simp only [Function.update_of_ne h]
        obtain ⟨k, h1, h2⟩ := inv.map c (hc.resolve_right h)
        refine ⟨k, h1, ?_⟩
        rw [List.getElem?_append_left (List.getElem?_eq_some_iff.1 h2).1]
        exact h2
    · intro b hb
      simp only [List.mem_append, List.mem_singleton] at hb
      rcases hb with hb | rfl
      · obtain ⟨c, hc, h⟩ := inv.used b hb
        exact ⟨c, List.mem_append_left _ hc, h⟩
      · exact ⟨cls, by simp, ha⟩

theorem rot_fold {A : Type} [DecidableEq A] (angle : List ℤ → A) (n dims : Nat) (l : List Nat) :
    ∀ (done : List Nat) (st : RotState A), RotInv angle n dims done st →
    (∀ cls ∈ l, ∃ e ∈ reduceVec (classToVec n dims cls), e ≠ 0) →
    ∃ st', l.foldlM (rotStep angle n dims) st = .ok st' ∧
      RotInv angle n dims (done ++ l) st' := by
  induction l with
  | nil => intro done st inv _; exact ⟨st, rfl, by simpa using inv⟩
  | cons c l ih =>
    intro done st inv hnz
    obtain ⟨st1, h1, inv1⟩ := rot_step angle n dims done st inv c (hnz c (by simp))
    obtain ⟨st2, h2, inv2⟩ := ih (done ++ [c]) st1 inv1 (fun x hx => hnz x (by simp [hx]))
    refine ⟨st2, ?_, by simpa using inv2⟩
    rw [List.foldlM_cons, h1]
    exact h2

/-! ### Angles -/

theorem length_classToVec (n : Nat) : ∀ d c, (classToVec n d c).length = d
  | 0, _ => rfl
  | d + 1, c => by rw [classToVec, List.length_cons, length_classToVec n d]

theorem gcd_fold_dvd (vs : List ℤ) : ∀ g : Nat,
    (vs.foldl (fun g e => Nat.gcd g e.natAbs) g) ∣ g ∧
    ∀ e ∈ vs, (vs.foldl (fun g e => Nat.gcd g e.natAbs) g) ∣ e.natAbs := by
  induction vs with
  | nil => intro g; simp
  | cons v vs ih =>
    intro g
    obtain ⟨h1, h2⟩ := ih (Nat.gcd g v.natAbs)
    refine ⟨h1.trans (Nat.gcd_dvd_left _ _), ?_⟩
    intro e he
    rcases List.mem_cons.1 he with rfl | he
    · exact h1.trans (Nat.gcd_dvd_right _ _)
    · exact h2 e he

theorem vecGcd_dvd (v : List ℤ) : ∀ e ∈ v, (vecGcd v : ℤ) ∣ e := by
  cases v with
  | nil => simp
  | cons a vs =>
    intro e he
    obtain ⟨h1, h2⟩ := gcd_fold_dvd vs a.natAbs
    rw [← Int.dvd_natAbs]
    rcases List.mem_cons.1 he with rfl | he
    · exact_mod_cast h1
    · exact_mod_cast h2 e he

theorem reduceVec_mul (v : List ℤ) (i : Nat) :
    (reduceVec v).getD i 0 * (vecGcd v : ℤ) = v.getD i 0 := by
  by_cases h : i < v.length
  · rw [List.getD_eq_getElem _ _ (by simpa [reduceVec] using h), List.getD_eq_getElem _ _ h]
    simp only [reduceVec, List.getElem_map]
    exact Int.ediv_mul_cancel (vecGcd_dvd v _ (List.getElem_mem _))
  · rw [List.getD_eq_default _ _ (by simpa [reduceVec] using h),
      List.getD_eq_default _ _ (by omega)]
    simp

/-- In exact arithmetic, `arccos(vec[-1] / norm(vec))` is the angle to the last axis. -/
theorem exactAngle_eq (v : List ℤ) (hv : v ≠ []) :
    exactAngle v = InnerProductGeometry.angle
      (euclid v.length fun i => ((v.getD i 0 : ℤ) : ℝ)) (lastAxis v.length) := by
  have hlen : 0 < v.length := List.length_pos_iff.2 hv
  unfold exactAngle InnerProductGeometry.angle
  have hsum : ∀ (f : Nat → ℝ), (∑ i : Fin v.length, f i * (if (i : Nat) + 1 = v.length then 1 else 0)) =
      f (v.length - 1) := by
    intro f
    rw [Finset.sum_eq_single (⟨v.length - 1, by omega⟩ : Fin v.length)]
    · rw [if_pos (by simp; omega), mul_one]
    · intro b _ hb
      rw [if_neg, mul_zero]
      intro h
      apply hb
      ext
      simp
      omega
    · intro h; exact absurd (Finset.mem_univ _) h
  have hn2 : ‖lastAxis v.length‖ = 1 := by
    rw [EuclideanSpace.norm_eq]
    have := hsum (fun _ => 1)
    have e : (∑ i : Fin v.length, ‖(lastAxis v.length) i‖ ^ 2) = 1 := by
      rw [← this]
      apply Finset.sum_congr rfl
      intro i _
      simp only [lastAxis, euclid]
      split <;> simp
    rw [e, Real.sqrt_one]
  have hn1 : ‖euclid v.length fun i => ((v.getD i 0 : ℤ) : ℝ)‖ =
      Real.sqrt ((v.map fun e : ℤ => (e : ℝ) ^ 2).sum) := by
    rw [EuclideanSpace.norm_eq]
    congr 1
    have e : (v.map fun e : ℤ => (e : ℝ) ^ 2).sum =
        ∑ i : Fin v.length, ((v.getD i 0 : ℤ) : ℝ) ^ 2 := by
      rw [← List.sum_ofFn]
      congr 1
      apply List.ext_getElem
      · simp
      · intro i h1 h2
        simp at h1
        simp [h1]
    rw [e]
    apply Finset.sum_congr rfl
    intro i _
    simp [euclid]
  have hin : inner ℝ (euclid v.length fun i => ((v.getD i 0 : ℤ) : ℝ)) (lastAxis v.length) =
      ((v.getLast?.getD 0 : ℤ) : ℝ) := by
    have h := hsum fun i => ((v.getD i 0 : ℤ) : ℝ)
    rw [PiLp.inner_apply]
    have hl : v.getLast?.getD 0 = v.getD (v.length - 1) 0 := by
      rw [List.getLast?_eq_getElem?]; rfl
    rw [hl, ← h]
    apply Finset.sum_congr rfl
    intro i _
    simp [euclid, lastAxis, mul_comm]
  rw [hn1, hn2, hin, mul_one]

/-- Scaling a vector by a positive number keeps its angle. -/
theorem angle_scale (d : Nat) (f g : Nat → ℝ) (s : ℝ) (hs : 0 < s) (h : ∀ i < d, f i = s * g i)
    (y : EuclideanSpace ℝ (Fin d)) :
    InnerProductGeometry.angle (euclid d f) y = InnerProductGeometry.angle (euclid d g) y := by
  have : euclid d f = s • euclid d g := by
    ext i
    simp [euclid, h i i.2]
  rw [this, InnerProductGeometry.angle_smul_left_of_pos _ _ hs]

section
variable {inp : TravInput} {trav : Traversal}

/-- A list 2 pair does not have equal centers, so its class's vector is not zero. -/
theorem list2_ne (ok : inp.OK) (h : buildTraversal inp = .ok trav) (tgt src : Nat)
    (ht : tgt ∈ trav.ttpBoxes) (hs : src ∈ trav.list2.rowFor trav.ttpBoxes tgt) :
    ∃ i < inp.tree.dims, inp.tree.center tgt i - inp.tree.center src i ≠ 0 := by
  obtain ⟨hsl, hlev, hfar, hnear⟩ := ((C05_list2_exact inp trav ok h tgt ht).2 src).1 hs
  by_contra hc
  push Not at hc
  apply hfar
  intro i hi
  have h0 := hc i hi
  have hr := ok.wf.rad_pos (inp.tree.level tgt)
  have hn : (0 : ℚ) ≤ ((inp.nAway - 1 : Nat) : ℚ) := Nat.cast_nonneg _
  have e : inp.tree.center tgt i = inp.tree.center src i := by linarith
  simp only [BoxTree.lo, BoxTree.hi, width, hlev, e]
  constructor <;> nlinarith

/-- Everything about one list 2 pair: its class, and the angle of the class's reduced vector. -/
theorem rot_pair (ok : inp.OK) (h : buildTraversal inp = .ok trav) (cls : List ℤ)
    (hget : ∀ p < trav.list2.lists.length, classOfPair inp.tree inp.nAway false trav.list2.starts
        trav.list2.lists trav.ttpBoxes p = some (cls.getD p 0))
    (p : Nat) (hp : p < trav.list2.lists.length) :
    ∃ j < trav.ttpBoxes.length, trav.list2.starts.getD j 0 ≤ p ∧
      p < trav.list2.starts.getD (j + 1) 0 ∧ ∃ c : Nat, cls.getD p 0 = c ∧
        c < nClassesPerLevel inp.nAway inp.tree.dims ∧
        (∃ e ∈ reduceVec (classToVec inp.nAway inp.tree.dims c), e ≠ 0) ∧
        exactAngle (reduceVec (classToVec inp.nAway inp.tree.dims c)) =
          pairAngle inp.tree (trav.ttpBoxes.getD j 0) (trav.list2.lists.getD p 0) := by
  obtain ⟨j, hj, h1, h2, hent, htm, c, hc, hcp, htc, hvec⟩ := classOfPair_eq ok h false p hp
  rw [hget p hp] at hcp
  simp only [Bool.false_eq_true, if_false, Option.some.injEq] at hcp
  refine ⟨j, hj, h1, h2, c, hcp, hc, ?_⟩
  generalize trav.ttpBoxes.getD j 0 = tgt at *
  generalize trav.list2.lists.getD p 0 = src at *
  obtain ⟨i0, hi0, hne⟩ := list2_ne ok h tgt src htm hent
  set v := classToVec inp.nAway inp.tree.dims c with hv
  have hvl : v.length = inp.tree.dims := length_classToVec _ _ _
  have hrl : (reduceVec v).length = inp.tree.dims := by simp [reduceVec, hvl]
  have hvne : v.getD i0 0 ≠ 0 := by
    intro h0
    have := hvec i0 hi0
    rw [h0] at this
    simp at this
    exact hne this.symm
  have hrne : (reduceVec v).getD i0 0 ≠ 0 := by
    intro h0
    apply hvne
    rw [← reduceVec_mul, h0, zero_mul]
  have hg : 0 < (vecGcd v : ℤ) := by
    rcases Nat.eq_zero_or_pos (vecGcd v) with h0 | h0
    · exfalso
      apply hvne
      rw [← reduceVec_mul, h0]; simp
    · exact_mod_cast h0
  refine ⟨⟨(reduceVec v).getD i0 0, ?_, hrne⟩, ?_⟩
  · rw [List.getD_eq_getElem _ _ (by omega)]; exact List.getElem_mem _
  · rw [exactAngle_eq _ (by intro h0; rw [h0] at hrl; simp at hrl; omega), hrl]
    unfold pairAngle
    symm
    have hgr : (0 : ℝ) < (vecGcd v : ℤ) := by exact_mod_cast hg
    have hE : (0 : ℝ) < ((inp.tree.rootExtent / 2 ^ inp.tree.level tgt : ℚ) : ℝ) := by
      have := ok.wf.ext_pos
      have : (0 : ℚ) < inp.tree.rootExtent / 2 ^ inp.tree.level tgt := by positivity
      exact_mod_cast this
    apply angle_scale _ _ _ _ (mul_pos hgr hE)
    intro i hi
    rw [← hvec i hi, ← reduceVec_mul v i]
    push_cast
    ring

/-- **C42**: for every traversal whose class numbers fit in 32 bits, if the builder returns (its
assertion on the number of classes holds), then every list 2 pair, given as entry `p` of row `j`,
has a valid class number, the angle stored for that class is the angle between the pair's
translation vector and the last axis, two pairs have the same class exactly if they have the same
angle, and every class occurs. -/
theorem C42_rotation_classes (ok : inp.OK) (h : buildTraversal inp = .ok trav)
    (hfit : (4 * inp.nAway + 3) ^ inp.tree.dims ≤ 2 ^ 31) [DecidableEq ℝ] :
    (buildRotationClasses exactAngle inp.tree inp.nAway trav =
        .error "AssertionError: too many classes" ∨
      ∃ rc, buildRotationClasses exactAngle inp.tree inp.nAway trav = .ok rc) ∧
    ∀ rc, buildRotationClasses exactAngle inp.tree inp.nAway trav = .ok rc →
      rc.classes.length = trav.list2.lists.length ∧
      (∀ j < trav.ttpBoxes.length, ∀ p, trav.list2.starts.getD j 0 ≤ p →
        p < trav.list2.starts.getD (j + 1) 0 →
        ∃ k : Nat, rc.classes.getD p 0 = k ∧ rc.angles[k]? =
          some (pairAngle inp.tree (trav.ttpBoxes.getD j 0) (trav.list2.lists.getD p 0))) ∧
      (∀ j < trav.ttpBoxes.length, ∀ p, trav.list2.starts.getD j 0 ≤ p →
        p < trav.list2.starts.getD (j + 1) 0 →
        ∀ j' < trav.ttpBoxes.length, ∀ p', trav.list2.starts.getD j' 0 ≤ p' →
        p' < trav.list2.starts.getD (j' + 1) 0 →
        (rc.classes.getD p 0 = rc.classes.getD p' 0 ↔
          pairAngle inp.tree (trav.ttpBoxes.getD j 0) (trav.list2.lists.getD p 0) =
          pairAngle inp.tree (trav.ttpBoxes.getD j' 0) (trav.list2.lists.getD p' 0))) ∧
      (∀ k < rc.angles.length, ∃ p < trav.list2.lists.length, rc.classes.getD p 0 = (k : ℤ)) := by
  have F := travFields h
  obtain ⟨cls, hcls, hlen, hget⟩ := computeClasses_ok ok h false hfit
  set num := nClassesPerLevel inp.nAway inp.tree.dims with hnum
  set used := (List.range num).filter fun i : Nat => cls.any fun c => decide (c = (i : ℤ)) with hused
  have hmem : ∀ c : Nat, c ∈ used → ∃ p < trav.list2.lists.length, cls.getD p 0 = c := by
    intro c hc
    simp only [hused, List.mem_filter, List.any_eq_true, decide_eq_true_eq] at hc
    obtain ⟨-, x, hx, rfl⟩ := hc
    obtain ⟨p, hp, hpc⟩ := List.getElem_of_mem hx
    exact ⟨p, by omega, by rw [List.getD_eq_getElem _ _ hp, hpc]⟩
  have hnz : ∀ c ∈ used, ∃ e ∈ reduceVec (classToVec inp.nAway inp.tree.dims c), e ≠ 0 := by
    intro c hc
    obtain ⟨p, hp, hpc⟩ := hmem c hc
    obtain ⟨j, -, -, -, c', hc', -, hz, -⟩ := rot_pair ok h cls hget p hp
    have : c = c' := by rw [hpc] at hc'; exact_mod_cast hc'
    rwa [this]
  obtain ⟨st, hst, inv⟩ := rot_fold exactAngle inp.nAway inp.tree.dims used []
    ⟨[], [], fun _ => -1⟩ ⟨by simp, by simp, by simp, by simp⟩ hnz
  rw [List.nil_append] at inv
  have hbuild : buildRotationClasses exactAngle inp.tree inp.nAway trav =
      if 2 ^ (inp.tree.dims - 1) * (2 * inp.nAway + 1) ^ inp.tree.dims < st.angles.length then
        .error "AssertionError: too many classes"
      else .ok { classes := cls.map fun c => st.map c.toNat, angles := st.angles } := by
    unfold buildRotationClasses computeRotationClasses
    simp only [hcls, ← hnum, ← hused, hst]
  -- one pair
  have pair : ∀ p < trav.list2.lists.length, ∃ j < trav.ttpBoxes.length,
      trav.list2.starts.getD j 0 ≤ p ∧ p < trav.list2.starts.getD (j + 1) 0 ∧ ∃ k : Nat,
      (cls.map fun c => st.map c.toNat).getD p 0 = k ∧ st.angles[k]? =
        some (pairAngle inp.tree (trav.ttpBoxes.getD j 0) (trav.list2.lists.getD p 0)) := by
    intro p hp
    obtain ⟨j, hj, h1, h2, c, hc, hcn, -, ha⟩ := rot_pair ok h cls hget p hp
    have hcu : c ∈ used := by
      simp only [hused, List.mem_filter, List.any_eq_true, decide_eq_true_eq, List.mem_range]
      refine ⟨hcn, _, ?_, hc⟩
      rw [List.getD_eq_getElem _ _ (by omega)]; exact List.getElem_mem _
    obtain ⟨k, hk1, hk2⟩ := inv.map c hcu
    refine ⟨j, hj, h1, h2, k, ?_, by rw [hk2, ha]⟩
    rw [List.getD_eq_getElem _ _ (by simpa [hlen] using hp), List.getElem_map]
    rw [List.getD_eq_getElem _ _ (by omega)] at hc
    rw [hc, Int.toNat_natCast, hk1]
  have inRow : ∀ j < trav.ttpBoxes.length, ∀ p, trav.list2.starts.getD j 0 ≤ p →
      p < trav.list2.starts.getD (j + 1) 0 → p < trav.list2.lists.length ∧ ∃ k : Nat,
      (cls.map fun c => st.map c.toNat).getD p 0 = k ∧ st.angles[k]? =
        some (pairAngle inp.tree (trav.ttpBoxes.getD j 0) (trav.list2.lists.getD p 0)) := by
    intro j hj p h1 h2
    have hlt : p < trav.list2.lists.length := by
      rw [F.list2] at h2 ⊢; exact csr_lt_length _ p j (by simpa using hj) h2
    obtain ⟨j', hj', h1', h2', k, hk⟩ := pair p hlt
    have : j = j' := by
      rw [F.list2] at h1 h2 h1' h2'
      exact csr_row_unique _ p j j' (by simpa using hj) (by simpa using hj') h1 h2 h1' h2'
    subst this
    exact ⟨hlt, k, hk⟩
  constructor
  · rw [hbuild]
    split
    · exact Or.inl rfl
    · exact Or.inr ⟨_, rfl⟩
  intro rc hrc
  rw [hbuild] at hrc
  split at hrc
  · cases hrc
  cases hrc
  refine ⟨by simpa using hlen, fun j hj p h1 h2 => (inRow j hj p h1 h2).2, ?_, ?_⟩
  · intro j hj p h1 h2 j' hj' p' h1' h2'
    obtain ⟨-, k, hk, ha⟩ := inRow j hj p h1 h2
    obtain ⟨-, k', hk', ha'⟩ := inRow j' hj' p' h1' h2'
    simp only
    rw [hk, hk']
    constructor
    · intro he
      have : k = k' := by exact_mod_cast he
      subst this
      rw [ha] at ha'
      exact Option.some.inj ha'
    · intro he
      rw [he] at ha
      have hkl := (List.getElem?_eq_some_iff.1 ha).1
      rw [(List.getElem?_inj hkl inv.nodup).1 (ha.trans ha'.symm)]
  · intro k hk
    simp only at hk ⊢
    obtain ⟨c, hc, hca⟩ := inv.used _ (List.getElem_mem hk)
    obtain ⟨p, hp, hpc⟩ := hmem c hc
    refine ⟨p, hp, ?_⟩
    obtain ⟨k', hk1, hk2⟩ := inv.map c hc
    have e : st.angles[k']? = st.angles[k]? := by
      rw [hk2, hca, List.getElem?_eq_getElem hk]
    have hkl := (List.getElem?_eq_some_iff.1 hk2).1
    have : k' = k := (List.getElem?_inj hkl inv.nodup).1 e
    rw [List.getD_eq_getElem _ _ (by simpa [hlen] using hp), List.getElem_map]
    rw [List.getD_eq_getElem _ _ (by omega)] at hpc
    rw [hpc, Int.toNat_natCast, hk1, this]

end

/-- Rotation classes of an input with the sign of the last coordinate for the angle (exact in one
dimension), or `none` if anything raised. -/
def exRotation (inp : TravInput) : Option (List Nat × List ℤ × List ℤ) :=
  match buildTraversal inp with
  | .ok trav =>
    match buildRotationClasses (fun v => (v.getLast?.getD 0).sign) inp.tree inp.nAway trav with
    | .ok rc => some (trav.list2.lists, rc.classes, rc.angles)
    | .error _ => none
  | .error _ => none

/-- The example traversal (see `Ex.exInput_ok`) has list 2 pairs of both angles and meets all
hypotheses. -/
example : (4 * Ex.exInput.nAway + 3) ^ Ex.exInput.tree.dims ≤ 2 ^ 31 ∧
    exRotation Ex.exInput = some ([5, 6, 6, 3, 3, 4], [0, 0, 0, 1, 1, 1], [-1, 1]) :=
  ⟨by decide, by decide +kernel⟩

end Boxtree
