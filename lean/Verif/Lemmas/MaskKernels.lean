import Verif.Model.MaskKernels
import Verif.Lemmas.WorkItems
import Verif.Lemmas.LocalTree
import Verif.Lemmas.LevelStarts

/-! Kernels with shared output give the same result with every schedule. -/

namespace Boxtree.Par

section
variable {X : Type} {n : Nat} {l : Nat → List ((_ : Nat) × X)}

/-- Work items that load nothing and never store different values in one cell. -/
theorem raceFree_stores (h : ∀ i j, i < n → j < n → i ≠ j → ∀ a v v', ⟨a, v⟩ ∈ l i → ⟨a, v'⟩ ∈ l j → v = v')
    (m : Mem fun _ : Nat => X) :
    RaceFree n (fun i => thenStore (T := fun _ => X) (.pure (l i))) m :=
  raceFree_thenStore (rs := fun i => .pure (l i)) (fun _ => trivial) (fun _ _ _ _ _ _ h => h.elim)
    fun i j hi hj hij a v v' h1 h2 => h i j hi hj hij a v v' h1 h2

/-- Marks. -/
theorem launch_marks (σ : List Nat) (v : X) (h : ∀ i < n, ∀ w ∈ l i, w.2 = v) (m : Mem fun _ : Nat => X)
    (a : Nat) [Decidable (∃ i < n, ⟨a, v⟩ ∈ l i)] :
    launch σ n (fun i => thenStore (T := fun _ => X) (.pure (l i))) m a =
      if ∃ i < n, ⟨a, v⟩ ∈ l i then v else m a := by
  have hr := raceFree_stores (l := l) (n := n)
    (fun i j hi hj _ a v1 v2 h1 h2 => (h i hi _ h1).trans (h j hj _ h2).symm) m
  by_cases hex : ∃ i < n, ⟨a, v⟩ ∈ l i
  · rw [if_pos hex]
    exact launch_stored (T := fun _ => X) σ (rs := fun i => .pure (l i)) (fun _ => trivial) hr
      (fun i hi v' hv => h i hi _ hv) hex
  · rw [if_neg hex]
    refine launch_unstored (T := fun _ => X) σ (rs := fun i => .pure (l i)) (fun _ => trivial) hr
      fun i hi v' hv => hex ⟨i, hi, ?_⟩
    have e : v' = v := h i hi _ hv
    subst e
    exact hv

theorem map_upd (len : Nat) (m : Mem fun _ : Nat => X) (a : Nat) (v : X) :
    (List.range len).map (m.upd a fun _ => v) = ((List.range len).map m).set a v := by
  apply List.ext_getElem (by simp)
  intro i h1 h2
  simp only [List.getElem_map, List.getElem_range, List.getElem_set, Mem.upd, Function.update_apply]
  by_cases e : a = i
  · simp [e]
  · rw [if_neg e, if_neg fun h => e h.symm]
    exact congrArg m (List.getElem_range _).symm

theorem map_writeAll (len : Nat) (ws : List ((_ : Nat) × X)) (m : Mem fun _ : Nat => X) :
    (List.range len).map (solo (Prog.writeAll ws) m).2 =
      ws.foldl (fun out w => out.set w.1 w.2) ((List.range len).map m) := by
  induction ws generalizing m with
  | nil => rfl
  | cons w ws ih =>
    rw [List.foldl_cons, ← map_upd]
    exact ih _

/-- The work items one after the other, on a list. -/
theorem map_inOrder (len : Nat) (m : Mem fun _ : Nat => X) :
    (List.range len).map (inOrder n (fun i => thenStore (T := fun _ => X) (.pure (l i))) m) =
      (List.range n).foldl (fun out i => (l i).foldl (fun out w => out.set w.1 w.2) out)
        ((List.range len).map m) := by
  induction n with
  | zero => rfl
  | succ n ih =>
    unfold inOrder at ih ⊢
    rw [List.range_succ, List.foldl_append, List.foldl_append, ← ih]
    exact map_writeAll ..

end

end Boxtree.Par

namespace Boxtree.Dist
open Boxtree.Par Tools

theorem addParentsRun_eq (σ : List Nat) (t : BoxTree) (current : Nat → Bool) :
    addParentsRun σ t current = addParents t current := by
  classical
  funext a
  unfold addParentsRun addParents
  rw [launch_marks σ true]
  · rw [Bool.eq_iff_iff]
    simp
    constructor
    · rintro ⟨i, hi, hc, h⟩
      exact ⟨i, hi, hc, h.symm⟩
    · rintro ⟨i, hi, hc, h⟩
      exact ⟨i, hi, hc, h.symm⟩
  · intro i _ w hw
    split at hw
    · simp at hw; rw [hw]
    · cases hw

theorem ancestorLoopRun_eq (σ : Nat → List Nat) (t : BoxTree) : ∀ (n : Nat) (anc last : Nat → Bool),
    ancestorLoopRun σ t n anc last = ancestorLoop t n anc last := by
  intro n
  induction n with
  | zero => intro anc last; rw [ancestorLoopRun, ancestorLoop]
  | succ n ih =>
    intro anc last
    rw [ancestorLoopRun, ancestorLoop]
    simp only [addParentsRun_eq, ih]

theorem addInteractionRun_eq (σ : List Nat) (boxList : List Nat) (mask : Nat → Bool) (lists : BuiltList)
    (src : Nat → Bool) :
    addInteractionRun σ boxList mask lists src = addInteractionBoxes boxList mask lists src := by
  classical
  funext a
  unfold addInteractionRun addInteractionBoxes
  rw [launch_marks σ true]
  · rw [Bool.eq_iff_iff]
    have key : (∃ i < boxList.length, (⟨a, true⟩ : (_ : Nat) × Bool) ∈
        (if mask (boxList.getD i 0) = true then (lists.row i).map fun b => (⟨b, true⟩ : (_ : Nat) × Bool) else [])) ↔
        ((List.range boxList.length).any fun i => mask (boxList.getD i 0) && (lists.row i).contains a) = true := by
      rw [List.any_eq_true]
      constructor
      · rintro ⟨i, hi, h⟩
        refine ⟨i, List.mem_range.2 hi, ?_⟩
        by_cases hc : mask (boxList.getD i 0) = true
        · rw [if_pos hc] at h
          rw [hc]; simpa using h
        · rw [if_neg hc] at h; cases h
      · rintro ⟨i, hi, h⟩
        refine ⟨i, List.mem_range.1 hi, ?_⟩
        rw [Bool.and_eq_true] at h
        rw [if_pos h.1]
        simpa using h.2
    by_cases hk : ((List.range boxList.length).any fun i =>
        mask (boxList.getD i 0) && (lists.row i).contains a) = true
    · rw [if_pos (key.2 hk), hk]; simp
    · rw [if_neg (fun h => hk (key.1 h)), Bool.eq_false_iff.2 hk]; simp
  · intro i _ w hw
    split at hw
    · simp at hw; obtain ⟨b, _, rfl⟩ := hw; rfl
    · cases hw

theorem getBoxMasksRun_eq (σ : LocalSchedule) (t : BoxTree) (trav : Traversal) (ext : Bool)
    (resp : List Nat) : getBoxMasksRun σ t trav ext resp = getBoxMasks t trav ext resp := by
  unfold getBoxMasksRun getBoxMasks ancestorMaskRun ancestorMask pointSrcMaskRun pointSrcMask
    multipoleSrcMaskRun multipoleSrcMask
  simp only [ancestorLoopRun_eq, addInteractionRun_eq]
  cases trav.list3Close <;> cases trav.list4Close <;> rfl

theorem particleMaskRun_eq (σ : List Nat) (n nboxes : Nat) (boxMask : Nat → Bool)
    (starts counts : Nat → Nat) :
    particleMaskRun σ n nboxes boxMask starts counts = particleMask n nboxes boxMask starts counts := by
  unfold particleMaskRun particleMask
  rw [launch_eq, map_inOrder]
  · congr 1
    · funext out i
      split
      · rw [List.foldl_map]
      · rfl
    · apply List.ext_getElem <;> simp
  · apply raceFree_stores
    intro i j _ _ _ a v v' h1 h2
    have key : ∀ i v, (⟨a, v⟩ : (_ : Nat) × Nat) ∈ (if boxMask i = true then
        (List.range' (starts i) (counts i)).map fun pid => (⟨pid, 1⟩ : (_ : Nat) × Nat) else []) → v = 1 := by
      intro i v h
      split at h
      · simp at h; exact h.2.symm
      · cases h
    rw [key i v h1, key j v' h2]

theorem fetchParticlesRun_eq {α : Type} (σ : List Nat) (zero : α) (n : Nat) (mask scan : List Nat)
    (part : Nat → α) (p : Nat → Bool) (hm : ∀ i, i < n → p i = (mask.getD i 0 != 0))
    (hs : ∀ i, i ≤ n → scan.getD i 0 = rankOf p i) :
    fetchParticlesRun σ zero n mask scan part = fetchParticles zero n mask scan part := by
  unfold fetchParticlesRun fetchParticles
  rw [launch_eq, map_inOrder]
  · congr 1
    · funext out i
      split <;> rfl
    · apply List.ext_getElem <;> simp
  · apply raceFree_stores
    intro i j hi hj hij a v v' h1 h2
    exfalso
    have key : ∀ i < n, ∀ v, (⟨a, v⟩ : (_ : Nat) × α) ∈ (if mask.getD i 0 ≠ 0 then
        [(⟨scan.getD i 0, part i⟩ : (_ : Nat) × α)] else []) → p i = true ∧ rankOf p i = a := by
      intro i hi v h
      by_cases hne : mask.getD i 0 ≠ 0
      · rw [if_pos hne] at h
        simp only [List.mem_singleton, Sigma.mk.injEq] at h
        exact ⟨by rw [hm i hi]; simpa using hne, by rw [← hs i hi.le, ← h.1]⟩
      · rw [if_neg hne] at h; cases h
    obtain ⟨a1, a2⟩ := key i hi v h1
    obtain ⟨b1, b2⟩ := key j hj v' h2
    rcases Nat.lt_or_ge i j with h | h
    · have := rankOf_lt_of_lt a1 h; omega
    · have := rankOf_lt_of_lt b1 (by omega : j < i); omega

theorem constructLocalRun_eq {α : Type} (σ τ : List Nat) (zero : α) (n nboxes : Nat)
    (boxMask : Nat → Bool) (part : Nat → α) (starts counts cumul : Nat → Nat) :
    constructLocalRun σ τ zero n nboxes boxMask part starts counts cumul =
      constructLocal zero n nboxes boxMask part starts counts cumul := by
  unfold constructLocalRun constructLocal
  simp only [particleMaskRun_eq]
  rw [fetchParticlesRun_eq τ zero n _ _ part (maskedAt n nboxes boxMask starts counts) (fun _ _ => rfl)
    fun i hi => scan_spec n nboxes boxMask starts counts hi]

end Boxtree.Dist

namespace Boxtree
open Boxtree.Par Tools

theorem levelStartMarksRun_eq (σ : List Nat) {t : BoxTree} {boxes : List Nat} (hb : BoxListOK t boxes)
    (hw : t.WF) (hl : t.LevelsOK) : levelStartMarksRun σ t boxes = levelStartMarks t boxes := by
  unfold levelStartMarksRun levelStartMarks
  rw [launch_eq, map_inOrder]
  · congr 1
    · funext out i
      split <;> rfl
    · apply List.ext_getElem <;> simp
  · apply raceFree_stores
    intro i j hi hj hij a v v' h1 h2
    exfalso
    have key : ∀ i v, (⟨a, v⟩ : (_ : Nat) × Nat) ∈ (if isLevelLeading t boxes i = true then
        [(⟨t.level (boxes.getD i 0), i⟩ : (_ : Nat) × Nat)] else []) →
        isLevelLeading t boxes i = true ∧ a = t.level (boxes.getD i 0) := by
      intro i v h
      split at h
      · simp at h; exact ⟨‹_›, h.1⟩
      · cases h
    obtain ⟨a1, a2⟩ := key i v h1
    obtain ⟨b1, b2⟩ := key j v' h2
    have main : ∀ i j, i < j → j < boxes.length → isLevelLeading t boxes j = true →
        t.level (boxes.getD i 0) ≠ t.level (boxes.getD j 0) := by
      intro i j hij hj hlead e
      have hs := hb.levels_sorted hw hl
      rcases (isLevelLeading_iff hb hw hl hj).1 hlead with h | h
      · omega
      · rcases Nat.lt_or_ge i (j - 1) with h' | h'
        · have := pairwise_getD hs h' (by omega); omega
        · rw [show i = j - 1 by omega] at e; omega
    rcases Nat.lt_or_ge i j with h | h
    · exact main i j h hj b1 (a2.symm.trans b2)
    · exact main j i (by omega) hi a1 (b2.symm.trans a2)

/-! ### Translation classes -/

theorem applyAll_lor {l : List (Nat → Nat)} (h : ∀ f ∈ l, f = id ∨ f = fun x => x ||| 1) (x : Nat) :
    applyAll l x ≠ 0 ↔ x ≠ 0 ∨ (fun x => x ||| 1) ∈ l := by
  have h1 : ∀ x : Nat, x ||| 1 ≠ 0 := fun x e => by
    have := congrArg (fun y => y.testBit 0) e
    simp at this
  induction l generalizing x with
  | nil => simp [applyAll]
  | cons f l ih =>
    change applyAll l (f x) ≠ 0 ↔ _
    refine (ih (fun g hg => h g (by simp [hg])) (f x)).trans ?_
    rcases h f (by simp) with rfl | rfl
    · have : (fun x : Nat => x ||| 1) ≠ id := fun e => by simpa using congrFun e 0
      simp [this]
    · simp [h1]

section
variable {n : Nat} {c : Nat → Option ℤ} {m : Mem ClassVal}

theorem trace_error (p : Nat) (c : Option ℤ) :
    trace .error (classItem p c) m = if c = none then [fun x : Nat => x ||| 1] else [id, id] := by
  cases c with
  | none => simp [classItem, trace, single_self]
  | some d =>
    simp only [classItem, trace, reduceCtorEq, if_false]
    rw [single_ne _ (by simp), single_ne _ (by simp)]

theorem trace_used (p : Nat) (c : Option ℤ) (d : ℤ) :
    trace (.used d) (classItem p c) m =
      if c = none then [id] else if c = some d then [id, fun x : Nat => x ||| 1] else [id, id] := by
  cases c with
  | none =>
    simp only [classItem, trace, if_true]
    rw [single_ne _ (by simp)]
  | some e =>
    simp only [classItem, trace, reduceCtorEq, if_false, Option.some.injEq]
    rw [single_ne _ (by simp)]
    by_cases h : e = d
    · subst h; rw [single_self, if_pos rfl]
    · rw [single_ne _ (by simp; exact fun e => h e.symm), if_neg h]

theorem trace_cls (p : Nat) (c : Option ℤ) (q : Nat) :
    ∀ f : ℤ → ℤ, f ∈ (trace (ClassLoc.cls q) (classItem p c) m : List (ℤ → ℤ)) →
      f = id ∨ (p = q ∧ ∃ d : ℤ, c = some d ∧ f = fun _ => d) := by
  cases c with
  | none =>
    simp only [classItem, trace]
    rw [single_ne _ (by simp)]
    intro f hf
    simp at hf
    exact .inl hf
  | some e =>
    intro f hf
    simp only [classItem, trace, List.mem_cons, List.not_mem_nil, or_false] at hf
    rcases hf with rfl | rfl
    · by_cases h : q = p
      · subst h
        exact .inr ⟨rfl, e, rfl, single_self _ _⟩
      · exact .inl (single_ne _ (by simpa using h))
    · exact .inl (single_ne _ (by simp))

theorem mem_trace_cls (p : Nat) (d : ℤ) :
    (fun _ : ℤ => d) ∈ (trace (ClassLoc.cls p) (classItem p (some d)) m : List (ℤ → ℤ)) := by
  simp only [classItem, trace, single_self]
  simp

theorem classes_raceFree : RaceFree n (fun p => classItem p (c p)) m where
  reads := by
    intro i j _ _ _ a h
    exfalso
    cases hc : c i <;> simp only [hc, classItem, Reads] at h
  comm := by
    intro i j hi hj hij a f hf g hg x
    cases a with
    | cls q =>
      rcases trace_cls _ _ _ f hf with rfl | ⟨h1, d, _, rfl⟩
      · rfl
      · rcases trace_cls _ _ _ g hg with rfl | ⟨h2, d', _, rfl⟩
        · rfl
        · omega
    | used d =>
      have key : ∀ (k : Nat) (f : Nat → Nat), f ∈ (trace (ClassLoc.used d) (classItem k (c k)) m : List (Nat → Nat)) →
          f = id ∨ f = fun x : Nat => x ||| 1 := by
        intro k f hf
        rw [trace_used] at hf
        split at hf
        · simp at hf; exact .inl hf
        · split at hf <;> simp at hf
          · exact hf
          · exact .inl hf
      rcases key i f hf with rfl | rfl <;> rcases key j g hg with rfl | rfl <;> rfl
    | error =>
      have key : ∀ (k : Nat) (f : Nat → Nat), f ∈ (trace ClassLoc.error (classItem k (c k)) m : List (Nat → Nat)) →
          f = id ∨ f = fun x : Nat => x ||| 1 := by
        intro k f hf
        rw [trace_error] at hf
        split at hf <;> simp at hf
        · exact .inr hf
        · exact .inl hf
      rcases key i f hf with rfl | rfl <;> rcases key j g hg with rfl | rfl <;> rfl

end

section
variable {n : Nat} {c : Nat → Option ℤ} (σ : List Nat)

theorem runClasses_error : runClasses σ n c .error ≠ 0 ↔ ∃ p < n, c p = none := by
  unfold runClasses
  rw [launch_eq σ classes_raceFree, inOrder_eq classes_raceFree]
  unfold final
  refine (applyAll_lor ?_ _).trans ?_
  · intro f hf
    obtain ⟨i, _, hf⟩ := List.mem_flatMap.1 hf
    rw [trace_error] at hf
    split at hf <;> simp at hf
    · exact .inr hf
    · exact .inl hf
  · have hid : (fun x : Nat => x ||| 1) ≠ id := fun e => by simpa using congrFun e 0
    constructor
    · rintro (h | h)
      · exact absurd rfl h
      · obtain ⟨i, hi, hf⟩ := List.mem_flatMap.1 h
        rw [trace_error] at hf
        split at hf
        · exact ⟨i, List.mem_range.1 hi, ‹_›⟩
        · simp [hid] at hf
    · rintro ⟨p, hp, h⟩
      refine .inr (List.mem_flatMap.2 ⟨p, List.mem_range.2 hp, ?_⟩)
      rw [trace_error, if_pos h]
      simp

theorem runClasses_used (d : ℤ) : runClasses σ n c (.used d) ≠ 0 ↔ ∃ p < n, c p = some d := by
  unfold runClasses
  rw [launch_eq σ classes_raceFree, inOrder_eq classes_raceFree]
  unfold final
  have hid : (fun x : Nat => x ||| 1) ≠ id := fun e => by simpa using congrFun e 0
  refine (applyAll_lor ?_ _).trans ?_
  · intro f hf
    obtain ⟨i, _, hf⟩ := List.mem_flatMap.1 hf
    rw [trace_used] at hf
    split at hf
    · simp at hf; exact .inl hf
    · split at hf <;> simp at hf
      · exact hf
      · exact .inl hf
  · constructor
    · rintro (h | h)
      · exact absurd rfl h
      · obtain ⟨i, hi, hf⟩ := List.mem_flatMap.1 h
        rw [trace_used] at hf
        split at hf
        · simp [hid] at hf
        · split at hf
          · exact ⟨i, List.mem_range.1 hi, ‹_›⟩
          · simp [hid] at hf
    · rintro ⟨p, hp, h⟩
      refine .inr (List.mem_flatMap.2 ⟨p, List.mem_range.2 hp, ?_⟩)
      rw [trace_used, h]
      simp

theorem runClasses_cls {p : Nat} (hp : p < n) {d : ℤ} (h : c p = some d) :
    runClasses σ n c (.cls p) = d := by
  unfold runClasses
  rw [launch_eq σ classes_raceFree, inOrder_eq classes_raceFree]
  unfold final
  refine applyAll_const _ d _ ?_ ?_
  · intro f hf
    obtain ⟨i, _, hf⟩ := List.mem_flatMap.1 hf
    rcases trace_cls _ _ _ f hf with e | ⟨rfl, d', hd, e⟩
    · exact .inl e
    · rw [h] at hd
      cases hd
      exact .inr e
  · refine List.mem_flatMap.2 ⟨p, List.mem_range.2 hp, ?_⟩
    simp only [h]
    exact mem_trace_cls p d

end

theorem buildTranslationClassesRun_eq (σ : List Nat) (t : BoxTree) (n : Nat) (trav : Traversal)
    (perLevel : Bool) (vec : Nat → Nat → Nat → Nat → ℤ) (dist : ℤ → Nat → ℚ) :
    buildTranslationClassesRun σ t n trav perLevel vec dist =
      buildTranslationClasses t n trav perLevel vec dist := by
  unfold buildTranslationClassesRun buildTranslationClasses computeClasses
  by_cases ho : 1 + 2147483647 < nClassesPerLevel n t.dims
  · rw [if_pos ho, if_pos ho]
  · rw [if_neg ho, if_neg ho]
    set c := fun p => classOfPair t n perLevel trav.list2.starts trav.list2.lists trav.ttpBoxes p vec
      with hc
    set N := trav.list2.lists.length with hN
    by_cases he : ∃ p < N, c p = none
    · have h1 : ((List.range N).map c).any Option.isNone = true := by
        obtain ⟨p, hp, h⟩ := he
        simp only [List.any_map, List.any_eq_true, List.mem_range, Function.comp]
        exact ⟨p, hp, by simp [h]⟩
      simp only [if_pos ((runClasses_error σ).2 he), h1, if_true]
    · have h1 : ¬ ((List.range N).map c).any Option.isNone = true := by
        simp only [List.any_map, List.any_eq_true, List.mem_range, Function.comp, Option.isNone_iff_eq_none]
        exact he
      have hsome : ∀ p < N, ∃ d, c p = some d := fun p hp =>
        Option.ne_none_iff_exists'.1 fun h => he ⟨p, hp, h⟩
      simp only [if_neg (fun h => he ((runClasses_error σ).1 h)), if_neg h1]
      have hu : (fun i : Nat => decide (runClasses σ N c (.used i) ≠ 0)) =
          fun i : Nat => (((List.range N).map c).map fun c => c.getD (0 : ℤ)).any
            fun c => decide (c = (i : ℤ)) := by
        funext i
        rw [Bool.eq_iff_iff, decide_eq_true_iff, runClasses_used]
        simp only [List.map_map, List.any_map, List.any_eq_true, List.mem_range, Function.comp,
          decide_eq_true_iff]
        constructor
        · rintro ⟨p, hp, h⟩; exact ⟨p, hp, by rw [h]; rfl⟩
        · rintro ⟨p, hp, h⟩
          obtain ⟨d, hd⟩ := hsome p hp
          rw [hd] at h
          exact ⟨p, hp, by rw [hd]; exact congrArg some h⟩
      rw [hu]
      congr 2
      rw [List.map_map, List.map_map]
      apply List.map_congr_left
      intro p hp
      obtain ⟨d, hd⟩ := hsome p (List.mem_range.1 hp)
      simp only [Function.comp, hd, runClasses_cls σ (List.mem_range.1 hp) hd, Option.getD_some]

end Boxtree
