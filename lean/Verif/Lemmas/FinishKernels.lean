import Verif.Model.FinishKernels
import Verif.Lemmas.WorkItems
import Verif.Lemmas.AllocFinish

/-! The kernels after the level loop are free of races. -/

namespace Boxtree.Build
open Boxtree.Par

/-! ### Stores without loads -/

section
variable {A : Type} [DecidableEq A] {n : Nat} {l : Nat → List ((_ : A) × Nat)}

/-- No two work items store to one cell. -/
def OneWriter (n : Nat) (l : Nat → List ((_ : A) × Nat)) : Prop :=
  ∀ i j, i < n → j < n → ∀ a v v', ⟨a, v⟩ ∈ l i → ⟨a, v'⟩ ∈ l j → i = j

theorem OneWriter.raceFree (h : OneWriter n l) (m : Mem fun _ : A => Nat) :
    RaceFree n (fun i => thenStore (T := fun _ => Nat) (.pure (l i))) m :=
  raceFree_thenStore (rs := fun i => .pure (l i)) (fun _ => trivial) (fun _ _ _ _ _ _ h => h.elim)
    fun i j hi hj hij a v v' h1 h2 => absurd (h i j hi hj a v v' h1 h2) hij

theorem OneWriter.launch_eq (h : OneWriter n l) (σ : List Nat) {a : A} {b : Nat}
    {cells : Nat → List Nat} {value : Nat → Nat → Nat}
    (hc : ∀ i < n, ∀ v, ⟨a, v⟩ ∈ l i ↔ b ∈ cells i ∧ v = value i b) :
    launch σ n (fun i => thenStore (T := fun _ => Nat) (.pure (l i))) (fun _ => 0) a =
      scatter n cells value b := by
  have hr := h.raceFree fun _ => 0
  by_cases hex : ∃ i < n, b ∈ cells i
  · obtain ⟨i, hi, hb⟩ := hex
    have hs : ∀ j < n, b ∈ cells j → j = i := fun j hj hbj =>
      h j i hj hi a _ _ ((hc j hj _).2 ⟨hbj, rfl⟩) ((hc i hi _).2 ⟨hb, rfl⟩)
    rw [scatter_unique hi hb hs]
    refine launch_stored (T := fun _ => Nat) σ (rs := fun i => .pure (l i)) (fun _ => trivial) hr ?_
      ⟨i, hi, (hc i hi _).2 ⟨hb, rfl⟩⟩
    intro j hj v hv
    obtain ⟨h1, h2⟩ := (hc j hj v).1 hv
    rw [h2, hs j hj h1]
  · rw [scatter_none fun j hj hb => hex ⟨j, hj, hb⟩]
    exact launch_unstored (T := fun _ => Nat) σ (rs := fun i => .pure (l i)) (fun _ => trivial) hr
      fun j hj v hv => hex ⟨j, hj, ((hc j hj v).1 hv).1⟩

end

/-! ### Sources and targets -/

theorem climb_cond {F : Flat} {cond : Nat → Bool} {b : Nat} : ∀ {fuel c : Nat},
    b ∈ climb F cond fuel c → cond b = true := by
  intro fuel
  induction fuel with
  | zero => intro c h; cases h
  | succ fuel ih =>
    intro c h
    unfold climb at h
    by_cases hc : cond c = true
    · rw [if_pos hc] at h
      rcases List.mem_cons.1 h with rfl | h
      · exact hc
      · by_cases hp : F.parent c = c
        · rw [if_pos hp] at h; cases h
        · rw [if_neg hp] at h; exact ih h
    · rw [if_neg hc] at h; cases h

section
variable {he : Bool} {F : Flat} {ns : Nat} {ids : Nat → Nat} {i v : Nat}

theorem mem_find_start {src : Bool} {b : Nat} : ⟨.start src b, v⟩ ∈ indexFinder he F ns ids i ↔
    b ∈ startBoxes F i ∧ v = kindNumber ns ids src i := by
  unfold indexFinder kindNumber
  by_cases h1 : ids i < ns <;> by_cases h2 : i + 1 = F.start (F.pbox i) + F.nonchild (F.pbox i) <;>
    cases he <;> cases src <;> simp [h1, h2]

theorem mem_find_cumul {src : Bool} {b : Nat} : ⟨.cumul src b, v⟩ ∈ indexFinder he F ns ids i ↔
    b ∈ endBoxes F i ∧ v = kindCount F ns ids src i b := by
  unfold indexFinder
  by_cases h1 : ids i < ns <;> by_cases h2 : i + 1 = F.start (F.pbox i) + F.nonchild (F.pbox i) <;>
    cases he <;> cases src <;> simp [h1, h2]

theorem mem_find_nonchild {src : Bool} {b : Nat} :
    ⟨.nonchild src b, v⟩ ∈ indexFinder he F ns ids i ↔
    he = true ∧ b ∈ (if i + 1 = F.start (F.pbox i) + F.nonchild (F.pbox i) then [F.pbox i] else []) ∧
      v = kindCount F ns ids src i b := by
  unfold indexFinder
  by_cases h1 : ids i < ns <;> by_cases h2 : i + 1 = F.start (F.pbox i) + F.nonchild (F.pbox i) <;>
    cases he <;> cases src <;> simp [h1, h2] <;>
    exact fun e => by rw [e]

theorem mem_find_userSource {k : Nat} : ⟨.userSource k, v⟩ ∈ indexFinder he F ns ids i ↔
    k ∈ (if ids i < ns then [sourceNumber ns ids i] else []) ∧ v = ids i := by
  unfold indexFinder
  by_cases h1 : ids i < ns <;> by_cases h2 : i + 1 = F.start (F.pbox i) + F.nonchild (F.pbox i) <;>
    cases he <;> simp [h1, h2]

theorem mem_find_targetId {k : Nat} : ⟨.targetId k, v⟩ ∈ indexFinder he F ns ids i ↔
    k ∈ (if ids i < ns then [] else [kindNumber ns ids false i]) ∧ v = ids i := by
  unfold indexFinder kindNumber
  by_cases h1 : ids i < ns <;> by_cases h2 : i + 1 = F.start (F.pbox i) + F.nonchild (F.pbox i) <;>
    cases he <;> simp [h1, h2]

theorem mem_find_sortedTarget {k : Nat} : ⟨.sortedTarget k, v⟩ ∈ indexFinder he F ns ids i ↔
    k ∈ (if ids i < ns then [] else [ids i - ns]) ∧ v = kindNumber ns ids false i := by
  unfold indexFinder kindNumber
  by_cases h1 : ids i < ns <;> by_cases h2 : i + 1 = F.start (F.pbox i) + F.nonchild (F.pbox i) <;>
    cases he <;> simp [h1, h2]

theorem mem_ite_single {p : Prop} [Decidable p] {k a : Nat} (h : k ∈ (if p then [a] else [])) :
    p ∧ k = a := by
  by_cases hp : p
  · rw [if_pos hp] at h; exact ⟨hp, List.mem_singleton.1 h⟩
  · rw [if_neg hp] at h; cases h

theorem mem_ite_single' {p : Prop} [Decidable p] {k a : Nat} (h : k ∈ (if p then [] else [a])) :
    ¬ p ∧ k = a := by
  by_cases hp : p
  · rw [if_pos hp] at h; cases h
  · rw [if_neg hp] at h; exact ⟨hp, List.mem_singleton.1 h⟩

theorem indexFinder_oneWriter {n : Nat} (hinj : ∀ i < n, ∀ j < n, ids i = ids j → i = j) :
    OneWriter n (indexFinder he F ns ids) := by
  intro i j hi hj a v v' h1 h2
  cases a with
  | start src b =>
    have e1 := climb_cond (mem_find_start.1 h1).1
    have e2 := climb_cond (mem_find_start.1 h2).1
    rw [decide_eq_true_eq] at e1 e2
    omega
  | cumul src b =>
    have e1 := climb_cond (mem_find_cumul.1 h1).1
    have e2 := climb_cond (mem_find_cumul.1 h2).1
    rw [decide_eq_true_eq] at e1 e2
    omega
  | nonchild src b =>
    obtain ⟨e1, e2⟩ := mem_ite_single (mem_find_nonchild.1 h1).2.1
    obtain ⟨e3, e4⟩ := mem_ite_single (mem_find_nonchild.1 h2).2.1
    rw [← e2] at e1
    rw [← e4] at e3
    omega
  | userSource k =>
    obtain ⟨e1, e2⟩ := mem_ite_single (mem_find_userSource.1 h1).1
    obtain ⟨e3, e4⟩ := mem_ite_single (mem_find_userSource.1 h2).1
    exact count_inj (kind := fun j => ids j < ns) e1 e3 (by unfold sourceNumber at e2 e4; omega)
  | targetId k =>
    obtain ⟨e1, e2⟩ := mem_ite_single' (mem_find_targetId.1 h1).1
    obtain ⟨e3, e4⟩ := mem_ite_single' (mem_find_targetId.1 h2).1
    rw [kindNumber_eq] at e2 e4
    exact count_inj (kind := IsKind ns ids false) (isKind_false.2 e1) (isKind_false.2 e3) (by omega)
  | sortedTarget k =>
    obtain ⟨e1, e2⟩ := mem_ite_single' (mem_find_sortedTarget.1 h1).1
    obtain ⟨e3, e4⟩ := mem_ite_single' (mem_find_sortedTarget.1 h2).1
    exact hinj i hi j hj (by omega)

variable {n : Nat} (σ : List Nat) (hinj : ∀ i < n, ∀ j < n, ids i = ids j → i = j)
include hinj

theorem run_start (src : Bool) : (fun b => runIndexFinder σ he F n ns ids (.start src b)) =
    boxStarts F n ns ids src := by
  funext b
  exact (indexFinder_oneWriter hinj).launch_eq σ fun i _ v => mem_find_start

theorem run_cumul (src : Bool) : (fun b => runIndexFinder σ he F n ns ids (.cumul src b)) =
    boxCounts F n ns ids src := by
  funext b
  exact (indexFinder_oneWriter hinj).launch_eq σ fun i _ v => mem_find_cumul

theorem run_nonchild (hx : he = true) (src : Bool) :
    (fun b => runIndexFinder σ he F n ns ids (.nonchild src b)) = boxNonchild F n ns ids src := by
  funext b
  exact (indexFinder_oneWriter hinj).launch_eq σ fun i _ v => by
    rw [mem_find_nonchild]; simp only [hx, true_and]

theorem run_userSource : (fun b => runIndexFinder σ he F n ns ids (.userSource b)) =
    userSourceIds n ns ids := by
  funext b
  exact (indexFinder_oneWriter hinj).launch_eq σ fun i _ v => mem_find_userSource

theorem run_targetId : (fun b => runIndexFinder σ he F n ns ids (.targetId b)) =
    srcntgtTargetIds n ns ids := by
  funext b
  exact (indexFinder_oneWriter hinj).launch_eq σ fun i _ v => mem_find_targetId

theorem run_sortedTarget : (fun b => runIndexFinder σ he F n ns ids (.sortedTarget b)) =
    sortedTargetIds n ns ids := by
  funext b
  exact (indexFinder_oneWriter hinj).launch_eq σ fun i _ v => mem_find_sortedTarget

theorem runReverse_eq : runReverse σ n ids = reverseIds n ids := by
  funext b
  refine OneWriter.launch_eq (l := fun i => [⟨ids i, i⟩]) ?_ σ (cells := fun i => [ids i])
    (value := fun i _ => i) ?_
  · intro i j hi hj a v v' h1 h2
    simp only [List.mem_singleton, Sigma.mk.injEq] at h1 h2
    exact hinj i hi j hj (by rw [← h1.1, ← h2.1])
  · intro i _ v
    simp [eq_comm]

end

/-! ### Extents -/

section
variable {child : Nat → Nat → Nat}

theorem readOnly_extentLoop (b : Nat) : ∀ (ms : List Nat) (lo hi : Nat → ℚ),
    ReadOnly (extentLoop child b ms lo hi) := by
  intro ms
  induction ms with
  | nil => intro _ _; trivial
  | cons m ms ih =>
    intro lo hi
    unfold extentLoop
    by_cases h : child m b = 0
    · rw [if_pos h]; exact ih _ _
    · rw [if_neg h]; exact fun _ _ => ih _ _

theorem reads_extentLoop (b : Nat) (M : Sides) {a : SideLoc} : ∀ (ms : List Nat) (lo hi : Nat → ℚ),
    Reads (extentLoop child b ms lo hi) M a →
      ∃ m ∈ ms, child m b ≠ 0 ∧ (a = .lo (child m b) ∨ a = .hi (child m b)) := by
  intro ms
  induction ms with
  | nil => intro _ _ h; exact h.elim
  | cons m ms ih =>
    intro lo hi h
    unfold extentLoop at h
    by_cases hc : child m b = 0
    · rw [if_pos hc] at h
      obtain ⟨m', h1, h2⟩ := ih _ _ h
      exact ⟨m', List.mem_cons_of_mem _ h1, h2⟩
    · rw [if_neg hc] at h
      rcases h with rfl | rfl | h
      · exact ⟨m, List.mem_cons_self .., hc, .inl rfl⟩
      · exact ⟨m, List.mem_cons_self .., hc, .inr rfl⟩
      · obtain ⟨m', h1, h2⟩ := ih _ _ h
        exact ⟨m', List.mem_cons_of_mem _ h1, h2⟩

theorem stores_extentLoop (b : Nat) (M : Sides) : ∀ (ms : List Nat) (lo hi : Nat → ℚ),
    stores (extentLoop child b ms lo hi) M =
      [⟨.lo b, fun a => ms.foldl (fun v m => if child m b = 0 then v
          else min v (M (.lo (child m b)) a)) (lo a)⟩,
        ⟨.hi b, fun a => ms.foldl (fun v m => if child m b = 0 then v
          else max v (M (.hi (child m b)) a)) (hi a)⟩] := by
  intro ms
  induction ms with
  | nil => intro _ _; rfl
  | cons m ms ih =>
    intro lo hi
    unfold extentLoop
    by_cases hc : child m b = 0
    · rw [if_pos hc, ih]
      simp only [List.foldl_cons, if_pos hc]
    · rw [if_neg hc]
      refine (ih _ _).trans ?_
      simp only [List.foldl_cons, if_neg hc]

variable {fl : ℚ → ℚ} {nch : Nat} {ctr : Nat → Nat → ℚ} {start count : Nat → Nat}
  {x : Nat → Nat → ℚ} {r : Nat → ℚ}

theorem stores_extentFinder (b : Nat) (M : Sides) :
    stores (extentFinder fl nch child ctr start count x r b) M =
      [⟨.lo b, fun a => boxLower fl nch child (ctr b a) (start b) (count b) (x a) r
          (fun c => M (.lo c) a) b⟩,
        ⟨.hi b, fun a => boxUpper fl nch child (ctr b a) (start b) (count b) (x a) r
          (fun c => M (.hi c) a) b⟩] :=
  stores_extentLoop b M _ _ _

theorem extent_raceFree {s e : Nat} (M : Sides)
    (hch : ∀ b, s ≤ b → b < e → ∀ m, child m b ≠ 0 → ¬ (s ≤ child m b ∧ child m b < e)) :
    RaceFree (e - s) (fun k => thenStore (extentFinder fl nch child ctr start count x r (s + k))) M := by
  refine raceFree_thenStore (rs := fun k => extentFinder fl nch child ctr start count x r (s + k))
    (fun k => readOnly_extentLoop _ _ _ _) ?_ ?_
  · intro i j hi hj _ a ha v hv
    obtain ⟨m, _, hm, hor⟩ := reads_extentLoop _ _ _ _ _ ha
    rw [stores_extentFinder] at hv
    have := hch (s + i) (by omega) (by omega) m hm
    simp only [List.mem_cons, List.not_mem_nil, or_false, Sigma.mk.injEq] at hv
    rcases hor with rfl | rfl <;> rcases hv with ⟨h1, _⟩ | ⟨h1, _⟩ <;>
      simp only [SideLoc.lo.injEq, SideLoc.hi.injEq, reduceCtorEq] at h1
    · exact this ⟨by omega, by omega⟩
    · exact this ⟨by omega, by omega⟩
  · intro i j _ _ hij a v v' h1 h2
    rw [stores_extentFinder] at h1 h2
    simp only [List.mem_cons, List.not_mem_nil, or_false, Sigma.mk.injEq] at h1 h2
    exfalso
    rcases h1 with ⟨rfl, _⟩ | ⟨rfl, _⟩ <;> rcases h2 with ⟨e2, _⟩ | ⟨e2, _⟩ <;>
      simp only [SideLoc.lo.injEq, SideLoc.hi.injEq, reduceCtorEq] at e2 <;> omega

/-- One launch. -/
theorem launch_extents (σ : List Nat) {s e : Nat} (M : Sides)
    (hch : ∀ b, s ≤ b → b < e → ∀ m, child m b ≠ 0 → ¬ (s ≤ child m b ∧ child m b < e)) (b : Nat) :
    launch σ (e - s)
        (fun k => thenStore (extentFinder fl nch child ctr start count x r (s + k))) M (.lo b) =
      (fun a => if s ≤ b ∧ b < e then boxLower fl nch child (ctr b a) (start b) (count b) (x a) r
        (fun c => M (.lo c) a) b else M (.lo b) a) ∧
    launch σ (e - s)
        (fun k => thenStore (extentFinder fl nch child ctr start count x r (s + k))) M (.hi b) =
      (fun a => if s ≤ b ∧ b < e then boxUpper fl nch child (ctr b a) (start b) (count b) (x a) r
        (fun c => M (.hi c) a) b else M (.hi b) a) := by
  have hr := extent_raceFree (fl := fl) (nch := nch) (ctr := ctr) (start := start) (count := count)
    (x := x) (r := r) M hch
  have hro : ∀ k, ReadOnly (extentFinder fl nch child ctr start count x r (s + k)) :=
    fun k => readOnly_extentLoop _ _ _ _
  by_cases hb : s ≤ b ∧ b < e
  · have hk : s + (b - s) = b := by omega
    simp only [if_pos hb]
    constructor
    · refine launch_stored (T := fun _ => Nat → ℚ) σ
        (rs := fun k => extentFinder fl nch child ctr start count x r (s + k)) hro hr ?_
        ⟨b - s, by omega, ?_⟩
      · intro i hi v hv
        rw [stores_extentFinder] at hv
        simp only [List.mem_cons, List.not_mem_nil, or_false, Sigma.mk.injEq] at hv
        rcases hv with ⟨h1, h2⟩ | ⟨h1, _⟩
        · obtain rfl := SideLoc.lo.inj h1
          exact eq_of_heq h2
        · cases h1
      · simp only [stores_extentFinder, hk]
        exact List.mem_cons_self ..
    · refine launch_stored (T := fun _ => Nat → ℚ) σ
        (rs := fun k => extentFinder fl nch child ctr start count x r (s + k)) hro hr ?_
        ⟨b - s, by omega, ?_⟩
      · intro i hi v hv
        rw [stores_extentFinder] at hv
        simp only [List.mem_cons, List.not_mem_nil, or_false, Sigma.mk.injEq] at hv
        rcases hv with ⟨h1, _⟩ | ⟨h1, h2⟩
        · cases h1
        · obtain rfl := SideLoc.hi.inj h1
          exact eq_of_heq h2
      · simp only [stores_extentFinder, hk]
        exact List.mem_cons_of_mem _ (List.mem_cons_self ..)
  · simp only [if_neg hb]
    constructor
    · refine launch_unstored (T := fun _ => Nat → ℚ) σ
        (rs := fun k => extentFinder fl nch child ctr start count x r (s + k)) hro hr ?_
      intro i hi v hv
      rw [stores_extentFinder] at hv
      simp only [List.mem_cons, List.not_mem_nil, or_false, Sigma.mk.injEq] at hv
      rcases hv with ⟨h1, _⟩ | ⟨h1, _⟩
      · obtain rfl := SideLoc.lo.inj h1
        omega
      · cases h1
    · refine launch_unstored (T := fun _ => Nat → ℚ) σ
        (rs := fun k => extentFinder fl nch child ctr start count x r (s + k)) hro hr ?_
      intro i hi v hv
      rw [stores_extentFinder] at hv
      simp only [List.mem_cons, List.not_mem_nil, or_false, Sigma.mk.injEq] at hv
      rcases hv with ⟨h1, _⟩ | ⟨h1, _⟩
      · cases h1
      · obtain rfl := SideLoc.hi.inj h1
        omega

/-- Children are not on the level of their parent. -/
def ChildrenBelow (child : Nat → Nat → Nat) (lstart : Nat → Nat) (L : Nat) : Prop :=
  ∀ l < L, ∀ b, lstart l ≤ b → b < lstart (l + 1) → ∀ m, child m b ≠ 0 →
    ¬ (lstart l ≤ child m b ∧ child m b < lstart (l + 1))

theorem runExtents_eq (σ : Nat → List Nat) {lstart : Nat → Nat} : ∀ (L : Nat)
    (_ : ChildrenBelow child lstart L) (M : Sides) (b a : Nat),
    runExtents σ lstart (extentFinder fl nch child ctr start count x r) L M (.lo b) a =
      sweepUp lstart (fun arr b => boxLower fl nch child (ctr b a) (start b) (count b) (x a) r arr b) L
        (fun c => M (.lo c) a) b ∧
    runExtents σ lstart (extentFinder fl nch child ctr start count x r) L M (.hi b) a =
      sweepUp lstart (fun arr b => boxUpper fl nch child (ctr b a) (start b) (count b) (x a) r arr b) L
        (fun c => M (.hi c) a) b := by
  intro L
  induction L with
  | zero => intro _ M b a; exact ⟨rfl, rfl⟩
  | succ L ih =>
    intro h M b a
    unfold runExtents sweepUp
    obtain ⟨h1, h2⟩ := ih (fun l hl => h l (by omega)) (launch (σ L) (lstart (L + 1) - lstart L)
      (fun k => thenStore (extentFinder fl nch child ctr start count x r (lstart L + k))) M) b a
    have hl := launch_extents (fl := fl) (nch := nch) (ctr := ctr) (start := start) (count := count)
      (x := x) (r := r) (σ L) M (h L (by omega))
    constructor
    · rw [h1]
      simp only [fun c => (hl c).1]
    · rw [h2]
      simp only [fun c => (hl c).2]

end

/-! ### Everything after pruning -/

/-- Beyond the last box there are copies of the root. -/
theorem FinOK.child_beyond {P : Params} {skip : Bool} {len : Nat → Nat} {L : Nat} {s : State}
    (h : FinOK P skip len L s) {m b : Nat} (hb : (fin P skip len L s).nboxes ≤ b) :
    (fin P skip len L s).child m b = (fin P skip len L s).child m 0 := by
  have h0 := h.src_nid h.kept_root
  rw [nid_root] at h0
  have hs : srcBoxId (flatten P len L s).nboxes (keeps skip len L s) b = 0 :=
    List.getD_eq_default _ _ hb
  show dstBoxId _ ((flatten P len L s).child m (srcBoxId _ _ b)) =
    dstBoxId _ ((flatten P len L s).child m (srcBoxId _ _ 0))
  rw [hs, h0]
  rfl

theorem FinOK.childrenBelow {P : Params} {skip : Bool} {len : Nat → Nat} {L : Nat} {s : State}
    (h : FinOK P skip len L s) (used : Nat → Nat) :
    ChildrenBelow (fin P skip len L s).child (levelStart (levelCounts used (fin P skip len L s)))
      (L + 1) := by
  have hF := h.flatOK
  intro l _ b hb1 hb2 m hm hc
  have hlt : (fin P skip len L s).child m b < (fin P skip len L s).nboxes := by
    by_cases hb : b < (fin P skip len L s).nboxes
    · exact hF.child_lt m b hb
    · rw [h.child_beyond (by omega)]
      exact hF.child_lt m 0 hF.pos
  have hl := (hF.mem_level used hlt l).1 hc
  have hb : b < (fin P skip len L s).nboxes := by
    have e := hF.levelStart_eq used (l := l + 1) fun l' hl' => hF.exists_level hlt (by omega)
    have := Nat.count_le (p := fun b => (fin P skip len L s).level b < l + 1)
      (n := (fin P skip len L s).nboxes)
    omega
  have h1 := (hF.mem_level used hb l).1 ⟨hb1, hb2⟩
  have h2 := hF.level_parent _ hlt hm
  rw [(hF.child_parent m b hb hm).1] at h2
  omega

theorem ChildrenBelow.of_eq {F G : Flat}
    (e : ({ F with pbox := fun _ => 0 } : Flat) = { G with pbox := fun _ => 0 }) {used : Nat → Nat}
    {L : Nat} (h : ChildrenBelow G.child (levelStart (levelCounts used G)) L) :
    ChildrenBelow F.child (levelStart (levelCounts used F)) L := by
  have h4 := congrArg Flat.child e
  have h5 := congrArg (levelCounts used) e
  replace h4 : F.child = G.child := h4
  replace h5 : levelCounts used F = levelCounts used G := h5
  rw [h4, h5]
  exact h

theorem finishRun_eq (τ : FinSchedule) (P : Params) (C : Cloud) (L : Nat) (used ids : Nat → Nat)
    (F : Flat) (hinj : ∀ i < P.n, ∀ j < P.n, ids i = ids j → i = j)
    (hch : ChildrenBelow F.child (levelStart (levelCounts used F)) (L + 1)) :
    finishRun τ P C L used ids F = finishFlat P C L used ids F := by
  unfold finishRun finishFlat
  simp only [run_start τ.index hinj, run_cumul τ.index hinj, run_userSource τ.index hinj,
    run_targetId τ.index hinj, run_sortedTarget τ.index hinj, runReverse_eq τ.reverse hinj]
  cases hb : C.sourcesAreTargets <;> cases hx : P.haveExtent <;>
    simp only [Bool.false_eq_true, if_true, if_false, run_nonchild τ.index hinj rfl,
      fun σ fl ctr start count x r b a => (runExtents_eq (fl := fl) (nch := P.nch) (ctr := ctr)
        (start := start) (count := count) (x := x) (r := r) σ (L + 1) hch (fun _ _ => 0) b a).1,
      fun σ fl ctr start count x r b a => (runExtents_eq (fl := fl) (nch := P.nch) (ctr := ctr)
        (start := start) (count := count) (x := x) (r := r) σ (L + 1) hch (fun _ _ => 0) b a).2]

end Boxtree.Build
