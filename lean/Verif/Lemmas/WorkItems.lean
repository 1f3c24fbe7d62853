import Verif.Model.WorkItems

/-!
# Programs without races give one result
-/

namespace Boxtree.Par

variable {A : Type} {T : A → Type} {α β : Type} [DecidableEq A]

/-- The effect of changing cell `b` by `f` on cell `a`. -/
def single (b : A) (f : T b → T b) (a : A) : T a → T a := Function.update (fun _ => id) b f a

theorem single_self (b : A) (f : T b → T b) : single b f b = f := Function.update_self ..

theorem single_ne {a b : A} (f : T b → T b) (h : a ≠ b) : single b f a = id :=
  Function.update_of_ne h ..

theorem upd_apply (m : Mem T) (b : A) (f : T b → T b) (a : A) : m.upd b f a = single b f a (m a) := by
  by_cases h : a = b
  · subst h; rw [single_self]; exact Function.update_self ..
  · rw [single_ne f h]; exact Function.update_of_ne h ..

/-- The cells that the program reads when it runs alone from `m`. -/
def Reads : Prog A T α → Mem T → A → Prop
  | .pure _, _, _ => False
  | .read a k, m, x => x = a ∨ Reads (k (m a)) m x
  | .update a f k, m, x => Reads k (m.upd a f) x

/-- The cells that the program changes when it runs alone from `m`. -/
def Writes : Prog A T α → Mem T → A → Prop
  | .pure _, _, _ => False
  | .read a k, m, x => Writes (k (m a)) m x
  | .update a f k, m, x => x = a ∨ Writes k (m.upd a f) x

/-- What happens to cell `x`. -/
def trace (x : A) : Prog A T α → Mem T → List (T x → T x)
  | .pure _, _ => []
  | .read a k, m => trace x (k (m a)) m
  | .update a f k, m => single a f x :: trace x k (m.upd a f)

/-- No two work items conflict: if one changes a cell, no other one reads it, and changes by two work
items commute. -/
structure RaceFree (n : Nat) (ps : Nat → Prog A T Unit) (m : Mem T) : Prop where
  reads : ∀ i j, i < n → j < n → i ≠ j → ∀ a, Reads (ps i) m a → ¬ Writes (ps j) m a
  comm : ∀ i j, i < n → j < n → i ≠ j → ∀ a, ∀ f ∈ trace a (ps i) m, ∀ g ∈ trace a (ps j) m,
    ∀ x, f (g x) = g (f x)

/-- Changes applied one after the other. -/
def applyAll {X : Type} (l : List (X → X)) (x : X) : X := l.foldl (fun x f => f x) x

theorem applyAll_append {X : Type} (l l' : List (X → X)) (x : X) :
    applyAll (l ++ l') x = applyAll l' (applyAll l x) := List.foldl_append ..

theorem applyAll_ids {X : Type} (l : List (X → X)) (h : ∀ f ∈ l, f = id) (x : X) :
    applyAll l x = x := by
  induction l generalizing x with
  | nil => rfl
  | cons f l ih =>
    change applyAll l (f x) = x
    rw [h f (by simp)]
    exact ih (fun g hg => h g (by simp [hg])) x

theorem applyAll_comm {X : Type} (l : List (X → X)) (f : X → X) (h : ∀ g ∈ l, ∀ x, f (g x) = g (f x))
    (x : X) : applyAll l (f x) = f (applyAll l x) := by
  induction l generalizing x with
  | nil => rfl
  | cons g l ih =>
    change applyAll l (g (f x)) = f (applyAll l (g x))
    rw [← h g (by simp), ih fun g hg => h g (by simp [hg])]

theorem applyAll_const {X : Type} (l : List (X → X)) (v x : X)
    (h : ∀ f ∈ l, f = id ∨ f = fun _ => v) (hv : (fun _ => v) ∈ l) : applyAll l x = v := by
  have key : ∀ l : List (X → X), (∀ f ∈ l, f = id ∨ f = fun _ => v) → applyAll l v = v := by
    intro l
    induction l with
    | nil => intro _; rfl
    | cons f l ih =>
      intro h
      have hf : f v = v := by rcases h f (by simp) with e | e <;> rw [e]; rfl
      change applyAll l (f v) = v
      rw [hf]
      exact ih fun g hg => h g (by simp [hg])
  obtain ⟨l1, l2, rfl⟩ := List.append_of_mem hv
  rw [applyAll_append]
  exact key l2 fun f hf => h f (by simp [hf])

/-- Contents of a cell after all changes. -/
def final (n : Nat) (ps : Nat → Prog A T Unit) (m : Mem T) (a : A) : T a :=
  applyAll ((List.range n).flatMap fun i => trace a (ps i) m) (m a)

theorem trace_id {p : Prog A T α} {m : Mem T} {a : A} (h : ¬ Writes p m a) :
    ∀ f ∈ trace a p m, f = id := by
  induction p generalizing m with
  | pure x => intro f hf; cases hf
  | read b k ih => exact ih _ h
  | update b f k ih =>
    intro g hg
    rcases List.mem_cons.1 hg with rfl | hg
    · exact single_ne _ fun e => h (.inl e)
    · exact ih (fun e => h (.inr e)) g hg

theorem solo_apply (p : Prog A T α) (m : Mem T) (a : A) :
    (solo p m).2 a = applyAll (trace a p m) (m a) := by
  induction p generalizing m with
  | pure x => rfl
  | read b k ih => exact ih _ m
  | update b f k ih =>
    change (solo k (m.upd b f)).2 a = applyAll (trace a k (m.upd b f)) (single b f a (m a))
    rw [ih, upd_apply]

/-- A program does the same from two memories that agree on what it reads. -/
theorem agree {p : Prog A T α} {m m' : Mem T} (h : ∀ a, Reads p m a → m' a = m a) :
    (∀ a, trace a p m' = trace a p m) ∧ (∀ a, Reads p m' a ↔ Reads p m a) ∧
      (∀ a, Writes p m' a ↔ Writes p m a) ∧ (solo p m').1 = (solo p m).1 := by
  induction p generalizing m m' with
  | pure x => exact ⟨fun _ => rfl, fun _ => Iff.rfl, fun _ => Iff.rfl, rfl⟩
  | read b k ih =>
    have hb : m' b = m b := h b (.inl rfl)
    have := ih (m b) (m := m) (m' := m') fun a ha => h a (.inr ha)
    simp only [trace, Reads, Writes, solo, hb]
    exact ⟨this.1, fun a => by rw [this.2.1], this.2.2.1, this.2.2.2⟩
  | update b f k ih =>
    have := ih (m := m.upd b f) (m' := m'.upd b f) fun a ha => ?_
    · simp only [trace, Reads, Writes, solo]
      exact ⟨fun a => by rw [this.1], this.2.1, fun a => by rw [this.2.2.1], this.2.2.2⟩
    · by_cases e : a = b
      · subst e
        rw [upd_apply, upd_apply, h a ha]
      · rw [upd_apply, upd_apply, single_ne f e]
        exact h a ha

theorem final_of_unwritten {n : Nat} {ps : Nat → Prog A T Unit} {m : Mem T} {a : A}
    (h : ∀ i < n, ¬ Writes (ps i) m a) : final n ps m a = m a := by
  apply applyAll_ids
  intro f hf
  obtain ⟨i, hi, hf⟩ := List.mem_flatMap.1 hf
  exact trace_id (h i (List.mem_range.1 hi)) f hf

theorem RaceFree.mono {n n' : Nat} {ps : Nat → Prog A T Unit} {m : Mem T} (h : RaceFree n ps m)
    (hn : n' ≤ n) : RaceFree n' ps m :=
  ⟨fun i j hi hj => h.reads i j (by omega) (by omega), fun i j hi hj => h.comm i j (by omega) (by omega)⟩

/-- Work items without conflicts, one after the other. -/
theorem inOrder_eq {n : Nat} {ps : Nat → Prog A T Unit} {m : Mem T} (h : RaceFree n ps m) (a : A) :
    inOrder n ps m a = final n ps m a := by
  induction n generalizing a with
  | zero => rfl
  | succ n ih =>
    have ih := ih (h.mono (by omega))
    have e : inOrder (n + 1) ps m = (solo (ps n) (inOrder n ps m)).2 := by
      unfold inOrder
      rw [List.range_succ, List.foldl_append]
      rfl
    have hag := agree (p := ps n) (m := m) (m' := inOrder n ps m) fun b hb => by
      rw [ih]
      exact final_of_unwritten fun i hi => h.reads n i (by omega) (by omega) (by omega) b hb
    rw [e, solo_apply, hag.1, ih]
    unfold final
    rw [List.range_succ, List.flatMap_append, applyAll_append]
    simp

theorem step_other {p q : Prog A T α} {m : Mem T}
    (h : ∀ a, Reads q m a → ¬ Writes p m a) : ∀ a, Reads q m a → (step p m).2 a = m a := by
  intro a ha
  cases p with
  | pure x => rfl
  | read b k => rfl
  | update b f k =>
    change m.upd b f a = m a
    rw [upd_apply, single_ne f]
    · rfl
    · rintro rfl
      exact h a ha (.inl rfl)

theorem step_reads {p : Prog A T α} {m : Mem T} {a : A} (h : Reads (step p m).1 (step p m).2 a) :
    Reads p m a := by
  cases p with
  | pure x => exact h
  | read b k => exact .inr h
  | update b f k => exact h

theorem step_writes {p : Prog A T α} {m : Mem T} {a : A} (h : Writes (step p m).1 (step p m).2 a) :
    Writes p m a := by
  cases p with
  | pure x => exact h
  | read b k => exact h
  | update b f k => exact .inr h

/-- The next change of a program to cell `a`, if there is one. -/
theorem step_trace (p : Prog A T α) (m : Mem T) (a : A) :
    ((step p m).2 a = m a ∧ trace a p m = trace a (step p m).1 (step p m).2) ∨
      ∃ f, (step p m).2 a = f (m a) ∧ trace a p m = f :: trace a (step p m).1 (step p m).2 := by
  cases p with
  | pure x => exact .inl ⟨rfl, rfl⟩
  | read b k => exact .inl ⟨rfl, rfl⟩
  | update b f k => exact .inr ⟨single b f a, upd_apply m b f a, rfl⟩

theorem trace_step_subset (p : Prog A T α) (m : Mem T) (a : A) :
    ∀ f ∈ trace a (step p m).1 (step p m).2, f ∈ trace a p m := by
  intro f hf
  rcases step_trace p m a with ⟨-, e⟩ | ⟨g, -, e⟩ <;> rw [e]
  · exact hf
  · exact List.mem_cons_of_mem _ hf

section Step
variable {n i : Nat} {ps : Nat → Prog A T Unit} {m : Mem T}

theorem RaceFree.others (h : RaceFree n ps m) (hi : i < n) {j : Nat} (hj : j < n) (hij : j ≠ i) :
    (∀ a, trace a (ps j) (step (ps i) m).2 = trace a (ps j) m) ∧
      (∀ a, Reads (ps j) (step (ps i) m).2 a ↔ Reads (ps j) m a) ∧
      (∀ a, Writes (ps j) (step (ps i) m).2 a ↔ Writes (ps j) m a) := by
  have := agree (p := ps j) (m := m) (m' := (step (ps i) m).2)
    (step_other fun a ha => h.reads j i hj hi hij a ha)
  exact ⟨this.1, this.2.1, this.2.2.1⟩

theorem RaceFree.step (h : RaceFree n ps m) (hi : i < n) :
    RaceFree n (Function.update ps i (step (ps i) m).1) (step (ps i) m).2 := by
  have key : ∀ j < n, ∀ a,
      (Reads (Function.update ps i (Par.step (ps i) m).1 j) (Par.step (ps i) m).2 a → Reads (ps j) m a) ∧
      (Writes (Function.update ps i (Par.step (ps i) m).1 j) (Par.step (ps i) m).2 a →
        Writes (ps j) m a) ∧
      (∀ f ∈ trace a (Function.update ps i (Par.step (ps i) m).1 j) (Par.step (ps i) m).2,
        f ∈ trace a (ps j) m) := by
    intro j hj a
    by_cases e : j = i
    · subst e
      rw [Function.update_self]
      exact ⟨step_reads, step_writes, trace_step_subset _ _ _⟩
    · rw [Function.update_of_ne e]
      obtain ⟨h1, h2, h3⟩ := h.others hi hj e
      exact ⟨(h2 a).1, (h3 a).1, fun f hf => by rwa [h1] at hf⟩
  constructor
  · intro j k hj hk hjk a hr hw
    exact h.reads j k hj hk hjk a ((key j hj a).1 hr) ((key k hk a).2.1 hw)
  · intro j k hj hk hjk a f hf g hg
    exact h.comm j k hj hk hjk a f ((key j hj a).2.2 f hf) g ((key k hk a).2.2 g hg)

/-- The result does not change. -/
theorem final_step (h : RaceFree n ps m) (hi : i < n) (a : A) :
    final n (Function.update ps i (Par.step (ps i) m).1) (Par.step (ps i) m).2 a = final n ps m a := by
  have hother : ∀ k ≤ n, (k ≤ i →
      ((List.range k).flatMap fun j =>
        trace a (Function.update ps i (Par.step (ps i) m).1 j) (Par.step (ps i) m).2) =
      (List.range k).flatMap fun j => trace a (ps j) m) := by
    intro k hk hki
    refine List.flatMap_congr fun j hj => ?_
    have hj := List.mem_range.1 hj
    rw [Function.update_of_ne (by omega), (h.others hi (by omega) (by omega)).1]
  have key : ∀ k ≤ n, i < k →
      applyAll ((List.range k).flatMap fun j =>
        trace a (Function.update ps i (Par.step (ps i) m).1 j) (Par.step (ps i) m).2)
        ((Par.step (ps i) m).2 a) =
      applyAll ((List.range k).flatMap fun j => trace a (ps j) m) (m a) := by
    intro k
    induction k with
    | zero => intro _ h0; omega
    | succ k ih =>
      intro hk hik
      rw [List.range_succ, List.flatMap_append, List.flatMap_append, applyAll_append, applyAll_append]
      simp only [List.flatMap_cons, List.flatMap_nil, List.append_nil]
      by_cases e : i = k
      · subst e
        rw [hother i (by omega) (Nat.le_refl _), Function.update_self]
        rcases step_trace (ps i) m a with ⟨e1, e2⟩ | ⟨f, e1, e2⟩
        · rw [e1, e2]
        · rw [e1, e2]
          change _ = applyAll _ (f _)
          congr 1
          apply applyAll_comm
          intro g hg
          obtain ⟨j, hj, hg⟩ := List.mem_flatMap.1 hg
          have hj := List.mem_range.1 hj
          exact h.comm i j hi (by omega) (by omega) a f (by rw [e2]; simp) g hg
      · rw [ih (by omega) (by omega), Function.update_of_ne (fun e' => e e'.symm),
          (h.others hi (by omega) (fun e' => e e'.symm)).1]
  exact key n (Nat.le_refl _) hi

end Step

/-- **One result.**  Whatever the order in which work items without conflicts take turns, each cell ends
up as if they ran one after the other. -/
theorem launch_eq (sched : List Nat) {n : Nat} {ps : Nat → Prog A T Unit} {m : Mem T}
    (h : RaceFree n ps m) : launch sched n ps m = inOrder n ps m := by
  have key : ∀ sched, ∀ (ps : Nat → Prog A T Unit) (m : Mem T), RaceFree n ps m →
      RaceFree n (interleave n sched ps m).1 (interleave n sched ps m).2 ∧
      ∀ a, final n (interleave n sched ps m).1 (interleave n sched ps m).2 a = final n ps m a := by
    intro sched
    induction sched with
    | nil => intro ps m h; exact ⟨h, fun _ => rfl⟩
    | cons i sched ih =>
      intro ps m h
      unfold interleave
      by_cases hi : i < n
      · rw [if_pos hi]
        obtain ⟨h1, h2⟩ := ih _ _ (h.step hi)
        exact ⟨h1, fun a => by rw [h2, final_step h hi]⟩
      · rw [if_neg hi]
        exact ih ps m h
  funext a
  obtain ⟨h1, h2⟩ := key sched ps m h
  unfold launch
  rw [inOrder_eq h1, h2, inOrder_eq h]

/-- Turns after which all work items are at their end: the memory is that of the launch. -/
theorem launch_complete (sched : List Nat) (n : Nat) (ps : Nat → Prog A T Unit) (m : Mem T)
    (h : ∀ i < n, (interleave n sched ps m).1 i = .pure ()) :
    launch sched n ps m = (interleave n sched ps m).2 := by
  unfold launch
  have key : ∀ k ≤ n, inOrder k (interleave n sched ps m).1 (interleave n sched ps m).2 =
      (interleave n sched ps m).2 := by
    intro k
    induction k with
    | zero => intro _; rfl
    | succ k ih =>
      intro hk
      have ih := ih (by omega)
      unfold inOrder at ih ⊢
      rw [List.range_succ, List.foldl_append, ih]
      simp only [List.foldl_cons, List.foldl_nil, h k (by omega)]
      rfl
  exact key n (Nat.le_refl _)

/-! ### Programs that first read and then store -/

/-- A program that changes nothing. -/
def ReadOnly : Prog A T α → Prop
  | .pure _ => True
  | .read _ k => ∀ v, ReadOnly (k v)
  | .update _ _ _ => False

theorem solo_readOnly {p : Prog A T α} (h : ReadOnly p) (m : Mem T) : (solo p m).2 = m := by
  induction p with
  | pure x => rfl
  | read a k ih => exact ih _ (h _)
  | update a f k => cases h

theorem reads_writeAll (l : List ((a : A) × T a)) (m : Mem T) (a : A) :
    ¬ Reads (Prog.writeAll l) m a := by
  induction l generalizing m with
  | nil => exact id
  | cons w l ih => exact ih _

theorem writes_writeAll (l : List ((a : A) × T a)) (m : Mem T) (a : A) :
    Writes (Prog.writeAll l) m a ↔ ∃ v, ⟨a, v⟩ ∈ l := by
  induction l generalizing m with
  | nil => simp [Prog.writeAll, Writes]
  | cons w l ih =>
    change (a = w.1 ∨ _) ↔ _
    rw [ih]
    constructor
    · rintro (rfl | ⟨v, hv⟩)
      · exact ⟨w.2, by simp⟩
      · exact ⟨v, by simp [hv]⟩
    · rintro ⟨v, hv⟩
      rcases List.mem_cons.1 hv with e | hv
      · exact .inl (by rw [← e])
      · exact .inr ⟨v, hv⟩

theorem trace_writeAll (l : List ((a : A) × T a)) (m : Mem T) (a : A) :
    ∀ f ∈ trace a (Prog.writeAll l) m, f = id ∨ ∃ v, ⟨a, v⟩ ∈ l ∧ f = fun _ => v := by
  induction l generalizing m with
  | nil => intro f hf; cases hf
  | cons w l ih =>
    intro f hf
    rcases List.mem_cons.1 hf with rfl | hf
    · by_cases e : a = w.1
      · subst e
        exact .inr ⟨w.2, by simp, single_self _ _⟩
      · exact .inl (single_ne _ e)
    · rcases ih _ f hf with e | ⟨v, hv, e⟩
      · exact .inl e
      · exact .inr ⟨v, by simp [hv], e⟩

theorem mem_trace_writeAll {l : List ((a : A) × T a)} (m : Mem T) {a : A} {v : T a}
    (h : ⟨a, v⟩ ∈ l) : (fun _ => v) ∈ trace a (Prog.writeAll l) m := by
  induction l generalizing m with
  | nil => cases h
  | cons w l ih =>
    change _ ∈ single w.1 (fun _ => w.2) a :: _
    rcases List.mem_cons.1 h with e | h
    · subst e
      rw [single_self]
      exact List.mem_cons_self ..
    · exact List.mem_cons_of_mem _ (ih _ h)

/-- The stores. -/
def stores (r : Prog A T (List ((a : A) × T a))) (m : Mem T) : List ((a : A) × T a) := (solo r m).1

variable {r : Prog A T (List ((a : A) × T a))} {m : Mem T}

theorem reads_thenStore (h : ReadOnly r) (a : A) : Reads (thenStore r) m a ↔ Reads r m a := by
  unfold thenStore
  induction r with
  | pure l => exact ⟨fun h => (reads_writeAll l m a h).elim, fun h => h.elim⟩
  | read b k ih =>
    change (a = b ∨ _) ↔ (a = b ∨ _)
    rw [ih _ (h _)]
  | update b f k => cases h

theorem writes_thenStore (h : ReadOnly r) (a : A) :
    Writes (thenStore r) m a ↔ ∃ v, ⟨a, v⟩ ∈ stores r m := by
  unfold thenStore
  induction r with
  | pure l => exact writes_writeAll l m a
  | read b k ih => exact ih _ (h _)
  | update b f k => cases h

theorem trace_thenStore (h : ReadOnly r) (a : A) :
    trace a (thenStore r) m = trace a (Prog.writeAll (stores r m)) m := by
  unfold thenStore
  induction r with
  | pure l => rfl
  | read b k ih => exact ih _ (h _)
  | update b f k => cases h

/-- Work items that read and then store are free of races if no work item reads a cell that another one
stores, and no two store different values in one cell. -/
theorem raceFree_thenStore {n : Nat} {rs : Nat → Prog A T (List ((a : A) × T a))}
    (hro : ∀ i, ReadOnly (rs i))
    (hr : ∀ i j, i < n → j < n → i ≠ j → ∀ a, Reads (rs i) m a → ∀ v, ⟨a, v⟩ ∉ stores (rs j) m)
    (hw : ∀ i j, i < n → j < n → i ≠ j → ∀ a v v', ⟨a, v⟩ ∈ stores (rs i) m →
      ⟨a, v'⟩ ∈ stores (rs j) m → v = v') :
    RaceFree n (fun i => thenStore (rs i)) m where
  reads := by
    intro i j hi hj hij a h h'
    obtain ⟨v, hv⟩ := (writes_thenStore (hro j) a).1 h'
    exact hr i j hi hj hij a ((reads_thenStore (hro i) a).1 h) v hv
  comm := by
    intro i j hi hj hij a f hf g hg x
    rw [trace_thenStore (hro i)] at hf
    rw [trace_thenStore (hro j)] at hg
    rcases trace_writeAll _ _ _ f hf with rfl | ⟨v, hv, rfl⟩
    · rfl
    · rcases trace_writeAll _ _ _ g hg with rfl | ⟨v', hv', rfl⟩
      · rfl
      · exact hw i j hi hj hij a v v' hv hv'

/-- Contents of the memory afterwards: a cell that is stored. -/
theorem launch_stored (sched : List Nat) {n : Nat} {rs : Nat → Prog A T (List ((a : A) × T a))}
    (hro : ∀ i, ReadOnly (rs i)) (h : RaceFree n (fun i => thenStore (rs i)) m) {a : A} {v : T a}
    (hall : ∀ i < n, ∀ v', ⟨a, v'⟩ ∈ stores (rs i) m → v' = v)
    (hex : ∃ i < n, ⟨a, v⟩ ∈ stores (rs i) m) :
    launch sched n (fun i => thenStore (rs i)) m a = v := by
  rw [launch_eq sched h, inOrder_eq h]
  apply applyAll_const
  · intro f hf
    obtain ⟨i, hi, hf⟩ := List.mem_flatMap.1 hf
    have hi := List.mem_range.1 hi
    rw [trace_thenStore (hro i)] at hf
    rcases trace_writeAll _ _ _ f hf with e | ⟨v', hv', e⟩
    · exact .inl e
    · rw [hall i hi v' hv'] at e; exact .inr e
  · obtain ⟨i, hi, hv⟩ := hex
    refine List.mem_flatMap.2 ⟨i, List.mem_range.2 hi, ?_⟩
    rw [trace_thenStore (hro i)]
    exact mem_trace_writeAll m hv

/-- Contents of the memory afterwards: a cell that is not stored. -/
theorem launch_unstored (sched : List Nat) {n : Nat} {rs : Nat → Prog A T (List ((a : A) × T a))}
    (hro : ∀ i, ReadOnly (rs i)) (h : RaceFree n (fun i => thenStore (rs i)) m) {a : A}
    (hall : ∀ i < n, ∀ v, ⟨a, v⟩ ∉ stores (rs i) m) :
    launch sched n (fun i => thenStore (rs i)) m a = m a := by
  rw [launch_eq sched h, inOrder_eq h]
  apply final_of_unwritten
  intro i hi hw
  obtain ⟨v, hv⟩ := (writes_thenStore (hro i) a).1 hw
  exact hall i hi v hv

end Boxtree.Par
