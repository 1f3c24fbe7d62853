import Verif.Model.LoopKernels
import Verif.Lemmas.WorkItems
import Verif.Lemmas.AllocSplit

/-!
# The splitter and the renumberer have no races
-/

namespace Boxtree.Build
open Boxtree.Par

section
variable {P : Params} {level nnew : Nat} {B : Buf} {s : State}

/-! ### Splitter -/

theorem splitterBody_readOnly (i : Nat) : ReadOnly (Buf.splitterBody P level B i) :=
  fun _ _ _ _ => trivial

theorem splitter_readOnly (i : Nat) : ReadOnly (Buf.splitter P level B i) := by
  unfold Buf.splitter
  have h : ReadOnly (if P.levelRestrict && B.force i then Buf.splitterBody P level B i
      else .pure [] : Loads) := by
    split
    · exact splitterBody_readOnly i
    · trivial
  simp only
  split
  · intro l
    show ReadOnly (if _ then _ else _ : Loads)
    split
    · exact splitterBody_readOnly i
    · exact h
  · exact h

/-- The stores of the work item of box `i`. -/
theorem stores_splitter (i : Nat) : stores (Buf.splitter P level B i) B.mem =
    if B.doSplit P level i then (List.range P.nch).flatMap
      (Buf.childStores P i (B.bins i) (B.splitId P level i) (B.lev i) (B.start i) (B.center i)
        (B.stored i)) else [] := by
  have hb : stores (Buf.splitterBody P level B i) B.mem = (List.range P.nch).flatMap
      (Buf.childStores P i (B.bins i) (B.splitId P level i) (B.lev i) (B.start i) (B.center i)
        (B.stored i)) := rfl
  have hr : stores (if P.levelRestrict && B.force i then Buf.splitterBody P level B i
      else .pure [] : Loads) B.mem = if P.levelRestrict && B.force i then
      stores (Buf.splitterBody P level B i) B.mem else [] := by
    split <;> rfl
  unfold Buf.splitter Buf.doSplit
  simp only
  cases hh : B.hasCh i with
  | false =>
    rw [if_neg (by simp), hr, hb]
    simp
  | true =>
    rw [if_pos rfl]
    change stores (if B.lev i + 1 = level then _ else _ : Loads) B.mem = _
    by_cases hl : B.lev i + 1 = level
    · rw [if_pos hl, hb]; simp [hl]
    · rw [if_neg hl, hr, hb]; simp [hl]

/-- What the work item of box `i` loads: the level of a box with children, and entries of boxes that are
split. -/
theorem reads_splitter {i : Nat} {a : Loc} (h : Reads (Buf.splitter P level B i) B.mem a) :
    (a = .lev i ∨ a = .start i ∨ a = .center i ∨ a = .stored i) ∧
      (B.hasCh i = true ∨ B.doSplit P level i = true) := by
  have hb : Reads (Buf.splitterBody P level B i) B.mem a →
      (a = .lev i ∨ a = .start i ∨ a = .center i ∨ a = .stored i) := by
    rintro (h | h | h | h | h)
    · exact .inl h
    · exact .inr (.inl h)
    · exact .inr (.inr (.inl h))
    · exact .inr (.inr (.inr h))
    · exact h.elim
  have hr : Reads (if P.levelRestrict && B.force i then Buf.splitterBody P level B i
      else .pure [] : Loads) B.mem a →
      (a = .lev i ∨ a = .start i ∨ a = .center i ∨ a = .stored i) ∧ B.doSplit P level i = true := by
    intro h
    split at h
    · rename_i hf
      exact ⟨hb h, by unfold Buf.doSplit; rw [hf]; simp⟩
    · exact h.elim
  unfold Buf.splitter at h
  simp only at h
  cases hh : B.hasCh i with
  | false =>
    rw [hh, if_neg (by simp)] at h
    exact ⟨(hr h).1, .inr (hr h).2⟩
  | true =>
    rw [hh, if_pos rfl] at h
    refine ⟨?_, .inl rfl⟩
    rcases h with h | h
    · exact .inl h
    · change Reads (if B.lev i + 1 = level then _ else _ : Loads) B.mem a at h
      split at h
      · exact hb h
      · exact (hr h).1

namespace Room

/-- A new box has one writer. -/
theorem writer_child (h : Room P level nnew B s) {b m : Nat} (hb : B.doSplit P level b = true)
    (hm : m < P.nch) : B.writer P level nnew (B.firstChild P level b + m) = some b := by
  obtain ⟨l, k, hl, hk, rfl, hW⟩ := h.doSplit_cases hb
  rw [h.firstChild_eq hl hk hW, Nat.add_assoc]
  exact h.writer_new hl hk hW hm

theorem writer_some {c b : Nat} (h : B.writer P level nnew c = some b) :
    b < nnew ∧ B.doSplit P level b = true ∧ ∃ m < P.nch, c = B.firstChild P level b + m := by
  unfold Buf.writer at h
  have h1 := List.find?_some h
  have h2 := List.mem_range.1 (List.mem_of_find?_eq_some h)
  simp only [Bool.and_eq_true, decide_eq_true_eq] at h1
  exact ⟨h2, h1.1.1, c - B.firstChild P level b, by omega, by omega⟩

/-- A new box was unused. -/
theorem child_unused (h : Room P level nnew B s) {b m : Nat} (hb : B.doSplit P level b = true)
    (hm : m < P.nch) : Unused B.lstart s.used level (B.firstChild P level b + m) := by
  obtain ⟨l, k, hl, hk, rfl, hW⟩ := h.doSplit_cases hb
  rw [h.firstChild_eq hl hk hW, Nat.add_assoc]
  exact h.unused_new hl (by unfold newBase; omega) (h.child_lt hk hW hm)

theorem split_lt (h : Room P level nnew B s) {b : Nat} (hb : B.doSplit P level b = true) :
    b < nnew := by
  obtain ⟨l, k, hl, hk, rfl, hW⟩ := h.doSplit_cases hb
  have := h.rel.lay.lt_level hl hk
  have := h.le_nnew
  omega

end Room

/-- The stores by cell. -/
theorem mem_stores {i : Nat} {w : (a : Loc) × a.T} (h : w ∈ stores (Buf.splitter P level B i) B.mem) :
    B.doSplit P level i = true ∧ ∃ m < P.nch,
      w ∈ Buf.childStores P i (B.bins i) (B.splitId P level i) (B.lev i) (B.start i) (B.center i)
        (B.stored i) m := by
  rw [stores_splitter] at h
  split at h
  · rename_i hs
    obtain ⟨m, hm, hw⟩ := List.mem_flatMap.1 h
    exact ⟨hs, m, List.mem_range.1 hm, hw⟩
  · cases h

theorem mem_stores_of {i m : Nat} {w : (a : Loc) × a.T} (hs : B.doSplit P level i = true)
    (hm : m < P.nch) (hw : w ∈ Buf.childStores P i (B.bins i) (B.splitId P level i) (B.lev i)
      (B.start i) (B.center i) (B.stored i) m) : w ∈ stores (Buf.splitter P level B i) B.mem := by
  rw [stores_splitter, if_pos hs]
  exact List.mem_flatMap.2 ⟨m, List.mem_range.2 hm, hw⟩

/-- The box of a cell that belongs to a new box. -/
def Loc.newBox? : Loc → Option Nat
  | .parent b | .lev b | .count b | .start b | .center b | .stored b => some b
  | _ => none

/-- What is stored where. -/
theorem childStores_cases {i sid l st : Nat} {bins : Bins} {ce cs : Nat → ℚ} {m : Nat}
    {w : (a : Loc) × a.T} (h : w ∈ Buf.childStores P i bins sid l st ce cs m) :
    w.1.newBox? = some (sid - P.nch + m) ∨ w = ⟨.child m i, sid - P.nch + m⟩ ∨
      (0 < bins.pcnt m ∧
        w = ⟨.flag (st + bins.nonchild + ((List.range m).map bins.pcnt).sum), true⟩) := by
  unfold Buf.childStores at h
  simp only [List.mem_append, List.mem_cons, List.not_mem_nil, or_false] at h
  rcases h with ((rfl | rfl | rfl | rfl) | h) | rfl | rfl
  · exact .inl rfl
  · exact .inr (.inl rfl)
  · exact .inl rfl
  · exact .inl rfl
  · split at h
    · rename_i hp
      simp only [List.mem_cons, List.not_mem_nil, or_false] at h
      rcases h with rfl | rfl
      · exact .inr (.inr ⟨hp, rfl⟩)
      · exact .inl rfl
    · cases h
  · exact .inl rfl
  · exact .inl rfl

/-- **No races in the splitter.** -/
theorem Room.splitter_raceFree (h : Room P level nnew B s) :
    RaceFree nnew (fun i => thenStore (Buf.splitter P level B i)) B.mem := by
  apply raceFree_thenStore splitter_readOnly
  · intro i j hi hj hij a hr v hv
    obtain ⟨hs, m, hm, hw⟩ := mem_stores hv
    obtain ⟨ha, hi'⟩ := reads_splitter hr
    have hnew : a.newBox? = some i := by rcases ha with rfl | rfl | rfl | rfl <;> rfl
    have hu := h.child_unused hs hm
    rcases childStores_cases hw with e | e | ⟨_, e⟩
    · have e' : i = B.firstChild P level j + m := by
        have : a.newBox? = some (B.splitId P level j - P.nch + m) := e
        rw [hnew] at this
        exact Option.some.inj this
      rw [← e'] at hu
      rcases hi' with hh | hh
      · rw [(h.rel.blank i hu).hasCh] at hh; cases hh
      · rw [h.doSplit_unused hu] at hh; cases hh
    · have : a = .child m j := congrArg Sigma.fst e
      subst this; cases hnew
    · have := congrArg Sigma.fst e
      simp only at this
      subst this; cases hnew
  · intro i j hi hj hij a v v' hv hv'
    obtain ⟨hs, m, hm, hw⟩ := mem_stores hv
    obtain ⟨hs', m', hm', hw'⟩ := mem_stores hv'
    rcases childStores_cases hw with e | e | ⟨_, e⟩
    · rcases childStores_cases hw' with e' | e' | ⟨_, e'⟩
      · exfalso
        have e1 : a.newBox? = some (B.firstChild P level i + m) := e
        have e2 : a.newBox? = some (B.firstChild P level j + m') := e'
        have e3 := Option.some.inj (e1.symm.trans e2)
        have h1 := h.writer_child hs hm
        rw [e3, h.writer_child hs' hm'] at h1
        exact hij (Option.some.inj h1).symm
      · have := congrArg Sigma.fst e'
        simp only at this
        subst this; cases e
      · have := congrArg Sigma.fst e'
        simp only at this
        subst this; cases e
    · have e1 := congrArg Sigma.fst e
      simp only at e1
      subst e1
      rcases childStores_cases hw' with e' | e' | ⟨_, e'⟩
      · cases e'
      · have := congrArg Sigma.fst e'
        simp only [Loc.child.injEq] at this
        exact absurd this.2 hij
      · have := congrArg Sigma.fst e'
        cases this
    · have e1 := congrArg Sigma.fst e
      simp only at e1
      subst e1
      rcases childStores_cases hw' with e' | e' | ⟨_, e'⟩
      · cases e'
      · have := congrArg Sigma.fst e'
        cases this
      · have h1 : v = true := eq_of_heq (Sigma.mk.inj e).2
        have h2 : v' = true := eq_of_heq ((Sigma.mk.inj_iff.1 e').2)
        rw [h1, h2]

section Cells
variable {i sid l st : Nat} {bins : Bins} {ce cs : Nat → ℚ} {m : Nat}

theorem mem_childStores {w : (a : Loc) × a.T} : w ∈ Buf.childStores P i bins sid l st ce cs m ↔
    w = ⟨.parent (sid - P.nch + m), i⟩ ∨ w = ⟨.child m i, sid - P.nch + m⟩ ∨
    w = ⟨.lev (sid - P.nch + m), l + 1⟩ ∨ w = ⟨.count (sid - P.nch + m), bins.pcnt m⟩ ∨
    (0 < bins.pcnt m ∧
      (w = ⟨.flag (st + bins.nonchild + ((List.range m).map bins.pcnt).sum), true⟩ ∨
        w = ⟨.start (sid - P.nch + m), st + bins.nonchild + ((List.range m).map bins.pcnt).sum⟩)) ∨
    w = ⟨.center (sid - P.nch + m), fun a =>
        if m / 2 ^ (P.dims - 1 - a) % 2 = 1 then ce a + P.rootExtent / 2 ^ (1 + (l + 1))
        else ce a - P.rootExtent / 2 ^ (1 + (l + 1))⟩ ∨
    w = ⟨.stored (sid - P.nch + m), fun a =>
        if m / 2 ^ (P.dims - 1 - a) % 2 = 1 then P.fl (cs a + P.fl (P.rootExtent / 2 ^ (1 + (l + 1))))
        else P.fl (cs a - P.fl (P.rootExtent / 2 ^ (1 + (l + 1))))⟩ := by
  unfold Buf.childStores
  by_cases hp : 0 < bins.pcnt m
  · simp only [hp, if_true, List.mem_append, List.mem_cons, List.not_mem_nil, or_false, true_and]
    tauto
  · simp only [hp, if_false, List.mem_append, List.mem_cons, List.not_mem_nil, or_false, false_and,
      false_or]
    tauto

theorem mem_parent {c : Nat} {v : Nat}
    (h : ⟨.parent c, v⟩ ∈ Buf.childStores P i bins sid l st ce cs m) :
    c = sid - P.nch + m ∧ v = i := by
  rcases mem_childStores.1 h with e | e | e | e | ⟨hp, e | e⟩ | e | e
  · exact ⟨Loc.parent.inj (congrArg Sigma.fst e), eq_of_heq (Sigma.mk.inj_iff.1 e).2⟩
  · cases congrArg Sigma.fst e
  · cases congrArg Sigma.fst e
  · cases congrArg Sigma.fst e
  · cases congrArg Sigma.fst e
  · cases congrArg Sigma.fst e
  · cases congrArg Sigma.fst e
  · cases congrArg Sigma.fst e

theorem mem_lev {c : Nat} {v : Nat}
    (h : ⟨.lev c, v⟩ ∈ Buf.childStores P i bins sid l st ce cs m) :
    c = sid - P.nch + m ∧ v = l + 1 := by
  rcases mem_childStores.1 h with e | e | e | e | ⟨hp, e | e⟩ | e | e
  · cases congrArg Sigma.fst e
  · cases congrArg Sigma.fst e
  · exact ⟨Loc.lev.inj (congrArg Sigma.fst e), eq_of_heq (Sigma.mk.inj_iff.1 e).2⟩
  · cases congrArg Sigma.fst e
  · cases congrArg Sigma.fst e
  · cases congrArg Sigma.fst e
  · cases congrArg Sigma.fst e
  · cases congrArg Sigma.fst e

theorem mem_count {c : Nat} {v : Nat}
    (h : ⟨.count c, v⟩ ∈ Buf.childStores P i bins sid l st ce cs m) :
    c = sid - P.nch + m ∧ v = bins.pcnt m := by
  rcases mem_childStores.1 h with e | e | e | e | ⟨hp, e | e⟩ | e | e
  · cases congrArg Sigma.fst e
  · cases congrArg Sigma.fst e
  · cases congrArg Sigma.fst e
  · exact ⟨Loc.count.inj (congrArg Sigma.fst e), eq_of_heq (Sigma.mk.inj_iff.1 e).2⟩
  · cases congrArg Sigma.fst e
  · cases congrArg Sigma.fst e
  · cases congrArg Sigma.fst e
  · cases congrArg Sigma.fst e

theorem mem_start {c : Nat} {v : Nat}
    (h : ⟨.start c, v⟩ ∈ Buf.childStores P i bins sid l st ce cs m) :
    c = sid - P.nch + m ∧ 0 < bins.pcnt m ∧ v = st + bins.nonchild + ((List.range m).map bins.pcnt).sum := by
  rcases mem_childStores.1 h with e | e | e | e | ⟨hp, e | e⟩ | e | e
  · cases congrArg Sigma.fst e
  · cases congrArg Sigma.fst e
  · cases congrArg Sigma.fst e
  · cases congrArg Sigma.fst e
  · cases congrArg Sigma.fst e
  · exact ⟨Loc.start.inj (congrArg Sigma.fst e), hp, eq_of_heq (Sigma.mk.inj_iff.1 e).2⟩
  · cases congrArg Sigma.fst e
  · cases congrArg Sigma.fst e

theorem mem_center {c : Nat} {v : Nat → ℚ}
    (h : ⟨.center c, v⟩ ∈ Buf.childStores P i bins sid l st ce cs m) :
    c = sid - P.nch + m ∧ v = fun a =>
        if m / 2 ^ (P.dims - 1 - a) % 2 = 1 then ce a + P.rootExtent / 2 ^ (1 + (l + 1))
        else ce a - P.rootExtent / 2 ^ (1 + (l + 1)) := by
  rcases mem_childStores.1 h with e | e | e | e | ⟨hp, e | e⟩ | e | e
  · cases congrArg Sigma.fst e
  · cases congrArg Sigma.fst e
  · cases congrArg Sigma.fst e
  · cases congrArg Sigma.fst e
  · cases congrArg Sigma.fst e
  · cases congrArg Sigma.fst e
  · exact ⟨Loc.center.inj (congrArg Sigma.fst e), eq_of_heq (Sigma.mk.inj_iff.1 e).2⟩
  · cases congrArg Sigma.fst e

theorem mem_stored {c : Nat} {v : Nat → ℚ}
    (h : ⟨.stored c, v⟩ ∈ Buf.childStores P i bins sid l st ce cs m) :
    c = sid - P.nch + m ∧ v = fun a =>
        if m / 2 ^ (P.dims - 1 - a) % 2 = 1 then P.fl (cs a + P.fl (P.rootExtent / 2 ^ (1 + (l + 1))))
        else P.fl (cs a - P.fl (P.rootExtent / 2 ^ (1 + (l + 1)))) := by
  rcases mem_childStores.1 h with e | e | e | e | ⟨hp, e | e⟩ | e | e
  · cases congrArg Sigma.fst e
  · cases congrArg Sigma.fst e
  · cases congrArg Sigma.fst e
  · cases congrArg Sigma.fst e
  · cases congrArg Sigma.fst e
  · cases congrArg Sigma.fst e
  · cases congrArg Sigma.fst e
  · exact ⟨Loc.stored.inj (congrArg Sigma.fst e), eq_of_heq (Sigma.mk.inj_iff.1 e).2⟩

theorem mem_child {m' b : Nat} {v : Nat}
    (h : ⟨.child m' b, v⟩ ∈ Buf.childStores P i bins sid l st ce cs m) :
    m' = m ∧ b = i ∧ v = sid - P.nch + m := by
  rcases mem_childStores.1 h with e | e | e | e | ⟨hp, e | e⟩ | e | e
  · cases congrArg Sigma.fst e
  · have := congrArg Sigma.fst e
    simp only [Loc.child.injEq] at this
    exact ⟨this.1, this.2, eq_of_heq (Sigma.mk.inj_iff.1 e).2⟩
  · cases congrArg Sigma.fst e
  · cases congrArg Sigma.fst e
  · cases congrArg Sigma.fst e
  · cases congrArg Sigma.fst e
  · cases congrArg Sigma.fst e
  · cases congrArg Sigma.fst e

theorem mem_flag {j : Nat} {v : Bool}
    (h : ⟨.flag j, v⟩ ∈ Buf.childStores P i bins sid l st ce cs m) :
    0 < bins.pcnt m ∧ j = st + bins.nonchild + ((List.range m).map bins.pcnt).sum ∧ v = true := by
  rcases mem_childStores.1 h with e | e | e | e | ⟨hp, e | e⟩ | e | e
  · cases congrArg Sigma.fst e
  · cases congrArg Sigma.fst e
  · cases congrArg Sigma.fst e
  · cases congrArg Sigma.fst e
  · exact ⟨hp, Loc.flag.inj (congrArg Sigma.fst e), eq_of_heq (Sigma.mk.inj_iff.1 e).2⟩
  · cases congrArg Sigma.fst e
  · cases congrArg Sigma.fst e
  · cases congrArg Sigma.fst e

end Cells

/-- The memory after the splitter. -/
def afterSplitter (P : Params) (level nnew : Nat) (B : Buf) (σ : List Nat) : Mem Loc.T :=
  launch σ nnew (fun i => thenStore (Buf.splitter P level B i)) B.mem

namespace Room

theorem kept (h : Room P level nnew B s) (σ : List Nat) {a : Loc}
    (ha : ∀ b m v, B.doSplit P level b = true → m < P.nch →
      ⟨a, v⟩ ∉ Buf.childStores P b (B.bins b) (B.splitId P level b) (B.lev b) (B.start b) (B.center b)
        (B.stored b) m) : afterSplitter P level nnew B σ a = B.mem a := by
  apply launch_unstored σ splitter_readOnly h.splitter_raceFree
  intro i _ v hv
  obtain ⟨hs, m, hm, hw⟩ := mem_stores hv
  exact ha i m v hs hm hw

theorem set (h : Room P level nnew B s) (σ : List Nat) {a : Loc} {v : a.T}
    (hex : ∃ b m, B.doSplit P level b = true ∧ m < P.nch ∧
      ⟨a, v⟩ ∈ Buf.childStores P b (B.bins b) (B.splitId P level b) (B.lev b) (B.start b) (B.center b)
        (B.stored b) m)
    (hall : ∀ b m v', B.doSplit P level b = true → m < P.nch →
      ⟨a, v'⟩ ∈ Buf.childStores P b (B.bins b) (B.splitId P level b) (B.lev b) (B.start b) (B.center b)
        (B.stored b) m → v' = v) : afterSplitter P level nnew B σ a = v := by
  apply launch_stored σ splitter_readOnly h.splitter_raceFree
  · intro i _ v' hv
    obtain ⟨hs, m, hm, hw⟩ := mem_stores hv
    exact hall i m v' hs hm hw
  · obtain ⟨b, m, hs, hm, hw⟩ := hex
    exact ⟨b, h.split_lt hs, mem_stores_of hs hm hw⟩

/-- The writer of a new box and the Morton number are unique. -/
theorem child_unique (h : Room P level nnew B s) {b b' m m' : Nat} (hb : B.doSplit P level b = true)
    (hm : m < P.nch) (hb' : B.doSplit P level b' = true) (hm' : m' < P.nch)
    (e : B.firstChild P level b + m = B.splitId P level b' - P.nch + m') : b' = b ∧ m' = m := by
  change _ = B.firstChild P level b' + m' at e
  have h1 := h.writer_child hb hm
  rw [e, h.writer_child hb' hm'] at h1
  have := Option.some.inj h1
  subst this
  exact ⟨rfl, by omega⟩

theorem after_parent (h : Room P level nnew B s) (σ : List Nat) (c : Nat) :
    afterSplitter P level nnew B σ (.parent c) = match B.writer P level nnew c with
      | some b => b
      | none => B.parent c := by
  cases hw : B.writer P level nnew c with
  | none =>
    refine h.kept σ fun b m v hs hm hv => ?_
    have e := (mem_parent hv).1
    rw [e] at hw
    have := h.writer_child hs hm
    unfold Buf.firstChild at this
    rw [hw] at this
    cases this
  | some b =>
    obtain ⟨_, hs, m, hm, rfl⟩ := writer_some hw
    simp only
    refine h.set σ ⟨b, m, hs, hm, ?_⟩ ?_
    · exact mem_childStores.2 (by simp [Buf.firstChild])
    · intro b' m' v' hs' hm' hv'
      have e := mem_parent hv'
      obtain ⟨rfl, rfl⟩ := h.child_unique hs hm hs' hm' e.1
      exact e.2

theorem after_lev (h : Room P level nnew B s) (σ : List Nat) (c : Nat) :
    afterSplitter P level nnew B σ (.lev c) = match B.writer P level nnew c with
      | some b => B.lev b + 1
      | none => B.lev c := by
  cases hw : B.writer P level nnew c with
  | none =>
    refine h.kept σ fun b m v hs hm hv => ?_
    have e := (mem_lev hv).1
    rw [e] at hw
    have := h.writer_child hs hm
    unfold Buf.firstChild at this
    rw [hw] at this
    cases this
  | some b =>
    obtain ⟨_, hs, m, hm, rfl⟩ := writer_some hw
    simp only
    refine h.set σ ⟨b, m, hs, hm, ?_⟩ ?_
    · exact mem_childStores.2 (by simp [Buf.firstChild])
    · intro b' m' v' hs' hm' hv'
      have e := mem_lev hv'
      obtain ⟨rfl, rfl⟩ := h.child_unique hs hm hs' hm' e.1
      exact e.2

theorem after_count (h : Room P level nnew B s) (σ : List Nat) (c : Nat) :
    afterSplitter P level nnew B σ (.count c) = match B.writer P level nnew c with
      | some b => (B.bins b).pcnt (c - B.firstChild P level b)
      | none => B.count c := by
  cases hw : B.writer P level nnew c with
  | none =>
    refine h.kept σ fun b m v hs hm hv => ?_
    have e := (mem_count hv).1
    rw [e] at hw
    have := h.writer_child hs hm
    unfold Buf.firstChild at this
    rw [hw] at this
    cases this
  | some b =>
    obtain ⟨_, hs, m, hm, rfl⟩ := writer_some hw
    have em : B.firstChild P level b + m - B.firstChild P level b = m := by omega
    simp only [em]
    refine h.set σ ⟨b, m, hs, hm, ?_⟩ ?_
    · exact mem_childStores.2 (by simp [Buf.firstChild])
    · intro b' m' v' hs' hm' hv'
      have e := mem_count hv'
      obtain ⟨rfl, rfl⟩ := h.child_unique hs hm hs' hm' e.1
      exact e.2

theorem after_center (h : Room P level nnew B s) (σ : List Nat) (c : Nat) :
    afterSplitter P level nnew B σ (.center c) = match B.writer P level nnew c with
      | some b => fun a =>
        if (c - B.firstChild P level b) / 2 ^ (P.dims - 1 - a) % 2 = 1
        then B.center b a + P.rootExtent / 2 ^ (1 + (B.lev b + 1))
        else B.center b a - P.rootExtent / 2 ^ (1 + (B.lev b + 1))
      | none => B.center c := by
  cases hw : B.writer P level nnew c with
  | none =>
    refine h.kept σ fun b m v hs hm hv => ?_
    have e := (mem_center hv).1
    rw [e] at hw
    have := h.writer_child hs hm
    unfold Buf.firstChild at this
    rw [hw] at this
    cases this
  | some b =>
    obtain ⟨_, hs, m, hm, rfl⟩ := writer_some hw
    have em : B.firstChild P level b + m - B.firstChild P level b = m := by omega
    simp only [em]
    refine h.set σ ⟨b, m, hs, hm, ?_⟩ ?_
    · exact mem_childStores.2 (by simp [Buf.firstChild])
    · intro b' m' v' hs' hm' hv'
      have e := mem_center hv'
      obtain ⟨rfl, rfl⟩ := h.child_unique hs hm hs' hm' e.1
      exact e.2

theorem after_stored (h : Room P level nnew B s) (σ : List Nat) (c : Nat) :
    afterSplitter P level nnew B σ (.stored c) = match B.writer P level nnew c with
      | some b => fun a =>
        if (c - B.firstChild P level b) / 2 ^ (P.dims - 1 - a) % 2 = 1
        then P.fl (B.stored b a + P.fl (P.rootExtent / 2 ^ (1 + (B.lev b + 1))))
        else P.fl (B.stored b a - P.fl (P.rootExtent / 2 ^ (1 + (B.lev b + 1))))
      | none => B.stored c := by
  cases hw : B.writer P level nnew c with
  | none =>
    refine h.kept σ fun b m v hs hm hv => ?_
    have e := (mem_stored hv).1
    rw [e] at hw
    have := h.writer_child hs hm
    unfold Buf.firstChild at this
    rw [hw] at this
    cases this
  | some b =>
    obtain ⟨_, hs, m, hm, rfl⟩ := writer_some hw
    have em : B.firstChild P level b + m - B.firstChild P level b = m := by omega
    simp only [em]
    refine h.set σ ⟨b, m, hs, hm, ?_⟩ ?_
    · exact mem_childStores.2 (by simp [Buf.firstChild])
    · intro b' m' v' hs' hm' hv'
      have e := mem_stored hv'
      obtain ⟨rfl, rfl⟩ := h.child_unique hs hm hs' hm' e.1
      exact e.2

theorem after_start (h : Room P level nnew B s) (σ : List Nat) (c : Nat) :
    afterSplitter P level nnew B σ (.start c) = match B.writer P level nnew c with
      | some b => if 0 < (B.bins b).pcnt (c - B.firstChild P level b) then
          B.childStart b (c - B.firstChild P level b) else B.start c
      | none => B.start c := by
  cases hw : B.writer P level nnew c with
  | none =>
    refine h.kept σ fun b m v hs hm hv => ?_
    have e := (mem_start hv).1
    rw [e] at hw
    have := h.writer_child hs hm
    unfold Buf.firstChild at this
    rw [hw] at this
    cases this
  | some b =>
    obtain ⟨_, hs, m, hm, rfl⟩ := writer_some hw
    have em : B.firstChild P level b + m - B.firstChild P level b = m := by omega
    simp only [em]
    by_cases hp : 0 < (B.bins b).pcnt m
    · refine Eq.trans ?_ (if_pos hp).symm
      refine h.set σ ⟨b, m, hs, hm, ?_⟩ ?_
      · exact mem_childStores.2 (by simp [Buf.firstChild, Buf.childStart, hp])
      · intro b' m' v' hs' hm' hv'
        have e := mem_start hv'
        obtain ⟨rfl, rfl⟩ := h.child_unique hs hm hs' hm' e.1
        exact e.2.2
    · refine Eq.trans ?_ (if_neg hp).symm
      refine h.kept σ fun b' m' v' hs' hm' hv' => ?_
      have e := mem_start hv'
      obtain ⟨rfl, rfl⟩ := h.child_unique hs hm hs' hm' e.1
      exact hp e.2.1

theorem after_child (h : Room P level nnew B s) (σ : List Nat) (m b : Nat) :
    afterSplitter P level nnew B σ (.child m b) =
      if b < nnew ∧ m < P.nch ∧ B.doSplit P level b = true then B.firstChild P level b + m
      else B.child m b := by
  split
  · rename_i hc
    refine h.set σ ⟨b, m, hc.2.2, hc.2.1, ?_⟩ ?_
    · exact mem_childStores.2 (by simp [Buf.firstChild])
    · intro b' m' v' _ _ hv'
      obtain ⟨rfl, rfl, e⟩ := mem_child hv'
      exact e
  · rename_i hc
    refine h.kept σ fun b' m' v' hs' hm' hv' => hc ?_
    obtain ⟨rfl, rfl, e⟩ := mem_child hv'
    exact ⟨h.split_lt hs', hm', hs'⟩

theorem after_flag (h : Room P level nnew B s) (σ : List Nat) (i : Nat) :
    afterSplitter P level nnew B σ (.flag i) = (B.flag i || (List.range nnew).any fun b =>
      B.doSplit P level b && (List.range P.nch).any fun m =>
        decide (0 < (B.bins b).pcnt m) && decide (B.childStart b m = i)) := by
  by_cases hc : ∃ b m, B.doSplit P level b = true ∧ m < P.nch ∧ 0 < (B.bins b).pcnt m ∧
      B.childStart b m = i
  · obtain ⟨b, m, hs, hm, hp, rfl⟩ := hc
    have e : (B.flag (B.childStart b m) || (List.range nnew).any fun b' =>
      B.doSplit P level b' && (List.range P.nch).any fun m' =>
        decide (0 < (B.bins b').pcnt m') && decide (B.childStart b' m' = B.childStart b m)) = true := by
      rw [Bool.or_eq_true]
      refine .inr (List.any_eq_true.2 ⟨b, List.mem_range.2 (h.split_lt hs), ?_⟩)
      rw [hs, Bool.true_and]
      exact List.any_eq_true.2 ⟨m, List.mem_range.2 hm, by simp [hp]⟩
    rw [e]
    refine h.set σ ⟨b, m, hs, hm, ?_⟩ ?_
    · exact mem_childStores.2 (by simp [Buf.childStart, hp])
    · intro b' m' v' _ _ hv'
      exact (mem_flag hv').2.2
  · have e : ((List.range nnew).any fun b =>
      B.doSplit P level b && (List.range P.nch).any fun m =>
        decide (0 < (B.bins b).pcnt m) && decide (B.childStart b m = i)) = false := by
      rw [List.any_eq_false]
      intro b _ hx
      rw [Bool.and_eq_true, List.any_eq_true] at hx
      obtain ⟨hs, m, hm, hx⟩ := hx
      simp only [Bool.and_eq_true, decide_eq_true_eq] at hx
      exact hc ⟨b, m, hs, List.mem_range.1 hm, hx.1, hx.2⟩
    rw [e, Bool.or_false]
    refine h.kept σ fun b m v hs hm hv => hc ?_
    obtain ⟨hp, e, _⟩ := mem_flag hv
    exact ⟨b, m, hs, hm, hp, e.symm⟩

/-- **The splitter** leaves the same arrays for every schedule. -/
theorem runSplitter_eq (h : Room P level nnew B s) (σ : List Nat) :
    B.runSplitter P σ level nnew = B.splitBoxes P level nnew := by
  unfold Buf.runSplitter Buf.splitBoxes
  change { B with
    parent := fun b => afterSplitter P level nnew B σ (.parent b)
    child := fun k b => afterSplitter P level nnew B σ (.child k b)
    lev := fun b => if B.lstart level + B.newUsed P level level ≤ b ∧ b < nnew then level
      else afterSplitter P level nnew B σ (.lev b)
    count := fun b => afterSplitter P level nnew B σ (.count b)
    start := fun b => afterSplitter P level nnew B σ (.start b)
    flag := fun i => afterSplitter P level nnew B σ (.flag i)
    center := fun b => afterSplitter P level nnew B σ (.center b)
    stored := fun b => afterSplitter P level nnew B σ (.stored b) } = _
  congr 1
  · funext i; exact h.after_flag σ i
  · funext c; exact h.after_start σ c
  · funext c; exact h.after_count σ c
  · funext c; exact h.after_parent σ c
  · funext m b; exact h.after_child σ m b
  · funext c
    refine (h.after_center σ c).trans ?_
    funext a
    cases B.writer P level nnew c <;> rfl
  · funext c
    refine (h.after_stored σ c).trans ?_
    funext a
    cases B.writer P level nnew c <;> rfl
  · funext c; rw [h.after_lev σ c]; rfl

/-! ### Particles -/

/-- The renumberer sees the entries from before the splitter. -/
theorem renumberer_eq (h : Room P level nnew B s) {i : Nat} (hi : i < P.n) :
    Buf.renumberer P level B (B.splitBoxes P level nnew) i =
      [⟨.newIds (B.target P level i), B.ids i⟩, ⟨.newBox (B.target P level i), B.newBox P level i⟩] := by
  have hb := inBoxes h.pre i hi
  have hbox : B.box i = B.lstart ((markSplit P level s).box i).1 + ((markSplit P level s).box i).2 :=
    h.rel.box i
  have hw : B.writer P level nnew (B.box i) = none := by
    rw [hbox]; exact h.writer_old hb.1 hb.2
  have hlt : B.box i < B.lstart level := by
    rw [hbox]; exact h.rel.lay.lt_level hb.1 hb.2
  have e1 : (B.splitBoxes P level nnew).lev (B.box i) = B.lev (B.box i) := by
    unfold Buf.splitBoxes
    simp only [hw]
    rw [if_neg (by omega)]
  have e2 : (B.splitBoxes P level nnew).start (B.box i) = B.start (B.box i) := by
    unfold Buf.splitBoxes
    simp only [hw]
  unfold Buf.renumberer
  change (if (B.hasCh (B.box i) && decide ((B.splitBoxes P level nnew).lev (B.box i) + 1 = level)) ||
    (P.levelRestrict && B.force (B.box i)) then _ else _) = _
  rw [e1]
  change (if B.doSplit P level (B.box i) then _ else _) = _
  by_cases hs : B.doSplit P level (B.box i) = true
  · have ht : B.target P level i = B.start (B.box i) + getCount (B.scanItem P i) (B.mortonNr P i) - 1
        + (match B.mortonNr P i with | none => 0 | some _ => (B.bins (B.box i)).nonchild)
        + (match B.mortonNr P i with
          | none => 0 | some m => ((List.range m).map (B.bins (B.box i)).pcnt).sum) := by
      unfold Buf.target; simp only [hs, if_true]; rfl
    have hn : B.newBox P level i = match B.mortonNr P i with
        | none => B.box i | some m => B.firstChild P level (B.box i) + m := by
      unfold Buf.newBox; simp only [hs, if_true]; rfl
    rw [if_pos hs, ht, hn, ← e2]
    rfl
  · have ht : B.target P level i = i := by
      unfold Buf.target; simp only; rw [if_neg hs]
    have hn : B.newBox P level i = B.box i := by
      unfold Buf.newBox; simp only; rw [if_neg hs]
    rw [if_neg hs, ht, hn]
    rfl

theorem mem_renumberer {w : (a : Loc) × a.T} {t x y : Nat}
    (h : w ∈ ([⟨.newIds t, x⟩, ⟨.newBox t, y⟩] : Stores)) :
    w = ⟨.newIds t, x⟩ ∨ w = ⟨.newBox t, y⟩ := by
  simpa using h

theorem renumberer_raceFree (h : Room P level nnew B s) {m : Mem Loc.T} :
    RaceFree P.n (fun i => thenStore
      (.pure (Buf.renumberer P level B (B.splitBoxes P level nnew) i) : Loads)) m := by
  refine raceFree_thenStore (rs := fun i =>
    (.pure (Buf.renumberer P level B (B.splitBoxes P level nnew) i) : Loads)) (fun _ => trivial) ?_ ?_
  · intro i j _ _ _ a hr
    exact hr.elim
  · intro i j hi hj hij a v v' hv hv'
    change _ ∈ Buf.renumberer P level B (B.splitBoxes P level nnew) i at hv
    change _ ∈ Buf.renumberer P level B (B.splitBoxes P level nnew) j at hv'
    rw [h.renumberer_eq hi] at hv
    rw [h.renumberer_eq hj] at hv'
    have hne : B.target P level i ≠ B.target P level j := by
      rw [h.target_eq hi, h.target_eq hj]
      exact fun e => hij (h.pre.target_inj hi hj e)
    rcases mem_renumberer hv with e | e <;> rcases mem_renumberer hv' with e' | e' <;>
      have e1 := congrArg Sigma.fst e <;> have e2 := congrArg Sigma.fst e' <;>
      simp only at e1 e2 <;> subst e1
    · exact absurd (Loc.newIds.inj e2) hne
    · cases e2
    · cases e2
    · exact absurd (Loc.newBox.inj e2) hne

/-- **The renumberer** leaves the same arrays for every schedule. -/
theorem split_eq (h : Room P level nnew B s) (σ τ : List Nat) :
    B.split P σ τ level nnew = B.splitStep P level nnew := by
  unfold Buf.split Buf.splitStep
  rw [h.runSplitter_eq σ]
  have hrf := h.renumberer_raceFree (m := (B.splitBoxes P level nnew).mem)
  have hro : ∀ i, ReadOnly (.pure (Buf.renumberer P level B (B.splitBoxes P level nnew) i) : Loads) :=
    fun _ => trivial
  have hst : ∀ i < P.n, ∀ w : (a : Loc) × a.T,
      w ∈ stores (.pure (Buf.renumberer P level B (B.splitBoxes P level nnew) i) : Loads)
        (B.splitBoxes P level nnew).mem →
      w = ⟨.newIds (B.target P level i), B.ids i⟩ ∨
        w = ⟨.newBox (B.target P level i), B.newBox P level i⟩ := by
    intro i hi w hw
    change w ∈ Buf.renumberer P level B (B.splitBoxes P level nnew) i at hw
    rw [h.renumberer_eq hi] at hw
    exact mem_renumberer hw
  have hinj : ∀ i < P.n, ∀ j < P.n, B.target P level i = B.target P level j → i = j := by
    intro i hi j hj e
    rw [h.target_eq hi, h.target_eq hj] at e
    exact h.pre.target_inj hi hj e
  have hids : ∀ j, launch τ P.n (fun i => thenStore
      (.pure (Buf.renumberer P level B (B.splitBoxes P level nnew) i) : Loads))
      (B.splitBoxes P level nnew).mem (.newIds j) = match B.mover P level j with
      | some i => B.ids i
      | none => (0 : Nat) := by
    intro j
    cases hm : B.mover P level j with
    | none =>
      refine launch_unstored τ hro hrf ?_
      intro i hi v hv
      unfold Buf.mover at hm
      have := List.find?_eq_none.1 hm i (List.mem_range.2 hi)
      rcases hst i hi _ hv with e | e
      · exact this (by simpa using (Loc.newIds.inj (congrArg Sigma.fst e)).symm)
      · cases congrArg Sigma.fst e
    | some i =>
      unfold Buf.mover at hm
      have ht : B.target P level i = j := by simpa using List.find?_some hm
      have hi := List.mem_range.1 (List.mem_of_find?_eq_some hm)
      refine launch_stored τ hro hrf ?_ ⟨i, hi, ?_⟩
      · intro i' hi' v' hv'
        rcases hst i' hi' _ hv' with e | e
        · have := Loc.newIds.inj (congrArg Sigma.fst e)
          have : i' = i := hinj i' hi' i hi (by rw [ht, ← this])
          subst this
          exact eq_of_heq (Sigma.mk.inj_iff.1 e).2
        · cases congrArg Sigma.fst e
      · change _ ∈ Buf.renumberer P level B (B.splitBoxes P level nnew) i
        rw [h.renumberer_eq hi, ht]
        simp
  have hbox : ∀ j, launch τ P.n (fun i => thenStore
      (.pure (Buf.renumberer P level B (B.splitBoxes P level nnew) i) : Loads))
      (B.splitBoxes P level nnew).mem (.newBox j) = match B.mover P level j with
      | some i => B.newBox P level i
      | none => (0 : Nat) := by
    intro j
    cases hm : B.mover P level j with
    | none =>
      refine launch_unstored τ hro hrf ?_
      intro i hi v hv
      unfold Buf.mover at hm
      have := List.find?_eq_none.1 hm i (List.mem_range.2 hi)
      rcases hst i hi _ hv with e | e
      · cases congrArg Sigma.fst e
      · exact this (by simpa using (Loc.newBox.inj (congrArg Sigma.fst e)).symm)
    | some i =>
      unfold Buf.mover at hm
      have ht : B.target P level i = j := by simpa using List.find?_some hm
      have hi := List.mem_range.1 (List.mem_of_find?_eq_some hm)
      refine launch_stored τ hro hrf ?_ ⟨i, hi, ?_⟩
      · intro i' hi' v' hv'
        rcases hst i' hi' _ hv' with e | e
        · cases congrArg Sigma.fst e
        · have := Loc.newBox.inj (congrArg Sigma.fst e)
          have : i' = i := hinj i' hi' i hi (by rw [ht, ← this])
          subst this
          exact eq_of_heq (Sigma.mk.inj_iff.1 e).2
      · change _ ∈ Buf.renumberer P level B (B.splitBoxes P level nnew) i
        rw [h.renumberer_eq hi, ht]
        simp
  simp only
  congr 1
  · funext j; exact hids j
  · funext j; exact hbox j

end Room
end
end Boxtree.Build
