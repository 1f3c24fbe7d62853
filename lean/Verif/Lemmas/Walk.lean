import Verif.Lemmas.Tree
import Verif.Model.Walk
import Mathlib.Data.List.Count
import Mathlib.Algebra.BigOperators.Group.List.Basic

namespace Boxtree
open BoxTree

section
variable {α : Type} (t : BoxTree) (visit : Nat → Nat → List α × Bool)

/-- Recursive depth-first enumeration: what the stack machine computes. -/
def dfs : Nat → Nat → Nat → List α
  | 0, _, _ => []
  | h + 1, k, b => (List.range t.nch).flatMap fun m =>
      let c := t.child m b
      if c = 0 then [] else
        (visit k c).1 ++ if (visit k c).2 then dfs h (k + 1) c else []

/-- contribution of child `m` of `b` -/
def dfsChild (h k b m : Nat) : List α :=
  let c := t.child m b
  if c = 0 then [] else
    (visit k c).1 ++ if (visit k c).2 then dfs t visit h (k + 1) c else []

theorem dfs_succ (h k b : Nat) :
    dfs t visit (h + 1) k b = (List.range t.nch).flatMap (dfsChild t visit h k b) := rfl

variable {t}

theorem walkRun_done (fuel : Nat) (s : WalkState) (acc : List α) (h : s.cont = false) :
    walkRun t visit fuel s acc = some acc := by
  unfold walkRun; simp [h]

theorem walkRun_step (fuel : Nat) (s : WalkState) (acc : List α) (h : s.cont = true) :
    walkRun t visit (fuel + 1) s acc =
      walkRun t visit fuel (walkStep t visit s).1 (acc ++ (walkStep t visit s).2) := by
  rw [walkRun]; simp [h]

theorem walkAdvance_lt (nch : Nat) (stk : List (Nat × Nat)) (p m : Nat) (h : m + 1 < nch) :
    walkAdvance nch stk p m = ⟨stk, p, m + 1, true⟩ := by
  cases stk <;> simp [walkAdvance, h]

theorem walkAdvance_pop (nch : Nat) (stk : List (Nat × Nat)) (b m p' m' : Nat)
    (h : ¬ m + 1 < nch) :
    walkAdvance nch ((p', m') :: stk) b m = walkAdvance nch stk p' m' := by
  simp [walkAdvance, h]

/-- children `m, m+1, ..., nch-1` -/
def restChildren (t : BoxTree) (m : Nat) : List Nat := (List.range (t.nch - m)).map (m + ·)

theorem restChildren_cons {m : Nat} (h : m < t.nch) :
    restChildren t m = m :: restChildren t (m + 1) := by
  unfold restChildren
  have : t.nch - m = (t.nch - (m + 1)) + 1 := by omega
  rw [this, List.range_succ_eq_map]
  simp only [List.map_cons, List.map_map, Nat.add_zero]
  congr 1
  apply List.map_congr_left
  intro a _
  simp; omega

theorem restChildren_end : restChildren t t.nch = [] := by simp [restChildren]

theorem restChildren_zero : restChildren t 0 = List.range t.nch := by
  simp [restChildren]

theorem walkRun_children (hw : t.WF) (h : Nat) : ∀ (b : Nat), b < t.nboxes →
    t.nlevels ≤ t.level b + h + 1 →
    ∀ (j m : Nat), m + j + 1 = t.nch → ∀ (stk : List (Nat × Nat)) (acc : List α),
    ∃ n, n ≤ (j + 1) * walkCost t.nch h ∧ ∀ fuel,
      walkRun t visit (fuel + n) ⟨stk, b, m, true⟩ acc =
      walkRun t visit fuel (walkAdvance t.nch stk b (t.nch - 1))
        (acc ++ (restChildren t m).flatMap (dfsChild t visit h stk.length b)) := by
  induction h with
  | zero =>
    intro b hb hlev j
    induction j with
    | zero =>
      intro m hm stk acc
      have hmlt : m < t.nch := by omega
      have hc : t.child m b = 0 := by
        by_contra hc
        have h1 := hw.level_child hmlt hb hc
        have h2 := hw.level_lt _ (hw.child_lt m hmlt b hb)
        omega
      refine ⟨1, by simp [walkCost], fun fuel => ?_⟩
      rw [walkRun_step _ _ _ _ rfl]
      have hm' : t.nch - 1 = m := by omega
      rw [restChildren_cons hmlt, show m + 1 = t.nch by omega, restChildren_end, hm']
      simp [walkStep, hc, dfsChild]
    | succ j ih =>
      intro m hm stk acc
      have hmlt : m < t.nch := by omega
      have hc : t.child m b = 0 := by
        by_contra hc
        have h1 := hw.level_child hmlt hb hc
        have h2 := hw.level_lt _ (hw.child_lt m hmlt b hb)
        omega
      obtain ⟨n, hn, hrun⟩ := ih (m + 1) (by omega) stk acc
      refine ⟨n + 1, by simp [walkCost] at *; omega, fun fuel => ?_⟩
      rw [show fuel + (n + 1) = (fuel + n) + 1 by omega, walkRun_step _ _ _ _ rfl]
      rw [restChildren_cons hmlt]
      simp only [walkStep, hc, if_true, List.append_nil]
      rw [walkAdvance_lt _ _ _ _ (by omega), hrun]
      simp [dfsChild, hc]
  | succ h ihh =>
    intro b hb hlev
    -- one child: runs to the advanced state
    have key : ∀ (m : Nat), m < t.nch → ∀ (stk : List (Nat × Nat)) (acc : List α),
        ∃ n, n ≤ walkCost t.nch (h + 1) ∧ ∀ fuel,
        walkRun t visit (fuel + n) ⟨stk, b, m, true⟩ acc =
        walkRun t visit fuel (walkAdvance t.nch stk b m)
          (acc ++ dfsChild t visit (h+1) stk.length b m) := by
      intro m hmlt stk acc
      by_cases hc : t.child m b = 0
      · refine ⟨1, by simp [walkCost], fun fuel => ?_⟩
        rw [walkRun_step _ _ _ _ rfl]
        simp [walkStep, hc, dfsChild]
      · by_cases hp : (visit stk.length (t.child m b)).2 = true
        · have hcl := hw.child_lt m hmlt b hb
          have hlc := hw.level_child hmlt hb hc
          have hnch := nch_pos t
          obtain ⟨n, hn, hrun⟩ := ihh (t.child m b) hcl (by omega) (t.nch - 1) 0 (by omega)
            ((b, m) :: stk) (acc ++ (visit stk.length (t.child m b)).1)
          refine ⟨n + 1, ?_, fun fuel => ?_⟩
          · have : t.nch - 1 + 1 = t.nch := by omega
            rw [this] at hn
            simp only [walkCost]; omega
          · rw [show fuel + (n + 1) = (fuel + n) + 1 by omega, walkRun_step _ _ _ _ rfl]
            simp only [walkStep, hc, if_false, hp, if_true]
            rw [hrun, walkAdvance_pop _ _ _ _ _ _ (by omega), restChildren_zero]
            simp [dfsChild, hc, hp, dfs_succ]
        · refine ⟨1, by simp [walkCost], fun fuel => ?_⟩
          rw [walkRun_step _ _ _ _ rfl]
          simp [walkStep, hc, hp, dfsChild]
    intro j
    induction j with
    | zero =>
      intro m hm stk acc
      obtain ⟨n, hn, hrun⟩ := key m (by omega) stk acc
      refine ⟨n, by simpa using hn, fun fuel => ?_⟩
      have hm' : t.nch - 1 = m := by omega
      rw [hrun, restChildren_cons (by omega), show m + 1 = t.nch by omega, restChildren_end, hm']
      simp
    | succ j ih =>
      intro m hm stk acc
      obtain ⟨n1, hn1, hrun1⟩ := key m (by omega) stk acc
      obtain ⟨n2, hn2, hrun2⟩ := ih (m + 1) (by omega) stk
        (acc ++ dfsChild t visit (h+1) stk.length b m)
      refine ⟨n2 + n1, ?_, fun fuel => ?_⟩
      · have : (j + 1 + 1) * walkCost t.nch (h + 1) =
          (j + 1) * walkCost t.nch (h + 1) + walkCost t.nch (h + 1) := by ring
        omega
      · rw [← Nat.add_assoc, hrun1, walkAdvance_lt _ _ _ _ (by omega), hrun2,
          restChildren_cons (m := m) (by omega)]
        simp

/-- The walk loop terminates within `walkFuel` iterations and computes `dfs`. -/
theorem walkRun_eq_dfs (hw : t.WF) {b : Nat} (hb : b < t.nboxes) (fuel : Nat)
    (hf : walkFuel t ≤ fuel) :
    walkRun t visit fuel (walkInit b) [] = some (dfs t visit (t.nlevels + 1) 0 b) := by
  have hnch := nch_pos t
  obtain ⟨n, hn, hrun⟩ := walkRun_children visit hw t.nlevels b hb (by omega)
    (t.nch - 1) 0 (by omega) [] []
  have : t.nch - 1 + 1 = t.nch := by omega
  rw [this] at hn
  have hn' : n ≤ walkFuel t := hn
  have h1 := hrun (fuel - n)
  rw [show fuel - n + n = fuel by omega] at h1
  unfold walkInit
  rw [h1, walkRun_done]
  · simp [restChildren_zero, dfs_succ]
  · simp only [walkAdvance]; rw [if_neg (by omega)]

theorem walk_eq_dfs (hw : t.WF) {b : Nat} (hb : b < t.nboxes) :
    walk t visit b = dfs t visit (t.nlevels + 1) 0 b := by
  unfold walk; rw [walkRun_eq_dfs visit hw hb _ le_rfl]; rfl

/-! ### counting -/

variable [DecidableEq α]

theorem sum_eq_single {l : List Nat} (hnd : l.Nodup) {a : Nat} (ha : a ∈ l) (f : Nat → Nat)
    (hf : ∀ x ∈ l, x ≠ a → f x = 0) : (l.map f).sum = f a := by
  induction l with
  | nil => simp at ha
  | cons x l ih =>
    simp only [List.map_cons, List.sum_cons]
    rcases List.mem_cons.1 ha with rfl | ha'
    · have : (l.map f).sum = 0 := by
        apply List.sum_eq_zero
        intro y hy
        obtain ⟨z, hz, rfl⟩ := List.mem_map.1 hy
        exact hf z (List.mem_cons_of_mem _ hz) (fun h => (List.nodup_cons.1 hnd).1 (h ▸ hz))
      omega
    · have hx : x ≠ a := fun h => (List.nodup_cons.1 hnd).1 (h ▸ ha')
      rw [hf x (List.mem_cons_self) hx, Nat.zero_add]
      exact ih (List.nodup_cons.1 hnd).2 ha' fun y hy => hf y (List.mem_cons_of_mem _ hy)

theorem sum_eq_zero' {l : List Nat} (f : Nat → Nat)
    (hf : ∀ x ∈ l, f x = 0) : (l.map f).sum = 0 := by
  apply List.sum_eq_zero
  intro y hy
  obtain ⟨z, hz, rfl⟩ := List.mem_map.1 hy
  exact hf z hz

theorem count_flatMap' (l : List Nat) (f : Nat → List α) (e : α) :
    (l.flatMap f).count e = (l.map fun x => (f x).count e).sum := by
  induction l with
  | nil => simp
  | cons x l ih => simp [List.count_append, ih]

/-- `s` is a strict descendant of `b` and the walk pushes every box strictly between. -/
def Reached (t : BoxTree) (visit : Nat → Nat → List α × Bool) (k b s : Nat) : Prop :=
  t.level b < t.level s ∧ t.ancAt s (t.level b) = b ∧
    ∀ l, t.level b < l → l < t.level s →
      (visit (k + (l - t.level b - 1)) (t.ancAt s l)).2 = true

/-- How often an output is produced by the walk: once if the walk reaches the box it
belongs to and the body emits it there. -/
theorem count_dfs (hw : t.WF) (e : α) (s : Nat) (hs : s < t.nboxes)
    (hown : ∀ k c, c < t.nboxes → e ∈ (visit k c).1 → c = s) :
    ∀ (h k b : Nat), b < t.nboxes → t.nlevels ≤ t.level b + h →
    (Reached t visit k b s →
      (dfs t visit h k b).count e
        = (visit (k + (t.level s - t.level b - 1)) s).1.count e) ∧
    (¬ Reached t visit k b s → (dfs t visit h k b).count e = 0) := by
  intro h
  induction h with
  | zero =>
    intro k b hb hl
    have := hw.level_lt b hb; omega
  | succ h ih =>
    intro k b hb hl
    rw [dfs_succ, count_flatMap']
    have count0 : ∀ k c, c < t.nboxes → c ≠ s → (visit k c).1.count e = 0 := by
      intro k c hc hne
      exact List.count_eq_zero.2 fun hm => hne (hown k c hc hm)
    -- facts about one child
    have child_zero : ∀ m, m < t.nch →
        ¬ (t.level b < t.level s ∧ t.child m b ≠ 0 ∧ t.ancAt s (t.level b + 1) = t.child m b) →
        (dfsChild t visit h k b m).count e = 0 := by
      intro m hm hnot
      unfold dfsChild
      by_cases hc : t.child m b = 0
      · simp [hc]
      simp only [hc, if_false, List.count_append]
      have hcl := hw.child_lt m hm b hb
      have hlc := hw.level_child hm hb hc
      have hne : t.child m b ≠ s := by
        intro heq
        apply hnot
        rw [heq] at hlc
        refine ⟨by omega, hc, ?_⟩
        rw [← hlc, ancAt_self, heq]
      rw [count0 _ _ hcl hne, Nat.zero_add]
      by_cases hp : (visit k (t.child m b)).2 = true
      · simp only [hp, if_true]
        apply (ih (k+1) (t.child m b) hcl (by omega)).2
        rintro ⟨h1, h2, _⟩
        apply hnot
        refine ⟨by omega, hc, ?_⟩
        rw [← hlc]; exact h2
      · simp [hp]
    by_cases hanc : t.level b < t.level s ∧ t.ancAt s (t.level b) = b
    · obtain ⟨hlt, hanc⟩ := hanc
      have hal := hw.ancAt_lt hs (t.level b + 1)
      have hall := hw.level_ancAt hs (show t.level b + 1 ≤ t.level s by omega)
      have hane := hw.ancAt_ne_zero hs (show t.level b + 1 ≤ t.level s by omega) (by omega)
      have hpar := ancAt_parent t hlt
      rw [hanc] at hpar
      obtain ⟨m, hm, hmc⟩ := hw.parent_child _ hal hane
      rw [hpar] at hmc
      have hc0 : t.child m b ≠ 0 := by rw [hmc]; exact hane
      have hsum : ((List.range t.nch).map fun m => (dfsChild t visit h k b m).count e).sum =
          (dfsChild t visit h k b m).count e := by
        apply sum_eq_single List.nodup_range (List.mem_range.2 hm)
          (fun m => (dfsChild t visit h k b m).count e)
        intro m' hm' hne
        have hm'' := List.mem_range.1 hm'
        apply child_zero m' hm''
        rintro ⟨_, h2, h3⟩
        apply hne
        exact hw.child_inj m' hm'' m hm b hb h2 (by rw [hmc, h3])
      rw [hsum]
      have hval : (dfsChild t visit h k b m).count e =
          (visit k (t.child m b)).1.count e +
          (if (visit k (t.child m b)).2 = true then
            (dfs t visit h (k+1) (t.child m b)).count e else 0) := by
        unfold dfsChild
        simp only [hc0, if_false, List.count_append]
        split <;> simp
      rw [hval]
      have hlc := hw.level_child hm hb hc0
      have hcl := hw.child_lt m hm b hb
      by_cases heq : t.level s = t.level b + 1
      · -- the child is s
        have hcs : t.child m b = s := by rw [hmc, ← heq, ancAt_self]
        have hzero : (dfs t visit h (k+1) (t.child m b)).count e = 0 := by
          apply (ih (k+1) _ hcl (by omega)).2
          rintro ⟨h1, _⟩; rw [hcs] at h1; omega
        rw [hzero, hcs]
        constructor
        · intro _
          rw [show t.level s - t.level b - 1 = 0 by omega]; simp
        · intro hn
          exact absurd ⟨by omega, hanc, fun l h1 h2 => by omega⟩ hn
      · have hcs : t.child m b ≠ s := by
          intro hcs; rw [hcs] at hlc; exact heq hlc
        rw [count0 _ _ hcl hcs, Nat.zero_add]
        have ih' := ih (k+1) (t.child m b) hcl (by omega)
        rw [hlc] at ih'
        have hsub : t.level b + 1 + (t.level s - (t.level b + 1) - 1) = t.level s - 1 := by omega
        constructor
        · rintro ⟨h1, h2, h3⟩
          have hp := h3 (t.level b + 1) (by omega) (by omega)
          rw [← hmc] at hp
          have : k + (t.level b + 1 - t.level b - 1) = k := by omega
          rw [this] at hp
          simp only [hp, if_true]
          rw [ih'.1]
          · congr 3; omega
          · refine ⟨by omega, by rw [hlc]; exact hmc.symm, fun l hl1 hl2 => ?_⟩
            have := h3 l (by omega) hl2
            rw [hlc] at hl1
            rw [hlc, show k + 1 + (l - (t.level b + 1) - 1) = k + (l - t.level b - 1) by omega]
            exact this
        · intro hn
          by_cases hp : (visit k (t.child m b)).2 = true
          · simp only [hp, if_true]
            apply ih'.2
            rintro ⟨h1, h2, h3⟩
            apply hn
            refine ⟨hlt, hanc, fun l hl1 hl2 => ?_⟩
            by_cases hl : l = t.level b + 1
            · subst hl
              rw [show k + (t.level b + 1 - t.level b - 1) = k by omega, ← hmc]; exact hp
            · have := h3 l (by omega) hl2
              rw [hlc, show k + 1 + (l - (t.level b + 1) - 1) = k + (l - t.level b - 1) by omega]
                at this
              exact this
          · simp [hp]
    · constructor
      · rintro ⟨h1, h2, _⟩; exact absurd ⟨h1, h2⟩ hanc
      · intro _
        apply sum_eq_zero'
        intro m hm
        have hm := List.mem_range.1 hm
        apply child_zero m hm
        rintro ⟨h1, h2, h3⟩
        apply hanc
        refine ⟨h1, ?_⟩
        rw [← ancAt_parent t h1, h3, hw.child_parent m hm b hb h2]

theorem count_walk (hw : t.WF) (e : α) (s : Nat) (hs : s < t.nboxes)
    (hown : ∀ k c, c < t.nboxes → e ∈ (visit k c).1 → c = s) (b : Nat) (hb : b < t.nboxes) :
    (Reached t visit 0 b s →
      (walk t visit b).count e = (visit (t.level s - t.level b - 1) s).1.count e) ∧
    (¬ Reached t visit 0 b s → (walk t visit b).count e = 0) := by
  rw [walk_eq_dfs visit hw hb]
  have := count_dfs visit hw e s hs hown (t.nlevels + 1) 0 b hb (by omega)
  simpa using this

omit [DecidableEq α] in
/-- Everything the walk outputs is emitted at some valid box. -/
theorem mem_dfs (hw : t.WF) (e : α) : ∀ (h k b : Nat), b < t.nboxes →
    e ∈ dfs t visit h k b → ∃ k' c, c < t.nboxes ∧ c ≠ 0 ∧ e ∈ (visit k' c).1 := by
  intro h
  induction h with
  | zero => intro k b _ he; simp [dfs] at he
  | succ h ih =>
    intro k b hb he
    rw [dfs_succ, List.mem_flatMap] at he
    obtain ⟨m, hm, he⟩ := he
    have hm := List.mem_range.1 hm
    unfold dfsChild at he
    by_cases hc : t.child m b = 0
    · simp [hc] at he
    · simp only [hc, if_false, List.mem_append] at he
      rcases he with he | he
      · exact ⟨k, _, hw.child_lt m hm b hb, hc, he⟩
      · by_cases hp : (visit k (t.child m b)).2 = true
        · simp only [hp, if_true] at he
          exact ih _ _ (hw.child_lt m hm b hb) he
        · simp [hp] at he

omit [DecidableEq α] in
theorem mem_walk (hw : t.WF) (e : α) {b : Nat} (hb : b < t.nboxes) (he : e ∈ walk t visit b) :
    ∃ k' c, c < t.nboxes ∧ c ≠ 0 ∧ e ∈ (visit k' c).1 := by
  rw [walk_eq_dfs visit hw hb] at he
  exact mem_dfs visit hw e _ _ _ hb he

end
end Boxtree
