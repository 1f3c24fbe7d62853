import Verif.Model.Commands
import Verif.Props.Schedules

/-!
# Launches ordered by events
-/

namespace Boxtree.Build
open Boxtree.Par

section
variable {both : Bool} {σ : Bool → Nat → List Nat} {lstart : Nat → Nat}
  {item : Bool → Nat → Prog SideLoc (fun _ => Nat → ℚ) (List ((_ : SideLoc) × (Nat → ℚ)))}

/-- Launches per level. -/
def perLevel (both : Bool) : Nat := if both then 1 else 2

/-- The commands in a closed form. -/
theorem extentCommands_get : ∀ (L : Nat) (w : List Nat) (c i : Nat) (x : Command (Bool → Sides)),
    (extentCommands both σ lstart item L w c)[i]? = some x ↔
      ∃ k < L, ∃ src, (both = true → src = true) ∧
        i = perLevel both * k + (if src then 0 else 1) ∧
        x = extentCommand σ lstart item src (L - 1 - k) (if k = 0 then w else [c + perLevel both * k - 1]) := by
  intro L
  induction L with
  | zero => intro w c i x; simp [extentCommands]
  | succ L ih =>
    intro w c i x
    unfold extentCommands
    cases both with
    | true =>
      simp only [if_true, perLevel] at ih ⊢
      cases i with
      | zero =>
        simp only [List.getElem?_cons_zero, Option.some.injEq]
        constructor
        · rintro rfl
          exact ⟨0, by omega, true, fun _ => rfl, by simp, by simp⟩
        · rintro ⟨k, hk, src, hs, hi, rfl⟩
          obtain rfl : k = 0 := by rw [hs trivial] at hi; simp at hi; omega
          rw [hs trivial]; simp
      | succ i =>
        rw [List.getElem?_cons_succ, ih]
        constructor
        · rintro ⟨k, hk, src, hs, hi, rfl⟩
          refine ⟨k + 1, by omega, src, hs, by omega, ?_⟩
          rw [if_neg (Nat.succ_ne_zero k), show L + 1 - 1 - (k + 1) = L - 1 - k by omega]
          by_cases h0 : k = 0
          · subst h0; simp
          · rw [if_neg h0]; congr 2; omega
        · rintro ⟨k, hk, src, hs, hi, rfl⟩
          rw [hs trivial] at hi ⊢
          simp only [if_true] at hi
          have hk0 : ¬ k = 0 := by omega
          refine ⟨k - 1, by omega, true, fun _ => rfl, by simp; omega, ?_⟩
          rw [if_neg hk0, show L + 1 - 1 - k = L - 1 - (k - 1) by omega]
          by_cases h0 : k - 1 = 0
          · rw [if_pos h0]; congr 2; omega
          · rw [if_neg h0]; congr 2; omega
    | false =>
      simp only [Bool.false_eq_true, if_false, perLevel, false_implies, true_and] at ih ⊢
      rcases i with _ | _ | i
      · simp only [List.getElem?_cons_zero, Option.some.injEq]
        constructor
        · rintro rfl
          exact ⟨0, by omega, true, by simp, by simp⟩
        · rintro ⟨k, hk, src, hi, rfl⟩
          cases src
          · simp at hi
          · obtain rfl : k = 0 := by simp at hi; omega
            simp
      · simp only [List.getElem?_cons_zero, List.getElem?_cons_succ, Option.some.injEq]
        constructor
        · rintro rfl
          exact ⟨0, by omega, false, by simp, by simp⟩
        · rintro ⟨k, hk, src, hi, rfl⟩
          cases src
          · obtain rfl : k = 0 := by simp at hi; omega
            simp
          · simp at hi; omega
      · rw [List.getElem?_cons_succ, List.getElem?_cons_succ, ih]
        constructor
        · rintro ⟨k, hk, src, hi, rfl⟩
          refine ⟨k + 1, by omega, src, by omega, ?_⟩
          rw [if_neg (Nat.succ_ne_zero k), show L + 1 - 1 - (k + 1) = L - 1 - k by omega]
          by_cases h0 : k = 0
          · subst h0; simp
          · rw [if_neg h0]; congr 2; omega
        · rintro ⟨k, hk, src, hi, rfl⟩
          have hk1 : 1 ≤ k := by cases src <;> simp at hi <;> omega
          have hk0 : ¬ k = 0 := by omega
          refine ⟨k - 1, by omega, src, by omega, ?_⟩
          rw [if_neg hk0, show L + 1 - 1 - k = L - 1 - (k - 1) by omega]
          by_cases h0 : k - 1 = 0
          · rw [if_pos h0]; congr 2; omega
          · rw [if_neg h0]; congr 2; omega

/-- The launches of the kind that comes last on each level form a chain. -/
theorem runs_last {L : Nat} {s₀ s : Bool → Sides} {done : List Nat} {κ : Bool} (hκ : κ = both)
    (h : Runs (extentCommands both σ lstart item L [] 0) s₀ done s) :
    ∃ k ≤ L, (∀ j < L, (perLevel both * j + (if κ then 0 else 1) ∈ done ↔ j < k)) ∧
      runExtents (σ κ) lstart (item κ) (L - k) (s κ) = runExtents (σ κ) lstart (item κ) L (s₀ κ) := by
  induction h with
  | start => exact ⟨0, by omega, by simp, rfl⟩
  | @run done s i c _ hc hi hw ih =>
    obtain ⟨k, hk, h1, h2⟩ := ih
    obtain ⟨k', hk', src, hs, rfl, rfl⟩ := (extentCommands_get _ _ _ _ _).1 hc
    by_cases hsrc : src = κ
    · subst hsrc
      have h3 : ¬ k' < k := fun h => hi ((h1 k' hk').2 h)
      have h4 : k' = k := by
        by_contra hne
        have hk0 : k' ≠ 0 := by omega
        have hw' : perLevel both * k' - 1 ∈ done := by
          have := hw
          simp only [extentCommand, if_neg hk0, List.mem_singleton, forall_eq, Nat.zero_add] at this
          exact this
        have e : perLevel both * (k' - 1) + (if src then 0 else 1) = perLevel both * k' - 1 := by
          rw [hκ]
          cases both <;> simp [perLevel]; omega
        rw [← e] at hw'
        have := (h1 (k' - 1) (by omega)).1 hw'
        omega
      subst h4
      refine ⟨k' + 1, by omega, ?_, ?_⟩
      · intro j hj
        rw [List.mem_cons, h1 j hj]
        have e : perLevel both * j + (if src then 0 else 1) = perLevel both * k' + (if src then 0 else 1)
            ↔ j = k' := by
          cases both <;> cases src <;> simp [perLevel]
        rw [e]
        omega
      · rw [← h2, show L - k' = L - 1 - k' + 1 by omega, show L - (k' + 1) = L - 1 - k' by omega]
        simp only [extentCommand, Function.update_self]
        rfl
    · refine ⟨k, hk, ?_, ?_⟩
      · intro j hj
        rw [List.mem_cons, h1 j hj]
        have e : perLevel both * j + (if κ then 0 else 1) ≠ perLevel both * k' + (if src then 0 else 1) := by
          subst hκ
          cases κ with
          | true => exact absurd (hs rfl) hsrc
          | false =>
            obtain rfl : src = true := by cases src <;> simp_all
            simp [perLevel]; omega
        simp [e]
      · rw [← h2]
        simp only [extentCommand]
        rw [Function.update_of_ne (fun e => hsrc e.symm)]

theorem extentCommands_length : ∀ (L : Nat) (w : List Nat) (c : Nat),
    (extentCommands both σ lstart item L w c).length = perLevel both * L := by
  intro L
  induction L with
  | zero => intro _ _; rfl
  | succ L ih =>
    intro w c
    unfold extentCommands
    cases both with
    | true => simp [ih, perLevel]
    | false => simp [ih, perLevel]; omega

/-- When the last launch is complete, its arrays are. -/
theorem runs_complete {L : Nat} {s₀ s : Bool → Sides} {done : List Nat} (hL : 0 < L)
    (h : Runs (extentCommands both σ lstart item L [] 0) s₀ done s)
    (hd : lastCommand (extentCommands both σ lstart item L [] 0) ∈ done) :
    s both = runExtents (σ both) lstart (item both) L (s₀ both) := by
  obtain ⟨k, hk, h1, h2⟩ := runs_last rfl h
  rw [lastCommand, extentCommands_length] at hd
  have e : perLevel both * (L - 1) + (if both then 0 else 1) = perLevel both * L - 1 := by
    cases both <;> simp [perLevel]; omega
  rw [← e] at hd
  have := (h1 (L - 1) (by omega)).1 hd
  obtain rfl : k = L := by omega
  rw [Nat.sub_self] at h2
  exact h2

/-- An in-order queue. -/
theorem inOrderQueue_eq : ∀ (L : Nat) (w : List Nat) (c : Nat) (s : Bool → Sides) (κ : Bool),
    (both = true → κ = true) →
    inOrderQueue (extentCommands both σ lstart item L w c) s κ =
      runExtents (σ κ) lstart (item κ) L (s κ) := by
  intro L
  induction L with
  | zero => intro _ _ s κ _; rfl
  | succ L ih =>
    intro w c s κ hκ
    unfold extentCommands
    cases both with
    | true =>
      obtain rfl := hκ rfl
      refine (ih [c] (c + 1) _ true hκ).trans ?_
      simp only [extentCommand, Function.update_self]
      rfl
    | false =>
      refine (ih [c + 1] (c + 2) _ κ hκ).trans ?_
      cases κ
      · simp only [extentCommand, Function.update_self]
        rw [Function.update_of_ne (by simp)]
        rfl
      · simp only [extentCommand]
        rw [Function.update_of_ne (by simp), Function.update_self]
        rfl

end

/-- What the extents of a finished tree are. -/
theorem Built.extents_eq (inp : Input) (ok : inp.OK) (t : Built) (h : inp.build = .ok t)
    (σ : Nat → List Nat) (b a : Nat) :
    (∀ src, (inp.sourcesAreTargets = true → src = true) →
      (runExtents σ t.tree.levelStart
        (if src then
          extentFinder inp.arith.fl t.tree.nch t.tree.child t.stored t.particles.srcStart
            t.particles.srcCount t.sources t.sourceRadii
        else
          extentFinder inp.arith.fl t.tree.nch t.tree.child t.stored t.particles.tgtStart
            t.particles.tgtCount t.targets t.targetRadii) t.tree.nlevels (fun _ _ => 0) (.lo b) a =
        (if src then t.srcMinF b a else t.tgtMinF b a) ∧
      runExtents σ t.tree.levelStart
        (if src then
          extentFinder inp.arith.fl t.tree.nch t.tree.child t.stored t.particles.srcStart
            t.particles.srcCount t.sources t.sourceRadii
        else
          extentFinder inp.arith.fl t.tree.nch t.tree.child t.stored t.particles.tgtStart
            t.particles.tgtCount t.targets t.targetRadii) t.tree.nlevels (fun _ _ => 0) (.hi b) a =
        if src then t.srcMaxF b a else t.tgtMaxF b a)) := by
  obtain ⟨L, s, hc, o, rfl, hf, _, _, _⟩ := Input.build_cases ok h
  have h3 := hf.childrenBelow s.used
  have hch : ChildrenBelow (FinOK.fin inp.params inp.skipPrune (fun l => s.used l + inp.pad l) L s).child
      (levelStart (levelCounts s.used
        (FinOK.fin inp.params inp.skipPrune (fun l => s.used l + inp.pad l) L s))) (L + 1) := h3
  intro src hsrc
  have key := fun ctr start count x r => runExtents_eq (fl := inp.arith.fl) (nch := inp.params.nch)
    (ctr := ctr) (start := start) (count := count) (x := x) (r := r) σ (L + 1) hch (fun _ _ => 0) b a
  cases src with
  | true =>
    simp only [if_true]
    exact key _ _ _ _ _
  | false =>
    have hb : inp.cloud.sourcesAreTargets = false := by
      cases hb : inp.sourcesAreTargets with
      | false => exact hb
      | true => exact absurd (hsrc hb) (by simp)
    simp only [Bool.false_eq_true, if_false]
    have := key (finish inp.params inp.cloud inp.skipPrune (fun l => s.used l + inp.pad l) L s).stored
      (finish inp.params inp.cloud inp.skipPrune (fun l => s.used l + inp.pad l) L s).particles.tgtStart
      (finish inp.params inp.cloud inp.skipPrune (fun l => s.used l + inp.pad l) L s).particles.tgtCount
      (finish inp.params inp.cloud inp.skipPrune (fun l => s.used l + inp.pad l) L s).targets
      (finish inp.params inp.cloud inp.skipPrune (fun l => s.used l + inp.pad l) L s).targetRadii
    refine ⟨this.1.trans ?_, this.2.trans ?_⟩
    · simp only [finish, finishFlat, hb, Bool.false_eq_true, if_false]
      rfl
    · simp only [finish, finishFlat, hb, Bool.false_eq_true, if_false]
      rfl

/-- **C89** (in-order queue): with any turns of the work items, the launches leave the bounding boxes of the
tree. -/
theorem C89_in_order_queue (inp : Input) (ok : inp.OK) (t : Built) (h : inp.build = .ok t)
    (σ : Bool → Nat → List Nat) (b a : Nat) :
    let s := inOrderQueue (t.commands inp.arith.fl inp.sourcesAreTargets σ) fun _ _ _ => 0
    (s true (.lo b) a = t.srcMinF b a ∧ s true (.hi b) a = t.srcMaxF b a) ∧
    (inp.sourcesAreTargets = false →
      s false (.lo b) a = t.tgtMinF b a ∧ s false (.hi b) a = t.tgtMaxF b a) := by
  intro s
  have key := fun κ hκ => inOrderQueue_eq (both := inp.sourcesAreTargets) (σ := σ)
    (lstart := t.tree.levelStart) (item := fun src => if src then
      extentFinder inp.arith.fl t.tree.nch t.tree.child t.stored t.particles.srcStart t.particles.srcCount
        t.sources t.sourceRadii
    else
      extentFinder inp.arith.fl t.tree.nch t.tree.child t.stored t.particles.tgtStart t.particles.tgtCount
        t.targets t.targetRadii) t.tree.nlevels [] 0 (fun _ _ _ => 0) κ hκ
  have e := Built.extents_eq inp ok t h
  constructor
  · have hs : s true = _ := key true fun _ => rfl
    rw [hs]
    exact e (σ true) b a true fun _ => rfl
  · intro hb
    have hs : s false = _ := key false fun h => by rw [hb] at h; exact absurd h (by simp)
    rw [hs]
    exact e (σ false) b a false fun h => by rw [hb] at h; exact absurd h (by simp)

/-- **C89** (part): a queue that orders the launches by the events only, when the event that the builder
returns is complete.  If sources and targets are the same, the bounding boxes are those of the tree,
otherwise those of the targets are.  Missing: those of the sources, for which it is false
(`C89_sources_unordered`). -/
theorem C89_any_order_partial (inp : Input) (ok : inp.OK) (t : Built) (h : inp.build = .ok t)
    (σ : Bool → Nat → List Nat) (done : List Nat) (s : Bool → Sides)
    (hr : Runs (t.commands inp.arith.fl inp.sourcesAreTargets σ) (fun _ _ _ => 0) done s)
    (hd : lastCommand (t.commands inp.arith.fl inp.sourcesAreTargets σ) ∈ done) (b a : Nat) :
    if inp.sourcesAreTargets then s true (.lo b) a = t.srcMinF b a ∧ s true (.hi b) a = t.srcMaxF b a
    else s false (.lo b) a = t.tgtMinF b a ∧ s false (.hi b) a = t.tgtMaxF b a := by
  have hL : 0 < t.tree.nlevels := by
    obtain ⟨L, s, hc, o, rfl, _⟩ := Input.build_cases ok h
    exact Nat.succ_pos L
  have hs := runs_complete hL hr hd
  have e := Built.extents_eq inp ok t h (σ inp.sourcesAreTargets) b a inp.sourcesAreTargets id
  cases hb : inp.sourcesAreTargets with
  | true =>
    rw [hb] at hs e
    simp only [if_true] at e ⊢
    rw [hs]
    exact e
  | false =>
    rw [hb] at hs e
    simp only [Bool.false_eq_true, if_false] at e ⊢
    rw [hs]
    exact e

namespace Ex

/-- Two sources and two targets on a line. -/
def apart : Input where
  dims := 1
  n := 4
  sourcesAreTargets := false
  nsources := 2
  x := fun _ p => [1 / 10, 7 / 10, 1 / 5, 4 / 5].getD p 0
  radius := fun _ => 0
  sourcesHaveExtent := false
  targetsHaveExtent := false
  l2 := false
  stickOut := 0
  weight := fun _ => 1
  maxWeight := 2
  adaptive := true
  levelRestrict := false
  nlevelsMax := 106
  lo := fun _ => 0
  ext := fun _ => 1
  skipPrune := false
  pad := fun _ => 0

theorem apart_ok : apart.OK where
  dims_pos := by decide
  n_pos := by decide
  nsources_le := by decide
  separate := by decide
  ext_pos := by show (0 : ℚ) < 1; norm_num
  cube := fun _ _ => rfl
  radius_nonneg := fun _ _ => le_refl (0 : ℚ)

/-- The launches of a tree of two levels with separate targets: sources and targets of level 1, sources and
targets of level 0. -/
theorem commands_two (fl : ℚ → ℚ) (t : Built) (hn : t.tree.nlevels = 2) : ∃ x y z w : (Bool → Sides) →
    (Bool → Sides), t.commands fl false (fun _ _ => []) = [⟨[], x⟩, ⟨[], y⟩, ⟨[1], z⟩, ⟨[1], w⟩] := by
  unfold Built.commands
  rw [hn]
  exact ⟨_, _, _, _, rfl⟩

/-- The memory after commands. -/
def after {S : Type} (cmds : List (Command S)) (order : List Nat) (s : S) : S :=
  order.foldl (fun s i => match cmds[i]? with | some c => c.run s | none => s) s

end Ex

/-- The order targets of level 1, sources of level 0, sources of level 1, targets of level 0 respects the
events. -/
theorem Ex.runs_two (fl : ℚ → ℚ) (t : Built) (hn : t.tree.nlevels = 2) (s : Bool → Sides) :
    Runs (t.commands fl false fun _ _ => []) s [3, 0, 2, 1]
      (Ex.after (t.commands fl false fun _ _ => []) [1, 2, 0, 3] s) := by
  obtain ⟨x, y, z, w, e⟩ := Ex.commands_two fl t hn
  rw [e]
  refine .run (i := 3) (c := ⟨[1], w⟩) (.run (i := 0) (c := ⟨[], x⟩) (.run (i := 2) (c := ⟨[1], z⟩)
    (.run (i := 1) (c := ⟨[], y⟩) .start rfl ?_ ?_) rfl ?_ ?_) rfl ?_ ?_) rfl ?_ ?_ <;> simp

/-- **C89**, the exception: a queue that orders the launches by the events only may find the extents of the
root from those of its children before these are there.  Then all launches are complete and the lower side of
the sources of the root is wrong. -/
theorem C89_sources_unordered : ∃ (inp : Input) (t : Built) (σ : Bool → Nat → List Nat) (done : List Nat)
    (s : Bool → Sides), inp.OK ∧ inp.build = .ok t ∧
      Runs (t.commands inp.arith.fl inp.sourcesAreTargets σ) (fun _ _ _ => 0) done s ∧
      (∀ i < (t.commands inp.arith.fl inp.sourcesAreTargets σ).length, i ∈ done) ∧
      s true (.lo 0) 0 ≠ t.srcMinF 0 0 := by
  have h : Ex.look Ex.apart.build (fun t => [(t.tree.nlevels : ℚ), t.srcMinF 0 0,
      Ex.after (t.commands Ex.apart.arith.fl false fun _ _ => []) [1, 2, 0, 3] (fun _ _ _ => 0) true
        (.lo 0) 0]) = [2, 1 / 10, 0] := by decide +kernel
  cases hb : Ex.apart.build with
  | error e => rw [hb] at h; exact absurd h (by simp [Ex.look])
  | ok t =>
    rw [hb] at h
    simp only [Ex.look, List.cons.injEq, and_true] at h
    obtain ⟨h1, h2, h3⟩ := h
    have hn : t.tree.nlevels = 2 := by exact_mod_cast h1
    refine ⟨Ex.apart, t, fun _ _ => [], _, _, Ex.apart_ok, hb, Ex.runs_two _ t hn _, ?_, ?_⟩
    · obtain ⟨x, y, z, w, e⟩ := Ex.commands_two Ex.apart.arith.fl t hn
      show ∀ i < (t.commands Ex.apart.arith.fl false fun _ _ => []).length, _
      rw [e]
      simp only [List.length_cons, List.length_nil, List.mem_cons, List.not_mem_nil, or_false]
      omega
    · rw [h2, h3]
      norm_num

/-- **C89**, the exception: the event that is returned may be complete before anything is known of the
sources. -/
theorem C89_event_without_sources : ∃ (inp : Input) (t : Built) (σ : Bool → Nat → List Nat)
    (done : List Nat) (s : Bool → Sides), inp.OK ∧ inp.build = .ok t ∧
      Runs (t.commands inp.arith.fl inp.sourcesAreTargets σ) (fun _ _ _ => 0) done s ∧
      lastCommand (t.commands inp.arith.fl inp.sourcesAreTargets σ) ∈ done ∧
      (s true (.lo 0) 0 ≠ t.srcMinF 0 0 ∧ s true (.hi 0) 0 ≠ t.srcMaxF 0 0) := by
  have h : Ex.look Ex.apart.build (fun t => [(t.tree.nlevels : ℚ), t.srcMinF 0 0, t.srcMaxF 0 0,
      Ex.after (t.commands Ex.apart.arith.fl false fun _ _ => []) [1, 3] (fun _ _ _ => 0) true (.lo 0) 0,
      Ex.after (t.commands Ex.apart.arith.fl false fun _ _ => []) [1, 3] (fun _ _ _ => 0) true (.hi 0) 0]) =
      [2, 1 / 10, 3 / 4, 0, 0] := by decide +kernel
  cases hb : Ex.apart.build with
  | error e => rw [hb] at h; exact absurd h (by simp [Ex.look])
  | ok t =>
    rw [hb] at h
    simp only [Ex.look, List.cons.injEq, and_true] at h
    obtain ⟨h1, h2, h3, h4, h5⟩ := h
    have hn : t.tree.nlevels = 2 := by exact_mod_cast h1
    obtain ⟨x, y, z, w, e⟩ := Ex.commands_two Ex.apart.arith.fl t hn
    refine ⟨Ex.apart, t, fun _ _ => [], [3, 1],
      Ex.after (t.commands Ex.apart.arith.fl false fun _ _ => []) [1, 3] (fun _ _ _ => 0),
      Ex.apart_ok, hb, ?_, ?_, ?_, ?_⟩
    · show Runs (t.commands Ex.apart.arith.fl false fun _ _ => []) _ _ _
      rw [e]
      refine .run (i := 3) (c := ⟨[1], w⟩) (.run (i := 1) (c := ⟨[], y⟩) .start rfl ?_ ?_) rfl ?_ ?_ <;> simp
    · show lastCommand (t.commands Ex.apart.arith.fl false fun _ _ => []) ∈ _
      rw [e]
      simp [lastCommand]
    · rw [h2, h4]; norm_num
    · rw [h3, h5]; norm_num

/-- A run in which the event that is returned is complete. -/
example : ∃ t done s, Ex.apart.OK ∧ Ex.apart.build = .ok t ∧
    Runs (t.commands Ex.apart.arith.fl Ex.apart.sourcesAreTargets fun _ _ => []) (fun _ _ _ => 0) done s ∧
    lastCommand (t.commands Ex.apart.arith.fl Ex.apart.sourcesAreTargets fun _ _ => []) ∈ done := by
  have h : Ex.look Ex.apart.build (fun t => [t.tree.nlevels]) = [2] := by decide +kernel
  cases hb : Ex.apart.build with
  | error e => rw [hb] at h; exact absurd h (by simp [Ex.look])
  | ok t =>
    rw [hb] at h
    simp only [Ex.look, List.cons.injEq, and_true] at h
    refine ⟨t, _, _, Ex.apart_ok, rfl, Ex.runs_two _ t h _, ?_⟩
    obtain ⟨x, y, z, w, e⟩ := Ex.commands_two Ex.apart.arith.fl t h
    show lastCommand (t.commands Ex.apart.arith.fl false fun _ _ => []) ∈ _
    rw [e]
    simp [lastCommand]

end Boxtree.Build
