import Verif.Lemmas.FinishKernels
import Verif.Lemmas.RestrictKernel
import Verif.Props.Alloc

/-!
# Kernels under every schedule

The tree builder launches kernels with one work item per box or per particle.  Nothing is said about the
order of the work items.  The tree does not depend on it.
-/

namespace Boxtree.Build
open Boxtree.Par

/-- The kernels of `Model/LoopKernels` with a schedule. -/
def Steps.scheduled (P : Params) (σ : Schedule) : Steps where
  split := fun level nnew B => B.split P (σ.split level) (σ.renumber level) level nnew
  restrict := fun level B => B.runRestrict P (σ.restrict level) level

theorem Steps.scheduled_ok (P : Params) (hpos : 0 < P.rootExtent) (σ : Schedule) :
    (Steps.scheduled P σ).OK P :=
  ⟨fun h => h.split_eq _ _, fun h hi => runRestrict_eq h hi hpos _⟩

theorem Buf.runLoop_eq (P : Params) (look : Nat) (σ : Schedule) :
    ∀ (fuel level : Nat) (final : Bool) (B : Buf), Buf.runLoop P look σ fuel level final B =
      Buf.loopBy P look (Steps.scheduled P σ) fuel level final B := by
  intro fuel
  induction fuel with
  | zero => intro _ _ _; rfl
  | succ fuel ih =>
    intro level final B
    unfold Buf.runLoop Buf.loopBy
    simp only [ih]
    generalize (B.writeBins P).markSplit P level = B'
    cases Buf.plan P look level final B' <;> rfl

theorem runLevels_match {P : Params} (hpos : 0 < P.rootExtent) (hP : WOK P) (hn : 1 ≤ P.nlevelsMax)
    (hLR : P.levelRestrict = true → P.adaptive = true) {guess : Nat} (hg : 1 ≤ guess) (look : Nat)
    (σ : Schedule) : Match P (Buf.runLevels P guess look σ) (buildLevels P) := by
  unfold Buf.runLevels buildLevels
  split
  · rename_i hw
    rw [Buf.runLoop_eq]
    exact loopBy_match P look (Steps.scheduled_ok P hpos σ) _ _ 1 false _ _ (Nat.le_refl _) hn (by omega)
      (init_start hP hLR hw hg)
  · exact ⟨rfl, init_rel P hg⟩

/-- The kernels after the loop. -/
theorem Input.finishRun_of_match (inp : Input) (ok : inp.OK) {L : Nat} {B : Buf}
    (hm : Match inp.params (.ok (L, B)) (buildLevels inp.params)) (τ : FinSchedule) :
    finishRun τ inp.params inp.cloud L B.used B.ids
      (prune (B.keeps inp.skipPrune L) (B.flat inp.params L)) =
    finishFlat inp.params inp.cloud L B.used B.ids
      (prune (B.keeps inp.skipPrune L) (B.flat inp.params L)) := by
  cases hb : buildLevels inp.params with
  | error e => rw [hb] at hm; exact hm.elim
  | ok r =>
    obtain ⟨L', s⟩ := r
    rw [hb] at hm
    obtain ⟨rfl, hrel⟩ := hm
    have e := Input.build_of_levels hb
    obtain ⟨L', s', hc, o, _, hf, _, hs, _⟩ := Input.build_cases ok e
    rw [hb] at hs
    obtain ⟨rfl, rfl⟩ := Prod.mk.inj (Except.ok.inj hs)
    refine finishRun_eq τ _ _ _ _ _ _ ?_ ?_
    · rw [hrel.ids]
      exact hf.inv.ids_inj
    · have h1 := hf.shows s.hasCh s.oversize
      obtain ⟨h2, _⟩ := (hrel.shows inp.skipPrune).prune_eq h1 (hf.closed s.hasCh s.oversize)
      exact ChildrenBelow.of_eq h2 (hf.childrenBelow B.used)

/-- **C88.** The tree does not depend on the order in which the work items of the kernels run, nor on how
their loads and stores are interleaved. -/
theorem C88_every_schedule (inp : Input) (ok : inp.OK) (hw : inp.WeightsOK)
    (hr : inp.levelRestrict = true → inp.adaptive = true) (guess look : Nat) (hg : 1 ≤ guess)
    (σ : Schedule) : inp.buildScheduled guess look σ = inp.build := by
  unfold Input.buildScheduled
  rw [if_neg (by omega)]
  have hm := runLevels_match ok.ext_pos hw.wok hw.levels hr hg look σ
  rw [← inp.build_of_match ok hm]
  cases hr : Buf.runLevels inp.params guess look σ with
  | error e => rfl
  | ok r =>
    rw [hr] at hm
    exact congrArg Except.ok (inp.finishRun_of_match ok hm σ.finish)

/-- **C88** for a documented call of the builder. -/
theorem C88_documented_call (c : Call) (ns nt : Nat) (dtype : String) (hd : c.Documented ns nt dtype)
    (hw : c.SomeWeight) (hs : c.SmallLimit) (guess : Option ℤ)
    (hg : ∀ g, guess = some g → 0 < g) (look : Nat) (σ : Schedule) :
    c.runScheduled guess look σ = c.run := by
  obtain ⟨inp, h1, h2, h3, h4⟩ := documented_call_by c ns nt dtype hd hw
  obtain ⟨g, h5, h6⟩ := h1 guess (fun g inp => inp.buildScheduled g look σ) hg
  obtain ⟨_, _, h7⟩ := h1 none (fun _ inp => inp.build) (by simp)
  show c.runBy _ _ = c.runBy _ _
  rw [h6, h7]
  refine C88_every_schedule inp h2 (h3 hs) (fun h => ?_) g look h5 σ
  cases ha : inp.adaptive with
  | true => rfl
  | false =>
    have e1 := h4.levelRestrict.1 h
    have e2 := h4.adaptive.1 ha
    rw [e1] at e2
    exact absurd e2 (by decide)

/-- **C88**, the launches: what they leave in memory is what the turns of the work items leave, once all have
come to their end. -/
theorem C88_turns {A : Type} {T : A → Type} [DecidableEq A] (sched : List Nat) (n : Nat)
    (ps : Nat → Prog A T Unit) (m : Mem T)
    (h : ∀ i < n, (interleave n sched ps m).1 i = .pure ()) :
    launch sched n ps m = (interleave n sched ps m).2 := launch_complete sched n ps m h

namespace Ex

/-- Work items that take turns backwards, one load or store each time. -/
def backwards : Schedule where
  split := fun _ => (List.range 8).reverse ++ (List.range 8).reverse
  renumber := fun _ => (List.range 8).reverse
  restrict := fun _ _ => (List.range 8).reverse
  finish :=
    { index := (List.range 8).reverse
      reverse := (List.range 8).reverse
      extents := fun _ _ => (List.range 8).reverse }

/-- A work item that increments a cell with a load and a store: not free of races. -/
def increment : Nat → Prog Unit (fun _ => Nat) Unit :=
  fun _ => .read () fun v => .update () (fun _ => v + 1) (.pure ())

end Ex

example : Ex.graded.OK ∧ Ex.graded.WeightsOK ∧
    (Ex.graded.levelRestrict = true → Ex.graded.adaptive = true) ∧
    Ex.look (Ex.graded.buildScheduled 1 0 Ex.backwards) (fun t => [t.tree.nboxes, t.tree.nlevels]) =
      [9, 4] := by
  refine ⟨Ex.graded_ok, Ex.graded_weights, fun _ => rfl, ?_⟩
  rw [C88_every_schedule Ex.graded Ex.graded_ok Ex.graded_weights (fun _ => rfl) 1 0 (by omega)]
  decide +kernel

example : Ex.call.Documented 3 0 "float64" ∧ Ex.call.SomeWeight ∧ Ex.call.SmallLimit :=
  ⟨Ex.call_documented, .inl (by simp [Ex.call]), ⟨by simp [Ex.call]; norm_num, by simp [Ex.call]⟩⟩

/-- The schedule matters in general: with two work items that increment a cell one increment may be lost. -/
example : launch [0, 0, 1, 1] 2 Ex.increment (fun _ => 0) () = 2 ∧
    launch [0, 1, 0, 1] 2 Ex.increment (fun _ => 0) () = 1 := by decide +kernel

/-- Turns after which both work items are at their end. -/
example : ∀ i < 2, (interleave 2 [0, 1, 0, 1] Ex.increment (fun _ => 0)).1 i = .pure () := by
  intro i hi
  obtain rfl | rfl : i = 0 ∨ i = 1 := by omega
  · rfl
  · rfl

end Boxtree.Build
