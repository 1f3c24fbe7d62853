import Verif.Model.FmmLibGrad
import Verif.Props.FmmLibBuilt

/-!
# C83: gradients
-/

namespace Boxtree.FmmLib
open Boxtree BoxTree Build

variable {A W D C P : Type} [AddCommMonoid C] [AddCommMonoid P]

omit [AddCommMonoid P] in
theorem foldlM_flat {β : Type} (g : Output P → β → Except String (Output P)) (f : (Nat → P) → β → Nat → P)
    (h : ∀ a b, g (.flat a) b = .ok (.flat (f a b))) (l : List β) (a : Nat → P) :
    l.foldlM g (.flat a) = .ok (.flat (l.foldl f a)) := by
  induction l generalizing a with
  | nil => rfl
  | cons x l ih =>
    rw [List.foldlM_cons, h]
    exact ih _

section
variable (t : BoxTree) (q : Particles) (R : Lib A W D C P) (w : Wrangler A D)
  (src : Nat → Src W D) (dgrad : List (Src W D) → List ((Nat → ℚ) → P))
  (mgrad tgrad : ℚ → (Nat → ℚ) → List C → List ((Nat → ℚ) → P))

omit [AddCommMonoid C] in
theorem evalDirectG_false (boxes : List Nat) (lists : BuiltList) :
    evalDirectG false t q R w src dgrad boxes lists = .ok (.flat (evalDirect q R w src boxes lists)) := by
  refine foldlM_flat _ _ (fun a i => ?_) _ _
  dsimp only
  split <;> rfl

omit [AddCommMonoid C] in
theorem evalMultipolesG_false (tl : List (List Nat)) (ll : List BuiltList) (mp : Nat → C) :
    evalMultipolesG false t q R w mgrad tl ll mp = .ok (.flat (evalMultipoles t q R w tl ll mp)) := by
  refine foldlM_flat _ _ (fun a lev => ?_) _ _
  refine foldlM_flat _ _ (fun a i => ?_) _ _
  dsimp only
  split <;> rfl

omit [AddCommMonoid C] in
theorem evalLocalsG_false (ls boxes : List Nat) (a : Nat → C) :
    evalLocalsG false t q R w tgrad ls boxes a = .ok (.flat (evalLocals t q R w ls boxes a)) := by
  refine foldlM_flat _ _ (fun a lev => ?_) _ _
  refine foldlM_flat _ _ (fun a b => ?_) _ _
  split <;> rfl

omit [AddCommMonoid C] in
theorem addDirectG_false (boxes : List Nat) (lists : Option BuiltList) (a : Nat → P) :
    addDirectG false t q R w src dgrad boxes lists (.flat a) =
      .ok (.flat (addDirect q R w src boxes lists a)) := by
  cases lists with
  | none => rfl
  | some l =>
    simp only [addDirectG, evalDirectG_false]
    rfl

/-- **C83**: without gradients, the output arrays are those of `Model/FmmLib`. -/
theorem C83_without_gradients (trav : Traversal) (weights : Nat → W) :
    driveG false t q R w dgrad mgrad tgrad trav weights =
      (drive t q R w trav weights).map Output.flat := by
  unfold driveG drive
  split
  · simp only [evaluateG, evalDirectG_false, evalMultipolesG_false, evalLocalsG_false, Output.add,
      addDirectG_false, bind, Except.bind, pure, Except.pure, reorderG]
    rfl
  · rfl

end

/-- **C83**, negative: with `ifgrad=True` every run on a tree with a target ends with `IndexError` in the
first evaluation, for all kernels, libraries, weights and traversals. -/
theorem C83_gradients_rejected (inp : TravInput) (trav : Traversal) (ok : inp.OK)
    (hd : inp.tree.dims = 2 ∨ inp.tree.dims = 3)
    (h : buildTraversal inp = .ok trav) (hm : inp.srcMask = none)
    (q : Particles) (hq : q.OK inp.tree) (hn : 0 < q.ntargets) (R : Lib A W D C P) (w : Wrangler A D)
    (dgrad : List (Src W D) → List ((Nat → ℚ) → P))
    (mgrad tgrad : ℚ → (Nat → ℚ) → List C → List ((Nat → ℚ) → P)) (weights : Nat → W) :
    driveG true inp.tree q R w dgrad mgrad tgrad trav weights = .error "IndexError" := by
  obtain ⟨b, b1, b2, b3, b4⟩ := hq.tgt_cover 0 hn
  have hb := (mem_targetBoxes_iff inp trav ok h hm b).2 ⟨b1, b2⟩
  obtain ⟨i, hi, hbi⟩ := List.getElem_of_mem hb
  have key : ∀ (src : Nat → Src W D) (l : List Nat), i ∈ l → ∀ out : Output P,
      l.foldlM (fun out i =>
        let b := trav.targetBoxes.getD i 0
        if q.tgtCount b = 0 then .ok out
        else addPotgrad true q w out b (fun x =>
          (trav.list1.row i).foldl (fun r s =>
            if q.srcCount s = 0 then r else r + R.direct (boxSrc q src s) x) 0)
          ((trav.list1.row i).foldl
            (fun g s => if q.srcCount s = 0 then g else dgrad (boxSrc q src s)) [])) out =
        .error "IndexError" := by
    intro src l
    induction l with
    | nil => intro h; simp at h
    | cons k l ih =>
      intro hk out
      rw [List.foldlM_cons]
      by_cases h0 : q.tgtCount (trav.targetBoxes.getD k 0) = 0
      · dsimp only
        rw [if_pos h0]
        refine ih ?_ out
        rcases List.mem_cons.1 hk with rfl | hk
        · exfalso
          rw [List.getD_eq_getElem?_getD, List.getElem?_eq_getElem hi, Option.getD_some, hbi] at h0
          omega
        · exact hk
      · dsimp only
        rw [if_neg h0]
        cases out <;> rfl
  unfold driveG
  rw [if_pos hd]
  have := key (fun j =>
      { pos := w.sources j
        weight := weights (q.userSourceIds j)
        dipole := w.dipoleVec.map fun d =>
          if w.dipolesAlreadyReordered then d j else d (q.userSourceIds j) })
    (List.range trav.targetBoxes.length) (List.mem_range.2 hi) (outputZeros true inp.tree.dims)
  simp only [evaluateG, evalDirectG, this, bind, Except.bind]

/-- **C83**, negative, for calls: after every documented call of the tree builder, with any traversal and
any wrangler on it, asking for gradients fails. -/
theorem C83_calls_rejected (c : Call) (ns nt : Nat)
    (dtype : String) (hd : c.Documented ns nt dtype) (hw : c.SomeWeight)
    (hr : c.args.kind = "adaptive-level-restricted" →
      c.args.sourceRadii = none ∧ c.args.targetRadii = none)
    (hdim : c.args.particles.length = 2 ∨ c.args.particles.length = 3)
    (t : Built) (h : c.run = .ok t) (tin : TravInput) (hi : CallTrav c t tin)
    (trav : Traversal) (ht : buildTraversal tin = .ok trav)
    (w : Wrangler A D) (dipoles : Option (Nat → D)) (hwr : WranglerFor t w dipoles)
    (weights : Nat → W) (R : Lib A W D C P)
    (hn : 0 < if c.args.targets = none then ns else nt)
    (dgrad : List (Src W D) → List ((Nat → ℚ) → P))
    (mgrad tgrad : ℚ → (Nat → ℚ) → List C → List ((Nat → ℚ) → P)) :
    driveG true t.tree t.particles.toParticles R w dgrad mgrad tgrad trav weights =
      .error "IndexError" := by
  obtain ⟨g1, g2, g3, g4, g5, g6, g7⟩ :=
    documented_call_holds c ns nt dtype hd hw hr hdim t h tin hi w dipoles hwr weights
  have := C83_gradients_rejected tin trav g1 g3 ht hi.noMask t.particles.toParticles g4
    (by rw [← g7] at hn; exact hn) R w dgrad mgrad tgrad weights
  rw [hi.tree] at this
  exact this

end Boxtree.FmmLib

namespace Boxtree.Build.Ex
open FmmLib

/-- The hypotheses of `C83_calls_rejected` hold together. -/
example (weights d : Nat → ℚ) : ∃ t trav, call.run = .ok t ∧
    buildTraversal (callTrav t) = .ok trav ∧
    driveG true t.tree t.particles.toParticles FmmLib.Ex.linLib (callWrangler t d) (fun _ => [])
      (fun _ _ _ => []) (fun _ _ _ => []) trav weights = .error "IndexError" := by
  obtain ⟨t, trav, h1, h2, _⟩ := call_runs
  have hi : CallTrav call t (callTrav t) :=
    ⟨rfl, rfl, le_refl _, le_refl _, by show (1 / 1024 : ℚ) ≤ 1 / 12; norm_num, rfl, rfl, trivial⟩
  have hwr : WranglerFor t (callWrangler t d) (some d) := ⟨fun _ _ => rfl, fun _ _ => rfl, rfl, rfl⟩
  exact ⟨t, trav, h1, h2, C83_calls_rejected call 3 0 _ call_documented (Or.inl (by decide))
    (fun _ => ⟨rfl, rfl⟩) (Or.inl rfl) t h1 _ hi trav h2 _ _ hwr weights _ (by decide) _ _ _⟩

end Boxtree.Build.Ex
