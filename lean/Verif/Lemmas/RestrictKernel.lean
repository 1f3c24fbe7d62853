import Verif.Lemmas.LoopKernels
import Verif.Lemmas.AllocRestrict
import Verif.Lemmas.Walk

/-!
# The level restriction kernel has no races
-/

namespace Boxtree.Build
open Boxtree.Par

section
variable {P : Params} {level : Nat} {B : Buf} {s : State} {f : Nat → Bool} {u b : Nat}

/-- The stores of a work item that has found a small neighbor. -/
def hit (b : Nat) : Stores := [⟨.force b, true⟩, ⟨.anySplit, true⟩]

theorem restrictWalk_readOnly (t : BoxTree) (fuel : Nat) (w : WalkState) :
    ReadOnly (Buf.restrictWalk P B t u b fuel w) := by
  induction fuel generalizing w with
  | zero => trivial
  | succ fuel ih =>
    unfold Buf.restrictWalk
    simp only
    split
    · split
      · exact ih _
      · split
        · split
          · split
            · exact ih _
            · exact ih _
          · split
            · trivial
            · split
              · intro v
                change Bool at v
                cases v
                · exact ih _
                · trivial
              · exact ih _
        · exact ih _
    · trivial

theorem restricter_readOnly (t : BoxTree) (u i : Nat) : ReadOnly (Buf.restricter P B t u i) := by
  unfold Buf.restricter
  split
  · trivial
  · exact restrictWalk_readOnly _ _ _

/-- What has been appended stays. -/
theorem walkRun_ne_nil {α : Type} {t : BoxTree} {v : Nat → Nat → List α × Bool} :
    ∀ (fuel : Nat) (w : WalkState) (acc r : List α), walkRun t v fuel w acc = some r → acc ≠ [] →
      r ≠ [] := by
  intro fuel
  induction fuel with
  | zero =>
    intro w acc r h hacc
    unfold walkRun at h
    split at h
    · cases h
    · rw [← Option.some.inj h]; exact hacc
  | succ fuel ih =>
    intro w acc r h hacc
    unfold walkRun at h
    split at h
    · exact ih _ _ _ h (by simp [hacc])
    · rw [← Option.some.inj h]; exact hacc

/-- The work item finds what the walk of the model finds. -/
theorem stores_restrictWalk (B : Buf) (f : Nat → Bool) (t : BoxTree) (u b : Nat) :
    ∀ (fuel : Nat) (w : WalkState) (r : List Unit),
      walkRun t (restrictVisit P.fl t B.stored B.hasCh f u b) fuel w [] = some r →
      stores (Buf.restrictWalk P B t u b fuel w) ({ B with force := f } : Buf).mem =
        if r = [] then [] else hit b := by
  intro fuel
  induction fuel with
  | zero =>
    intro w r h
    unfold walkRun at h
    split at h
    · cases h
    · rw [← Option.some.inj h]; rfl
  | succ fuel ih =>
    intro w r h
    unfold walkRun at h
    unfold Buf.restrictWalk
    by_cases hc : w.cont = true
    · rw [if_pos hc] at h ⊢
      simp only [List.nil_append] at h ⊢
      unfold walkStep at h
      simp only at h
      by_cases h0 : t.child w.morton w.parent = 0
      · rw [if_pos h0] at h ⊢
        exact ih _ _ h
      · rw [if_neg h0] at h ⊢
        have key : ∀ x y, restrictVisit P.fl t B.stored B.hasCh f u b w.stack.length
            (t.child w.morton w.parent) = (x, y) →
            walkRun t (restrictVisit P.fl t B.stored B.hasCh f u b) fuel
              (if y = true then ⟨(w.parent, w.morton) :: w.stack, t.child w.morton w.parent, 0, true⟩
                else walkAdvance t.nch w.stack w.parent w.morton) x = some r := by
          intro x y e
          rw [e] at h
          cases y <;> exact h
        split
        · rename_i h1
          split
          · rename_i h2
            split
            · rename_i h3
              exact ih _ _ (key [] true (by
                unfold restrictVisit; simp only; rw [if_pos h1, if_pos h2]; simp [h3]))
            · rename_i h3
              exact ih _ _ (key [] false (by
                unfold restrictVisit; simp only; rw [if_pos h1, if_pos h2]; simp [h3]))
          · rename_i h2
            split
            · rename_i h3
              have := key [()] false (by
                unfold restrictVisit; simp only; rw [if_pos h1, if_neg h2, if_pos (.inl h3)])
              rw [if_neg (walkRun_ne_nil _ _ _ _ this (by simp))]
              rfl
            · rename_i h3
              split
              · rename_i h4
                change stores (if f (t.child w.morton w.parent) = true then _ else _ : Loads) _ = _
                cases h5 : f (t.child w.morton w.parent) with
                | true =>
                  have := key [()] false (by
                    unfold restrictVisit; simp only; rw [if_pos h1, if_neg h2, if_pos (.inr ⟨h4, h5⟩)])
                  rw [if_neg (walkRun_ne_nil _ _ _ _ this (by simp)), if_pos rfl]
                  rfl
                | false =>
                  rw [if_neg (by simp)]
                  exact ih _ _ (key [] false (by
                    unfold restrictVisit; simp only; rw [if_pos h1, if_neg h2, if_neg (by simp [h3, h5])]))
              · rename_i h4
                exact ih _ _ (key [] false (by
                  unfold restrictVisit; simp only; rw [if_pos h1, if_neg h2, if_neg (by simp [h3, h4])]))
        · rename_i h1
          exact ih _ _ (key [] false (by unfold restrictVisit; rw [if_neg h1]))
    · rw [if_neg hc] at h ⊢
      rw [← Option.some.inj h]; rfl

/-! ### Where the walk is -/

/-- Box `p` is in use on level `d`. -/
def At (level : Nat) (B : Buf) (s : State) (d p : Nat) : Prop :=
  ∃ k < s.used d, d < level + 1 ∧ p = B.lstart d + k

/-- The boxes on the stack are on the levels from the root down. -/
def Path (level : Nat) (B : Buf) (s : State) : List (Nat × Nat) → Nat → Prop
  | [], p => At level B s 0 p
  | (p', _) :: rest, p => At level B s (rest.length + 1) p ∧ Path level B s rest p'

theorem Path.at_ {stk : List (Nat × Nat)} {p : Nat} (h : Path level B s stk p) :
    At level B s stk.length p := by
  cases stk with
  | nil => exact h
  | cons x rest => exact h.1

theorem Path.advance {nch : Nat} : ∀ {stk : List (Nat × Nat)} {p m : Nat}, Path level B s stk p →
    Path level B s (walkAdvance nch stk p m).stack (walkAdvance nch stk p m).parent := by
  intro stk
  induction stk with
  | nil =>
    intro p m h
    unfold walkAdvance
    split <;> exact h
  | cons x rest ih =>
    intro p m h
    unfold walkAdvance
    split
    · exact h
    · exact ih h.2

theorem At.child (h : Rel P (level + 1) B s) (hi : Inv P (level + 1) s) {d p m : Nat}
    (hp : At level B s d p) (hc : B.child m p ≠ 0) : At level B s (d + 1) (B.child m p) := by
  obtain ⟨k, hk, hd, rfl⟩ := hp
  have e := (h.same d hd k hk).child m
  cases hx : s.child m d k with
  | none => rw [hx] at e; exact absurd e hc
  | some c =>
    rw [hx] at e
    have hcu := (hi.child_ok hx).2.2.1
    exact ⟨c, hcu, hi.used_level hcu, e⟩

/-- A work item loads marks of the next level only. -/
theorem reads_restrictWalk (h : Rel P (level + 1) B s) (hi : Inv P (level + 1) s) {m : Mem Loc.T} :
    ∀ (fuel : Nat) (w : WalkState), Path level B s w.stack w.parent → ∀ a,
      Reads (Buf.restrictWalk P B (B.tree P level) u b fuel w) m a →
      ∃ c, a = .force c ∧ At level B s (u + 1) c := by
  intro fuel
  induction fuel with
  | zero => intro w _ a hr; exact hr.elim
  | succ fuel ih =>
    intro w hw a hr
    unfold Buf.restrictWalk at hr
    simp only at hr
    have hadv := hw.advance (nch := (B.tree P level).nch) (m := w.morton)
    split at hr
    · split at hr
      · exact ih _ hadv a hr
      · rename_i h0
        have hat := hw.at_.child h hi (m := w.morton) h0
        split at hr
        · split at hr
          · split at hr
            · exact ih _ (show Path level B s ((w.parent, w.morton) :: w.stack) _ from ⟨hat, hw⟩) a hr
            · exact ih _ hadv a hr
          · split at hr
            · exact hr.elim
            · split at hr
              · rename_i h4
                rcases hr with rfl | hr
                · exact ⟨_, rfl, by
                    have : w.stack.length = u := by omega
                    rw [← this]; exact hat⟩
                · revert hr
                  generalize m (.force ((B.tree P level).child w.morton w.parent)) = v
                  change Bool at v
                  cases v with
                  | true => exact fun hr => hr.elim
                  | false => exact fun hr => ih _ hadv a hr
              · exact ih _ hadv a hr
        · exact ih _ hadv a hr
    · exact hr.elim

/-! ### One level -/

/-- Marks only on used boxes. -/
def Clean (level : Nat) (B : Buf) (s : State) (f : Nat → Bool) : Prop :=
  ∀ b, Unused B.lstart s.used (level + 1) b → f b = false

theorem Path.root (h : Rel P (level + 1) B s) (hi : Inv P (level + 1) s) : Path level B s [] 0 :=
  ⟨0, by rw [hi.used_zero]; omega, by omega, by rw [h.lay.start0]⟩

/-- The walk ends. -/
theorem walkRun_restrict (h : Rel P (level + 1) B s) (hi : Inv P (level + 1) s)
    (hpos : 0 < P.rootExtent) (hf : Clean level B s f) {u k : Nat} (hu : u < level + 1)
    (hk : k < s.used u) :
    walkRun (B.tree P level) (restrictVisit P.fl (B.tree P level) B.stored B.hasCh f u (B.lstart u + k))
      (walkFuel (B.tree P level)) (walkInit 0) [] =
      some (walk (B.tree P level)
        (restrictVisit P.fl (B.tree P level) B.stored B.hasCh f u (B.lstart u + k)) 0) := by
  have hF : FRel (level + 1) B s f (fun l k => f (B.lstart l + k)) := ⟨fun _ _ _ _ => rfl, hf⟩
  have hm := h.walkMap hi hF hu hk
  have h0 : place (level + 1) B s 0 = 0 := by
    have := place_id (B := B) (level := level + 1) (l := 0) (k := 0) (by omega)
      (by rw [hi.used_zero]; omega)
    rw [levelStart_zero, h.lay.start0] at this
    exact this
  have hD : 0 < levelStart s.used (level + 1) := by have := start_pos hi level; omega
  have hr := hm.run (walkFuel (B.tree P level)) (walkInit 0) [] ⟨hD, by simp [walkInit]⟩
  have e : WalkMap.st (place (level + 1) B s) (walkInit 0) = walkInit 0 := by
    simp [WalkMap.st, walkInit, h0]
  rw [e] at hr
  have hw := walkRun_eq_dfs (t := toTree P (level + 1) s)
    (restrictVisit P.fl (toTree P (level + 1) s)
        (fun b => s.stored (locate s.used (level + 1) 0 b).1 (locate s.used (level + 1) 0 b).2)
        (fun b => s.hasCh (locate s.used (level + 1) 0 b).1 (locate s.used (level + 1) 0 b).2)
        (fun b => f (B.lstart (locate s.used (level + 1) 0 b).1 + (locate s.used (level + 1) 0 b).2)) u
        (levelStart s.used u + k)) (hi.toTree_wf hpos) (b := 0) hD
    (walkFuel (B.tree P level)) (Nat.le_of_eq rfl)
  unfold walk
  rw [hr, hw]
  rfl

variable (h : Rel P (level + 1) B s) (hi : Inv P (level + 1) s) (hpos : 0 < P.rootExtent)
  (hf : Clean level B s f) (hu : u < level + 1)
include h hi hpos hf hu

/-- The stores of the work item of box `i` of the slice. -/
theorem stores_restricter {i : Nat} (hk : i < s.used u) :
    stores (Buf.restricter P B (B.tree P level) u i) ({ B with force := f } : Buf).mem =
      if (!B.hasCh (B.lstart u + i) && (walk (B.tree P level)
        (restrictVisit P.fl (B.tree P level) B.stored B.hasCh f u (B.lstart u + i)) 0 != [])) = true
      then hit (B.lstart u + i) else [] := by
  unfold Buf.restricter
  by_cases hh : B.hasCh (B.lstart u + i) = true
  · rw [if_pos hh]
    simp [hh]; rfl
  · rw [if_neg hh, stores_restrictWalk B f _ u _ _ _ _ (walkRun_restrict h hi hpos hf hu hk)]
    by_cases hw : walk (B.tree P level)
        (restrictVisit P.fl (B.tree P level) B.stored B.hasCh f u (B.lstart u + i)) 0 = []
    · simp [hw]
    · simp [hw, hh]

/-- **No races in the level restriction.** -/
theorem restricter_raceFree : RaceFree (B.used u)
    (fun i => thenStore (Buf.restricter P B (B.tree P level) u i)) ({ B with force := f } : Buf).mem := by
  have hst : ∀ i < B.used u, ∀ w ∈ stores (Buf.restricter P B (B.tree P level) u i)
      ({ B with force := f } : Buf).mem, w = ⟨.force (B.lstart u + i), true⟩ ∨ w = ⟨.anySplit, true⟩ := by
    intro i hn w hw
    rw [stores_restricter h hi hpos hf hu (by rw [← h.used]; exact hn)] at hw
    split at hw
    · simpa [hit] using hw
    · cases hw
  apply raceFree_thenStore (restricter_readOnly _ _)
  · intro i j hni hnj hij a hr v hv
    have hra : ∃ c, a = .force c ∧ At level B s (u + 1) c := by
      unfold Buf.restricter at hr
      split at hr
      · exact hr.elim
      · exact reads_restrictWalk h hi _ _ (Path.root h hi) a hr
    obtain ⟨c, rfl, k, hk, hd, rfl⟩ := hra
    rcases hst j hnj _ hv with e | e
    · have e1 := Loc.force.inj (congrArg Sigma.fst e)
      have := h.lay.emb_inj hd hk hu (by rw [← h.used]; exact hnj) e1
      omega
    · cases congrArg Sigma.fst e
  · intro i j hni hnj hij a v v' hv hv'
    rcases hst i hni _ hv with e | e <;> rcases hst j hnj _ hv' with e' | e' <;>
      have e1 := congrArg Sigma.fst e <;> have e2 := congrArg Sigma.fst e' <;>
      simp only at e1 e2 <;> subst e1
    · have h1 : v = true := eq_of_heq (Sigma.mk.inj_iff.1 e).2
      have h2 : v' = true := eq_of_heq (Sigma.mk.inj_iff.1 e').2
      rw [h1, h2]
    · cases e2
    · cases e2
    · have h1 : v = true := eq_of_heq (Sigma.mk.inj_iff.1 e).2
      have h2 : v' = true := eq_of_heq (Sigma.mk.inj_iff.1 e').2
      rw [h1, h2]

/-- The marks after the launch for level `u`. -/
theorem after_force (σ : List Nat) (b : Nat) : launch σ (B.used u)
    (fun i => thenStore (Buf.restricter P B (B.tree P level) u i)) ({ B with force := f } : Buf).mem
      (.force b) = B.restrictLevel P (B.tree P level) f u b := by
  have hrf := restricter_raceFree h hi hpos hf hu
  unfold Buf.restrictLevel
  by_cases hb : B.lstart u ≤ b ∧ b < B.lstart u + B.used u
  · obtain ⟨i, rfl⟩ : ∃ i, b = B.lstart u + i := ⟨b - B.lstart u, by omega⟩
    have hn : i < B.used u := by omega
    have hst := stores_restricter h hi hpos hf hu (i := i) (by rw [← h.used]; exact hn)
    refine Eq.trans ?_ (if_pos hb).symm
    by_cases hc : (!B.hasCh (B.lstart u + i) && (walk (B.tree P level)
        (restrictVisit P.fl (B.tree P level) B.stored B.hasCh f u (B.lstart u + i)) 0 != [])) = true
    · rw [hc, Bool.or_true]
      refine launch_stored σ (restricter_readOnly _ _) hrf ?_ ⟨i, hn, ?_⟩
      · intro j hj v' hv'
        rw [stores_restricter h hi hpos hf hu (by rw [← h.used]; exact hj)] at hv'
        split at hv'
        · simp only [hit, List.mem_cons, List.not_mem_nil, or_false] at hv'
          rcases hv' with e | e
          · exact eq_of_heq (Sigma.mk.inj_iff.1 e).2
          · cases congrArg Sigma.fst e
        · cases hv'
      · rw [hst, if_pos hc]
        simp [hit]
    · rw [Bool.not_eq_true] at hc
      rw [hc, Bool.or_false]
      refine launch_unstored σ (restricter_readOnly _ _) hrf ?_
      intro j hj v' hv'
      have hj' : j < s.used u := by rw [← h.used]; exact hj
      rw [stores_restricter h hi hpos hf hu hj'] at hv'
      split at hv'
      · rename_i hx
        simp only [hit, List.mem_cons, List.not_mem_nil, or_false] at hv'
        rcases hv' with e | e
        · have : j = i := by have := Loc.force.inj (congrArg Sigma.fst e); omega
          subst this
          rw [hx] at hc; cases hc
        · cases congrArg Sigma.fst e
      · cases hv'
  · refine Eq.trans ?_ (if_neg hb).symm
    refine launch_unstored σ (restricter_readOnly _ _) hrf ?_
    intro j hj v' hv'
    rw [stores_restricter h hi hpos hf hu (by rw [← h.used]; exact hj)] at hv'
    split at hv'
    · simp only [hit, List.mem_cons, List.not_mem_nil, or_false] at hv'
      rcases hv' with e | e
      · have := Loc.force.inj (congrArg Sigma.fst e); omega
      · cases congrArg Sigma.fst e
    · cases hv'

/-- The flag after the launch for level `u`, when no box of the level was marked before. -/
theorem after_any (σ : List Nat) (h0 : ∀ k < s.used u, f (B.lstart u + k) = false) : launch σ (B.used u)
    (fun i => thenStore (Buf.restricter P B (B.tree P level) u i)) ({ B with force := f } : Buf).mem
      .anySplit = B.anyForced (B.restrictLevel P (B.tree P level) f u) u := by
  have hrf := restricter_raceFree h hi hpos hf hu
  have hval : ∀ i < B.used u, B.restrictLevel P (B.tree P level) f u (B.lstart u + i) =
      (!B.hasCh (B.lstart u + i) && (walk (B.tree P level)
        (restrictVisit P.fl (B.tree P level) B.stored B.hasCh f u (B.lstart u + i)) 0 != [])) := by
    intro i hn
    unfold Buf.restrictLevel
    rw [if_pos ⟨by omega, by omega⟩, h0 i (by rw [← h.used]; exact hn), Bool.false_or]
  by_cases hc : B.anyForced (B.restrictLevel P (B.tree P level) f u) u = true
  · rw [hc]
    unfold Buf.anyForced at hc
    obtain ⟨i, hn, hx⟩ := List.any_eq_true.1 hc
    have hn := List.mem_range.1 hn
    rw [hval i hn] at hx
    refine launch_stored σ (restricter_readOnly _ _) hrf ?_ ⟨i, hn, ?_⟩
    · intro j hj v' hv'
      rw [stores_restricter h hi hpos hf hu (by rw [← h.used]; exact hj)] at hv'
      split at hv'
      · simp only [hit, List.mem_cons, List.not_mem_nil, or_false] at hv'
        rcases hv' with e | e
        · cases congrArg Sigma.fst e
        · exact eq_of_heq (Sigma.mk.inj_iff.1 e).2
      · cases hv'
    · rw [stores_restricter h hi hpos hf hu (by rw [← h.used]; exact hn), if_pos hx]
      simp [hit]
  · rw [Bool.not_eq_true] at hc
    rw [hc]
    refine launch_unstored σ (restricter_readOnly _ _) hrf ?_
    intro j hj v' hv'
    rw [stores_restricter h hi hpos hf hu (by rw [← h.used]; exact hj)] at hv'
    split at hv'
    · rename_i hx
      have := (List.any_eq_false.1 hc) j (List.mem_range.2 hj)
      rw [hval j hj] at this
      exact this hx
    · cases hv'

omit hpos in
theorem Clean.restrictLevel : Clean level B s (B.restrictLevel P (B.tree P level) f u) :=
  (FRel.restrictLevel h hi (g := fun l k => f (B.lstart l + k)) ⟨fun _ _ _ _ => rfl, hf⟩ hu).blank

end

section
variable {P : Params} {level : Nat} {B : Buf} {s : State}

theorem restrictLevel_flat_other (h : Rel P (level + 1) B s) {f : Nat → Bool} {u l k : Nat}
    (hu : u < level + 1) (hl : l < level + 1) (hk : k < s.used l) (hne : l ≠ u) :
    B.restrictLevel P (B.tree P level) f u (B.lstart l + k) = f (B.lstart l + k) := by
  unfold Buf.restrictLevel
  rw [if_neg]
  rintro ⟨h1, h2⟩
  rw [h.used] at h2
  exact hne (h.lay.inj (b := B.lstart l + k) hl hu (by omega) (h.lay.in_level hl hk) h1
    (by have := h.lay.len u hu; omega))

theorem upward_flat_other (h : Rel P (level + 1) B s) {l k : Nat} (hl : l < level + 1) (hk : k < s.used l) :
    ∀ (u : Nat) (f : Nat → Bool), u < l →
      B.upward P (B.tree P level) u f (B.lstart l + k) = f (B.lstart l + k) := by
  intro u
  induction u with
  | zero => intro f _; rfl
  | succ u ih =>
    intro f hul
    unfold Buf.upward
    simp only
    have e := restrictLevel_flat_other h (f := f) (show u + 1 < level + 1 by omega) hl hk (by omega)
    split
    · rw [ih _ (by omega), e]
    · exact e

/-- The upward pass. -/
theorem runUpward_eq (h : Rel P (level + 1) B s) (hi : Inv P (level + 1) s) (hpos : 0 < P.rootExtent)
    (σ : Nat → List Nat) : ∀ (u : Nat) (f : Nat → Bool), u < level + 1 → Clean level B s f →
      (∀ l ≤ u, ∀ k < s.used l, f (B.lstart l + k) = false) →
      B.runUpward P σ (B.tree P level) u f = (B.upward P (B.tree P level) u f,
        decide (0 < u) && B.anyForced (B.upward P (B.tree P level) u f) u) := by
  intro u
  induction u with
  | zero => intro f _ _ _; rfl
  | succ u ih =>
    intro f hu hf h0
    unfold Buf.runUpward Buf.upward
    simp only
    rw [after_any h hi hpos hf hu _ (h0 (u + 1) (Nat.le_refl _))]
    have e : (fun b => launch (σ (u + 1)) (B.used (u + 1))
        (fun i => thenStore (Buf.restricter P B (B.tree P level) (u + 1) i))
        ({ B with force := f } : Buf).mem (.force b)) = B.restrictLevel P (B.tree P level) f (u + 1) := by
      funext b; exact after_force h hi hpos hf hu _ b
    rw [e]
    have hany : ∀ g : Nat → Bool, (∀ k < B.used (u + 1), g (B.lstart (u + 1) + k) =
        B.restrictLevel P (B.tree P level) f (u + 1) (B.lstart (u + 1) + k)) →
        B.anyForced g (u + 1) = B.anyForced (B.restrictLevel P (B.tree P level) f (u + 1)) (u + 1) := by
      intro g hg
      unfold Buf.anyForced
      rw [Bool.eq_iff_iff, List.any_eq_true, List.any_eq_true]
      constructor
      · rintro ⟨k, hk, hx⟩; exact ⟨k, hk, by rw [← hg k (List.mem_range.1 hk)]; exact hx⟩
      · rintro ⟨k, hk, hx⟩; exact ⟨k, hk, by rw [hg k (List.mem_range.1 hk)]; exact hx⟩
    cases hx : B.anyForced (B.restrictLevel P (B.tree P level) f (u + 1)) (u + 1) with
    | false =>
      rw [if_neg (by simp), if_neg (by simp), hx]
      simp
    | true =>
      rw [if_pos rfl, if_pos rfl, ih _ (by omega) (Clean.restrictLevel h hi hf hu) ?_]
      · simp only
        rw [hany _ fun k hk => upward_flat_other h hu (by rw [← h.used]; exact hk) u _ (by omega), hx]
        simp
      · intro l hl k hk
        rw [restrictLevel_flat_other h hu (by omega) hk (by omega)]
        exact h0 l (by omega) k hk

/-- **Level restriction** leaves the same marks for every schedule. -/
theorem runRestrict_eq (h : Rel P (level + 1) B s) (hi : Inv P (level + 1) s) (hpos : 0 < P.rootExtent)
    (σ : Nat → List Nat) : B.runRestrict P σ level =
      (B.restrict P level, (B.restrict P level).didSplit level) := by
  unfold Buf.runRestrict Buf.restrict Buf.didSplit
  rw [runUpward_eq h hi hpos σ (level - 2) _ (by omega) (fun _ _ => rfl) (fun _ _ _ _ => rfl)]
  rfl

end
end Boxtree.Build
