import Verif.Model.TravCommands
import Verif.Lemmas.Traversal

/-!
# Lemmas for the launches of the traversal builder
-/

namespace Boxtree
namespace Queue

variable {L : Type} [DecidableEq L] {V : L → Type}

/-- Each launch comes after those that write what it reads. -/
def ReadsOK (R : L → List L) : List L → List L → Prop
  | _, [] => True
  | done, x :: xs => (∀ y ∈ R x, y ∈ done) ∧ ReadsOK R (x :: done) xs

theorem exec_values (cmds : ∀ x, Option (Launch L V x)) (R : L → List L) (F : ∀ y, V y)
    (hF : ∀ x c, cmds x = some c → ∀ s : ∀ y, V y, (∀ y ∈ R x, s y = F y) → c.value s = F x) :
    ∀ (xs done : List L) (s : ∀ y, V y), ReadsOK R done xs → (∀ x ∈ xs, ∃ c, cmds x = some c) →
      (∀ x ∈ done, s x = F x) → ∀ x, x ∈ done ∨ x ∈ xs → exec cmds xs s x = F x := by
  intro xs
  induction xs with
  | nil =>
    intro done s _ _ hd x hx
    rcases hx with hx | hx
    · exact hd x hx
    · simp at hx
  | cons a xs ih =>
    intro done s hr hc hd x hx
    obtain ⟨c, hcc⟩ := hc a (by simp)
    unfold exec
    rw [hcc]
    change exec cmds xs (Function.update s a (c.value s)) x = F x
    refine ih (a :: done) _ hr.2 (fun y hy => hc y (by simp [hy])) ?_ x ?_
    · intro y hy
      by_cases hya : y = a
      · subst hya
        rw [Function.update_self]
        exact hF y c hcc s (fun z hz => hd z (hr.1 z hz))
      · rw [Function.update_of_ne hya]
        rcases List.mem_cons.1 hy with h | h
        · exact absurd h hya
        · exact hd y h
    · rcases hx with hx | hx
      · left; simp [hx]
      · rcases List.mem_cons.1 hx with h | h
        · left; simp [h]
        · right; exact h

theorem exec_of_not_mem (cmds : ∀ x, Option (Launch L V x)) (x : L) :
    ∀ (xs : List L) (s : ∀ y, V y), x ∉ xs → exec cmds xs s x = s x := by
  intro xs
  induction xs with
  | nil => intros; rfl
  | cons a xs ih =>
    intro s h
    unfold exec
    rw [ih _ (fun h' => h (by simp [h']))]
    have hne : x ≠ a := fun h' => h (by simp [h'])
    cases cmds a with
    | none => rfl
    | some c => exact Function.update_of_ne hne _ _

theorem exec_append (cmds : ∀ x, Option (Launch L V x)) (ys : List L) :
    ∀ (xs : List L) (s : ∀ y, V y), exec cmds (xs ++ ys) s = exec cmds ys (exec cmds xs s) := by
  intro xs
  induction xs with
  | nil => intros; rfl
  | cons a xs ih => intro s; exact ih _

/-- With every launch, those in its wait list. -/
def Closed (cmds : ∀ x, Option (Launch L V x)) (D : L → Prop) : Prop :=
  ∀ x, D x → ∃ c, cmds x = some c ∧ ∀ w ∈ c.waits, D w

omit [DecidableEq L] in
theorem allowed_spec (cmds : ∀ x, Option (Launch L V x)) (R : L → List L) (A : List L)
    (hR : ∀ D, Closed cmds D → (∀ a ∈ A, D a) → ∀ x c, cmds x = some c → (∀ w ∈ c.waits, D w) →
      ∀ y ∈ R x, D y) :
    ∀ (xs done : List L), Closed cmds (· ∈ done) → (∀ a ∈ A, a ∈ done) → Allowed cmds done xs →
      ReadsOK R done xs ∧ (∀ x ∈ xs, ∃ c, cmds x = some c) ∧
      Closed cmds (fun x => x ∈ done ∨ x ∈ xs) := by
  intro xs
  induction xs with
  | nil =>
    intro done hcl _ _
    refine ⟨trivial, by simp, ?_⟩
    simpa using hcl
  | cons a xs ih =>
    intro done hcl hA ha
    obtain ⟨⟨c, hc, hw⟩, hnd, hrest⟩ := ha
    have hcl' : Closed cmds (· ∈ a :: done) := by
      intro x hx
      rcases List.mem_cons.1 hx with rfl | hx
      · exact ⟨c, hc, fun w hw' => by simp [hw w hw']⟩
      · obtain ⟨c', h1, h2⟩ := hcl x hx
        exact ⟨c', h1, fun w hw' => by simp [h2 w hw']⟩
    obtain ⟨h1, h2, h3⟩ := ih (a :: done) hcl' (fun y hy => by simp [hA y hy]) hrest
    refine ⟨⟨hR _ hcl hA a c hc hw, h1⟩, ?_, ?_⟩
    · intro x hx
      rcases List.mem_cons.1 hx with rfl | hx
      · exact ⟨c, hc⟩
      · exact h2 x hx
    · intro x hx
      have : x ∈ a :: done ∨ x ∈ xs := by
        rcases hx with hx | hx
        · left; simp [hx]
        · rcases List.mem_cons.1 hx with h | h
          · left; simp [h]
          · right; exact h
      obtain ⟨c', h4, h5⟩ := h3 x this
      refine ⟨c', h4, fun w hw' => ?_⟩
      rcases h5 w hw' with h | h
      · rcases List.mem_cons.1 h with h | h
        · right; simp [h]
        · left; exact h
      · right; simp [h]

end Queue

namespace TravInput
open Queue
variable (inp : TravInput)

/-- The arrays that a launch reads, besides those of the tree. -/
def readsOf : Arr → List Arr
  | .roles => []
  | .starts _ => [.roles]
  | .slnws => []
  | .list1 => [.roles]
  | .list2 => [.roles, .slnws]
  | .list3 _ => [.roles, .slnws]
  | .close3 => [.roles, .slnws]
  | .list4 => [.roles, .slnws]
  | .close4 => [.roles, .list4]

/-- The role lists. -/
def rolesOf : Roles where
  sources := selSourceBoxes inp.tree inp.srcMask
  parents := selSourceParentBoxes inp.tree inp.srcParentMask
  targets :=
    if inp.sourcesAreTargets then selSourceBoxes inp.tree inp.srcMask else selTargetBoxes inp.tree
  ttp := selTtpBoxes inp.tree

/-- The colleagues. -/
def slnwsOf : BuiltList :=
  buildLists ((List.range inp.tree.nboxes).map (slnwsKernel inp.tree inp.params))

/-- What the launches of list 4 store. -/
def list4Of : BuiltList × BuiltList :=
  (buildLists ((inp.rolesOf.ttp.map (list4Kernel inp.tree inp.params inp.slnwsOf.row)).map sepPart),
    buildLists ((inp.rolesOf.ttp.map (list4Kernel inp.tree inp.params inp.slnwsOf.row)).map closePart))

/-- The contents of all arrays at the end. -/
def final : (a : Arr) → Arr.Val a
  | .roles => inp.rolesOf
  | .starts k => extractLevelStarts inp.tree (inp.rolesOf.get k)
  | .slnws => inp.slnwsOf
  | .list1 => buildLists (inp.rolesOf.targets.map (list1Kernel inp.tree inp.params))
  | .list2 => buildLists (inp.rolesOf.ttp.map (list2Kernel inp.tree inp.params inp.slnwsOf.row))
  | .list3 l =>
      (buildLists (nonemptyRows (inp.rolesOf.targets.map fun b =>
          sepPart (list3Kernel inp.tree inp.params inp.slnwsOf.row (l : Int) b))),
        (nonemptyIndices (inp.rolesOf.targets.map fun b =>
          sepPart (list3Kernel inp.tree inp.params inp.slnwsOf.row (l : Int) b))).map
          fun i => inp.rolesOf.targets.getD i 0)
  | .close3 => buildLists (inp.rolesOf.targets.map fun b =>
      closePart (list3Kernel inp.tree inp.params inp.slnwsOf.row (-1) b))
  | .list4 => inp.list4Of
  | .close4 => (listMerger [inp.list4Of.2] .targetOrTargetParentBoxes .targetBoxes
      inp.rolesOf.targets inp.rolesOf.ttp inp.tree.nboxes).toOption

theorem launch_value (hasStarts : Bool) (x : Arr) (c : Launch Arr Arr.Val x)
    (hc : inp.launches hasStarts x = some c) (s : ∀ y, Arr.Val y)
    (h : ∀ y ∈ readsOf x, s y = inp.final y) : c.value s = inp.final x := by
  have hr : ∀ {x : Arr}, Arr.roles ∈ readsOf x → (∀ y ∈ readsOf x, s y = inp.final y) →
      s .roles = inp.rolesOf := fun h1 h2 => h2 _ h1
  have hn : ∀ {x : Arr}, Arr.slnws ∈ readsOf x → (∀ y ∈ readsOf x, s y = inp.final y) →
      s .slnws = inp.slnwsOf := fun h1 h2 => h2 _ h1
  cases x with
  | roles => cases hc; rfl
  | starts k =>
    have h1 := hr (x := .starts k) (by simp [readsOf]) h
    by_cases hh : hasStarts = true
    · rw [show inp.launches hasStarts (.starts k) = _ from if_pos hh] at hc
      cases hc; simp only [h1]; rfl
    · rw [show inp.launches hasStarts (.starts k) = _ from if_neg hh] at hc
      cases hc
  | slnws => cases hc; rfl
  | list1 =>
    have h1 := hr (x := .list1) (by simp [readsOf]) h
    cases hc; simp only [h1]; rfl
  | list2 =>
    have h1 := hr (x := .list2) (by simp [readsOf]) h
    have h2 := hn (x := .list2) (by simp [readsOf]) h
    cases hc; simp only [h1, h2]; rfl
  | list3 l =>
    have h1 := hr (x := .list3 l) (by simp [readsOf]) h
    have h2 := hn (x := .list3 l) (by simp [readsOf]) h
    by_cases hh : l < inp.tree.nlevels
    · rw [show inp.launches hasStarts (.list3 l) = _ from if_pos hh] at hc
      cases hc; simp only [h1, h2]; rfl
    · rw [show inp.launches hasStarts (.list3 l) = _ from if_neg hh] at hc
      cases hc
  | close3 =>
    have h1 := hr (x := .close3) (by simp [readsOf]) h
    have h2 := hn (x := .close3) (by simp [readsOf]) h
    by_cases hh : inp.targetsHaveExtent = true
    · rw [show inp.launches hasStarts .close3 = _ from if_pos hh] at hc
      cases hc; simp only [h1, h2]; rfl
    · rw [show inp.launches hasStarts .close3 = _ from if_neg hh] at hc
      cases hc
  | list4 =>
    have h1 := hr (x := .list4) (by simp [readsOf]) h
    have h2 := hn (x := .list4) (by simp [readsOf]) h
    cases hc; simp only [h1, h2]; rfl
  | close4 =>
    have h1 := hr (x := .close4) (by simp [readsOf]) h
    have h2 : s .list4 = inp.list4Of := h .list4 (by simp [readsOf])
    by_cases hh : inp.targetsHaveExtent = true
    · rw [show inp.launches hasStarts .close4 = _ from if_pos hh] at hc
      cases hc; simp only [h1, h2]; rfl
    · rw [show inp.launches hasStarts .close4 = _ from if_neg hh] at hc
      cases hc

/-- The traversal as it is when all launches are complete, with or without level starts. -/
def withStarts (hasStarts : Bool) (trav : Traversal) : Traversal :=
  if hasStarts then trav
  else { trav with levelStartSource := [], levelStartTarget := [], levelStartSourceParent := [],
                   levelStartTtp := [] }

theorem info_final (hasStarts : Bool) (trav : Traversal) (h : buildTraversal inp = .ok trav)
    (s : ∀ y, Arr.Val y) (hs : ∀ x, (∃ c, inp.launches hasStarts x = some c) → s x = inp.final x) :
    inp.info hasStarts s = withStarts hasStarts trav := by
  have h0 : s .roles = inp.rolesOf := hs .roles ⟨_, rfl⟩
  have h1 : s .slnws = inp.slnwsOf := hs .slnws ⟨_, rfl⟩
  have h2 := hs .list1 ⟨_, rfl⟩
  have h3 := hs .list2 ⟨_, rfl⟩
  have h4 : s .list4 = inp.list4Of := hs .list4 ⟨_, rfl⟩
  have hl : ∀ l ∈ List.range inp.tree.nlevels, s (.list3 l) = inp.final (.list3 l) := by
    intro l hl
    exact hs (.list3 l) ⟨_, if_pos (List.mem_range.1 hl)⟩
  unfold buildTraversal at h
  cases hc : inp.check with
  | error e => rw [hc] at h; cases h
  | ok u =>
    rw [hc] at h
    have h' := Except.ok.inj h
    subst h'
    have e3 : (List.range inp.tree.nlevels).map (fun l => (s (.list3 l) : BuiltList × List Nat).1) =
        (List.range inp.tree.nlevels).map (fun l => (inp.final (.list3 l) : BuiltList × List Nat).1) :=
      List.map_congr_left fun l hl' => by rw [hl l hl']
    have e3' : (List.range inp.tree.nlevels).map (fun l => (s (.list3 l) : BuiltList × List Nat).2) =
        (List.range inp.tree.nlevels).map (fun l => (inp.final (.list3 l) : BuiltList × List Nat).2) :=
      List.map_congr_left fun l hl' => by rw [hl l hl']
    have e4 : inp.list4Of = (buildLists (inp.rolesOf.ttp.map fun b =>
          sepPart (list4Kernel inp.tree inp.params inp.slnwsOf.row b)),
        buildLists (inp.rolesOf.ttp.map fun b =>
          closePart (list4Kernel inp.tree inp.params inp.slnwsOf.row b))) := by
      unfold list4Of
      rw [List.map_map, List.map_map]; rfl
    have hst : hasStarts = true → ∀ k, s (.starts k) = inp.final (.starts k) := by
      intro hh k
      exact hs (.starts k) ⟨_, if_pos hh⟩
    have hcl : inp.targetsHaveExtent = true → s .close3 = inp.final .close3 ∧
        s .close4 = inp.final .close4 := by
      intro hh
      exact ⟨hs .close3 ⟨_, if_pos hh⟩, hs .close4 ⟨_, if_pos hh⟩⟩
    unfold info
    rw [e3, e3', h0, h1, h2, h3, h4, e4]
    cases he : inp.targetsHaveExtent with
    | false =>
      cases hh : hasStarts with
      | false => simp only [withStarts, if_false, Bool.false_eq_true]; rfl
      | true =>
        rw [hst hh, hst hh, hst hh, hst hh]
        simp only [withStarts, if_true, if_false, Bool.false_eq_true]; rfl
    | true =>
      obtain ⟨c3, c4⟩ := hcl he
      rw [c3, c4]
      have e5 : inp.final .close4 = (listMerger [inp.list4Of.2] .targetOrTargetParentBoxes .targetBoxes
        inp.rolesOf.targets inp.rolesOf.ttp inp.tree.nboxes).toOption := rfl
      rw [e5, e4]
      cases hh : hasStarts with
      | false => simp only [withStarts, if_true, if_false, Bool.false_eq_true]; rfl
      | true =>
        rw [hst hh, hst hh, hst hh, hst hh]
        simp only [withStarts, if_true]; rfl

theorem closed_waits {hasStarts : Bool} {D : Arr → Prop} (hD : Closed (inp.launches hasStarts) D)
    {x : Arr} (hx : D x) {c : Launch Arr Arr.Val x} (hc : inp.launches hasStarts x = some c) :
    ∀ w ∈ c.waits, D w := by
  obtain ⟨c', h1, h2⟩ := hD x hx
  rw [hc] at h1
  cases h1
  exact h2

/-- What comes before the launches. -/
theorem closed_chain (hn : 0 < inp.tree.nlevels) (hasStarts : Bool) {D : Arr → Prop}
    (hD : Closed (inp.launches hasStarts) D) :
    (D .slnws → hasStarts = true → D .roles ∧ ∀ k, D (.starts k)) ∧
    (D .list1 → D .slnws) ∧ (D .list2 → D .list1) ∧
    (∀ l, l < inp.tree.nlevels → D (.list3 l) → D .list2) ∧
    (D .list4 → D .list2 ∧ ∀ l, l < inp.tree.nlevels → D (.list3 l)) ∧
    (D .list4 → inp.targetsHaveExtent = true → D .close3) ∧
    (D .close4 → inp.targetsHaveExtent = true → D .list4) := by
  have hst : hasStarts = true → ∀ k, D (.starts k) → D .roles := fun hh k hk =>
    inp.closed_waits hD hk (show inp.launches hasStarts (.starts k) = _ from if_pos hh) .roles (by simp)
  have hsl : hasStarts = true → D .slnws → ∀ k, D (.starts k) := by
    intro hh h k
    have := inp.closed_waits hD h (show inp.launches hasStarts .slnws = _ from rfl) (.starts k)
    apply this
    rw [if_pos hh]
    match k with
    | 0 => simp
    | 1 => simp
    | 2 => simp
    | 3 => simp
  have h3 : ∀ l, l < inp.tree.nlevels → D (.list3 l) → D .list2 := fun l hl h =>
    inp.closed_waits hD h (show inp.launches hasStarts (.list3 l) = _ from if_pos hl) .list2 (by simp)
  have h4 : D .list4 → ∀ l, l < inp.tree.nlevels → D (.list3 l) := by
    intro h l hl
    apply inp.closed_waits hD h (show inp.launches hasStarts .list4 = _ from rfl) (.list3 l)
    simp only [List.mem_append, List.mem_map, List.mem_range]
    exact Or.inl ⟨l, hl, rfl⟩
  refine ⟨fun h hh => ⟨hst hh 0 (hsl hh h 0), hsl hh h⟩, ?_, ?_, h3,
    fun h => ⟨h3 0 hn (h4 h 0 hn), h4 h⟩, ?_, ?_⟩
  · intro h
    exact inp.closed_waits hD h (show inp.launches hasStarts .list1 = _ from rfl) .slnws (by simp)
  · intro h
    exact inp.closed_waits hD h (show inp.launches hasStarts .list2 = _ from rfl) .list1 (by simp)
  · intro h he
    apply inp.closed_waits hD h (show inp.launches hasStarts .list4 = _ from rfl) .close3
    rw [if_pos he]; simp
  · intro h he
    exact inp.closed_waits hD h (show inp.launches hasStarts .close4 = _ from if_pos he) .list4 (by simp)

/-- With level starts, or once the role lists are there, a launch waits for everything it reads. -/
theorem reads_waited (hn : 0 < inp.tree.nlevels) (hasStarts : Bool) (D : Arr → Prop)
    (hD : Closed (inp.launches hasStarts) D) (hA : hasStarts = true ∨ D .roles)
    (x : Arr) (c : Launch Arr Arr.Val x)
    (hc : inp.launches hasStarts x = some c) (hw : ∀ w ∈ c.waits, D w) : ∀ y ∈ readsOf x, D y := by
  obtain ⟨hsl, h1, h2, h3, h4, _, _⟩ := inp.closed_chain hn hasStarts hD
  have hro : D .slnws → D .roles := fun h => hA.elim (fun hh => (hsl h hh).1) id
  have both : D .list1 → D .roles ∧ D .slnws := fun h => ⟨hro (h1 h), h1 h⟩
  cases x with
  | roles => simp [readsOf]
  | starts k =>
    by_cases hh : hasStarts = true
    · rw [show inp.launches hasStarts (.starts k) = _ from if_pos hh] at hc
      cases hc
      simpa [readsOf] using hw
    · rw [show inp.launches hasStarts (.starts k) = _ from if_neg hh] at hc
      cases hc
  | slnws => simp [readsOf]
  | list1 =>
    cases hc
    have : D .slnws := hw .slnws (by simp)
    simpa [readsOf] using hro this
  | list2 =>
    cases hc
    have : D .list1 := hw .list1 (by simp)
    simpa [readsOf] using both this
  | list3 l =>
    by_cases hl : l < inp.tree.nlevels
    · rw [show inp.launches hasStarts (.list3 l) = _ from if_pos hl] at hc
      cases hc
      have : D .list2 := hw .list2 (by simp)
      simpa [readsOf] using both (h2 this)
    · rw [show inp.launches hasStarts (.list3 l) = _ from if_neg hl] at hc
      cases hc
  | close3 =>
    by_cases hl : inp.targetsHaveExtent = true
    · rw [show inp.launches hasStarts .close3 = _ from if_pos hl] at hc
      cases hc
      have : D .list2 := hw .list2 (by simp)
      simpa [readsOf] using both (h2 this)
    · rw [show inp.launches hasStarts .close3 = _ from if_neg hl] at hc
      cases hc
  | list4 =>
    cases hc
    have : D (.list3 0) := hw (.list3 0) (by
      simp only [List.mem_append, List.mem_map, List.mem_range]
      exact Or.inl ⟨0, hn, rfl⟩)
    simpa [readsOf] using both (h2 (h3 0 hn this))
  | close4 =>
    by_cases hl : inp.targetsHaveExtent = true
    · rw [show inp.launches hasStarts .close4 = _ from if_pos hl] at hc
      cases hc
      have h : D .list4 := hw .list4 (by simp)
      simpa [readsOf] using ⟨(both (h2 (h4 h).1)).1, h⟩
    · rw [show inp.launches hasStarts .close4 = _ from if_neg hl] at hc
      cases hc

/-- With level starts, or once the role lists are there, the returned event is after all launches. -/
theorem returned_covers (hn : 0 < inp.tree.nlevels) (hasStarts : Bool) (D : Arr → Prop)
    (hD : Closed (inp.launches hasStarts) D) (hA : hasStarts = true ∨ D .roles)
    (hr : D inp.returnedEvent) (x : Arr)
    (hx : ∃ c, inp.launches hasStarts x = some c) : D x := by
  obtain ⟨hsl, h1, h2, h3, h4, h5, h6⟩ := inp.closed_chain hn hasStarts hD
  have hro : D .slnws → D .roles := fun h => hA.elim (fun hh => (hsl h hh).1) id
  have hl4 : D .list4 := by
    unfold returnedEvent at hr
    split at hr
    · exact h6 hr (by assumption)
    · exact hr
  have hl2 := (h4 hl4).1
  have hl1 := h2 hl2
  have hs := h1 hl1
  obtain ⟨c, hc⟩ := hx
  cases x with
  | roles => exact hro hs
  | starts k =>
    by_cases hh : hasStarts = true
    · exact (hsl hs hh).2 k
    · rw [show inp.launches hasStarts (.starts k) = _ from if_neg hh] at hc
      cases hc
  | slnws => exact hs
  | list1 => exact hl1
  | list2 => exact hl2
  | list3 l =>
    by_cases hl : l < inp.tree.nlevels
    · exact (h4 hl4).2 l hl
    · rw [show inp.launches hasStarts (.list3 l) = _ from if_neg hl] at hc
      cases hc
  | close3 =>
    by_cases hl : inp.targetsHaveExtent = true
    · exact h5 hl4 hl
    · rw [show inp.launches hasStarts .close3 = _ from if_neg hl] at hc
      cases hc
  | list4 => exact hl4
  | close4 =>
    by_cases hl : inp.targetsHaveExtent = true
    · unfold returnedEvent at hr
      rw [if_pos hl] at hr; exact hr
    · rw [show inp.launches hasStarts .close4 = _ from if_neg hl] at hc
      cases hc

/-- Orders that give the right arrays. -/
theorem run_ok (hn : 0 < inp.tree.nlevels) (hasStarts : Bool) (trav : Traversal)
    (h : buildTraversal inp = .ok trav) (s₀ : ∀ a, Arr.Val a) (order : List Arr)
    (ha : Allowed (inp.launches hasStarts) [] order)
    (hA : hasStarts = true ∨ ∃ rest, order = .roles :: rest) (hr : inp.returnedEvent ∈ order) :
    (∀ a, (∃ c, inp.launches hasStarts a = some c) → a ∈ order) ∧
      inp.info hasStarts (exec (inp.launches hasStarts) order s₀) = withStarts hasStarts trav := by
  have hF := inp.launch_value hasStarts
  rcases hA with hA | ⟨rest, rfl⟩
  · obtain ⟨r1, r2, r3⟩ := allowed_spec (inp.launches hasStarts) readsOf []
      (fun D hD _ => inp.reads_waited hn hasStarts D hD (Or.inl hA)) order [] (by intro x hx; simp at hx)
      (by simp) ha
    have hc := inp.returned_covers hn hasStarts _ r3 (Or.inl hA) (Or.inr hr)
    refine ⟨fun a hx => by simpa using hc a hx, inp.info_final hasStarts trav h _ fun x hx => ?_⟩
    exact exec_values _ readsOf inp.final hF order [] s₀ r1 r2 (by simp) x (hc x hx)
  · obtain ⟨_, _, ha'⟩ := ha
    have hcl : Closed (inp.launches hasStarts) (· ∈ [Arr.roles]) := by
      intro x hx
      rw [List.mem_singleton.1 hx]
      exact ⟨_, rfl, by simp⟩
    obtain ⟨r1, r2, r3⟩ := allowed_spec (inp.launches hasStarts) readsOf [.roles]
      (fun D hD hr => inp.reads_waited hn hasStarts D hD (Or.inr (hr _ (by simp)))) rest [.roles] hcl
      (by simp) ha'
    have hr' : inp.returnedEvent ∈ [Arr.roles] ∨ inp.returnedEvent ∈ rest := by
      rcases List.mem_cons.1 hr with h | h
      · left; simp [h]
      · exact Or.inr h
    have hc := inp.returned_covers hn hasStarts _ r3 (Or.inr (Or.inl (by simp))) hr'
    refine ⟨fun a hx => by simpa using hc a hx, inp.info_final hasStarts trav h _ fun x hx => ?_⟩
    have hm : x ∈ ([] : List Arr) ∨ x ∈ Arr.roles :: rest := by simpa using hc x hx
    refine exec_values _ readsOf inp.final hF (.roles :: rest) [] s₀ ⟨by simp [readsOf], r1⟩ ?_ (by simp) x hm
    intro y hy
    rcases List.mem_cons.1 hy with rfl | hy
    · exact ⟨_, rfl⟩
    · exact r2 y hy

omit inp in
theorem allowed_append {L : Type} {V : L → Type} (cmds : ∀ x, Option (Launch L V x)) :
    ∀ (xs done ys : List L), Allowed cmds done xs → Allowed cmds (xs.reverse ++ done) ys →
      Allowed cmds done (xs ++ ys) := by
  intro xs
  induction xs with
  | nil => intro done ys _ h; simpa using h
  | cons a xs ih =>
    intro done ys h1 h2
    refine ⟨h1.1, h1.2.1, ih (a :: done) ys h1.2.2 ?_⟩
    simpa using h2

theorem allowed_list3 (hasStarts : Bool) : ∀ (ls : List Nat) (done : List Arr), ls.Nodup →
    (∀ l ∈ ls, l < inp.tree.nlevels ∧ Arr.list3 l ∉ done) → .list2 ∈ done →
      Allowed (inp.launches hasStarts) done (ls.map .list3) := by
  intro ls
  induction ls with
  | nil => intros; trivial
  | cons l ls ih =>
    intro done hnd hl h2
    refine ⟨⟨_, if_pos (hl l (by simp)).1, ?_⟩, (hl l (by simp)).2, ?_⟩
    · simpa using h2
    · apply ih _ (List.nodup_cons.1 hnd).2
      · intro k hk
        refine ⟨(hl k (by simp [hk])).1, ?_⟩
        intro hm
        rcases List.mem_cons.1 hm with h | h
        · cases h
          exact (List.nodup_cons.1 hnd).1 hk
        · exact (hl k (by simp [hk])).2 h
      · simp [h2]

/-- The launches from the colleagues on, in the order in which they are enqueued. -/
def listOrder : List Arr :=
  [.slnws, .list1, .list2] ++ (List.range inp.tree.nlevels).map .list3 ++
    (if inp.targetsHaveExtent then [.close3] else []) ++
    .list4 :: (if inp.targetsHaveExtent then [.close4] else [])

theorem allowed_listOrder (hasStarts : Bool) (done : List Arr)
    (hd : ∀ x ∈ done, x = .roles ∨ ∃ k, x = .starts k)
    (hs : hasStarts = true → ∀ k, Arr.starts k ∈ done) :
    Allowed (inp.launches hasStarts) done inp.listOrder := by
  have hnot : ∀ x, x ≠ Arr.roles → (∀ k, x ≠ .starts k) → x ∉ done := by
    intro x h1 h2 h3
    rcases hd x h3 with h | ⟨k, h⟩
    · exact h1 h
    · exact h2 k h
  have n1 : Arr.slnws ∉ done := hnot _ (by simp) (by simp)
  have n2 : Arr.list1 ∉ done := hnot _ (by simp) (by simp)
  have n3 : Arr.list2 ∉ done := hnot _ (by simp) (by simp)
  have n4 : ∀ l, Arr.list3 l ∉ done := fun l => hnot _ (by simp) (by simp)
  have n5 : Arr.close3 ∉ done := hnot _ (by simp) (by simp)
  have n6 : Arr.list4 ∉ done := hnot _ (by simp) (by simp)
  have n7 : Arr.close4 ∉ done := hnot _ (by simp) (by simp)
  unfold listOrder
  apply allowed_append
  · apply allowed_append
    · apply allowed_append
      · refine ⟨⟨_, rfl, ?_⟩, n1, ⟨_, rfl, by simp⟩, by simp [n2], ⟨_, rfl, by simp⟩, by simp [n3], trivial⟩
        by_cases hh : hasStarts = true
        · simp [hh, hs hh]
        · simp [hh]
      · apply allowed_list3
        · exact List.nodup_range
        · intro l hl
          exact ⟨List.mem_range.1 hl, by simp [n4]⟩
        · simp
    · by_cases he : inp.targetsHaveExtent = true
      · rw [if_pos he]
        exact ⟨⟨_, if_pos he, by simp⟩, by simp [n5], trivial⟩
      · rw [if_neg he]; trivial
  · refine ⟨⟨_, rfl, ?_⟩, ?_, ?_⟩
    · by_cases he : inp.targetsHaveExtent = true
      · simp [he]
        rintro w (h | h)
        · exact Or.inr (Or.inl h)
        · exact Or.inl h
      · simp [he]; tauto
    · by_cases he : inp.targetsHaveExtent = true
      · simp [he, n6]
      · simp [he, n6]
    · by_cases he : inp.targetsHaveExtent = true
      · simp only [if_pos he]
        exact ⟨⟨_, if_pos he, by simp⟩, by simp [n7], trivial⟩
      · simp only [if_neg he]; trivial

theorem programOrder_eq (hasStarts : Bool) : inp.programOrder hasStarts =
    (.roles :: if hasStarts then [.starts 0, .starts 1, .starts 2, .starts 3] else []) ++ inp.listOrder := by
  unfold programOrder listOrder
  simp

theorem returnedEvent_mem : inp.returnedEvent ∈ inp.listOrder := by
  unfold returnedEvent listOrder
  by_cases he : inp.targetsHaveExtent = true
  · simp [he]
  · simp [he]

theorem allowed_programOrder (hasStarts : Bool) :
    Allowed (inp.launches hasStarts) [] (inp.programOrder hasStarts) := by
  rw [programOrder_eq]
  apply allowed_append
  · refine ⟨⟨_, rfl, by simp⟩, by simp, ?_⟩
    cases hasStarts with
    | false => trivial
    | true =>
      exact ⟨⟨_, rfl, by simp⟩, by simp, ⟨_, rfl, by simp⟩, by simp, ⟨_, rfl, by simp⟩, by simp,
        ⟨_, rfl, by simp⟩, by simp, trivial⟩
  · apply allowed_listOrder
    · cases hasStarts with
      | false => simp
      | true => simp
    · intro hh k
      subst hh
      match k with
      | 0 => simp
      | 1 => simp
      | 2 => simp
      | 3 => simp

end TravInput
end Boxtree
