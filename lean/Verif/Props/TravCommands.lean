import Verif.Lemmas.TravCommands
import Verif.Examples

/-!
# C95: the wait lists of the traversal builder

`exec (inp.launches b) order s₀` is the memory after the launches of the builder ran in the order `order`,
starting from any contents `s₀` of the memory; `Allowed (inp.launches b) [] order` says that each launch ran at
most once and after those whose events it waits for; `inp.returnedEvent ∈ order` that the event returned to the
caller is complete.  `buildTraversal inp` is the model of the builder as a function, about which the other
properties speak.
-/

namespace Boxtree
open Queue TravInput

/-- With level starts (trees of the tree builder), the wait lists suffice: whatever order the device chooses,
when the returned event is complete all launches are, and the arrays are those of the traversal. -/
theorem C95_any_order_partial (inp : TravInput) (hn : 0 < inp.tree.nlevels) (trav : Traversal)
    (h : buildTraversal inp = .ok trav) (s₀ : ∀ a, Arr.Val a) (order : List Arr)
    (ha : Allowed (inp.launches true) [] order) (hr : inp.returnedEvent ∈ order) :
    (∀ a, (∃ c, inp.launches true a = some c) → a ∈ order) ∧
      inp.info true (exec (inp.launches true) order s₀) = trav := by
  have := inp.run_ok hn true trav h s₀ order ha (Or.inl rfl) hr
  simpa only [withStarts, if_true] using this

/-- Without level starts (trees of boxes) this holds of the orders in which the launch that finds the role
lists runs first.  There are then no level starts in the traversal. -/
theorem C95_roles_first_partial (inp : TravInput) (hn : 0 < inp.tree.nlevels) (trav : Traversal)
    (h : buildTraversal inp = .ok trav) (s₀ : ∀ a, Arr.Val a) (rest : List Arr)
    (ha : Allowed (inp.launches false) [] (.roles :: rest)) (hr : inp.returnedEvent ∈ rest) :
    (∀ a, (∃ c, inp.launches false a = some c) → a ∈ .roles :: rest) ∧
      inp.info false (exec (inp.launches false) (.roles :: rest) s₀) =
        { trav with levelStartSource := [], levelStartTarget := [], levelStartSourceParent := [],
                    levelStartTtp := [] } := by
  have := inp.run_ok hn false trav h s₀ (.roles :: rest) ha (Or.inr ⟨rest, rfl⟩) (by simp [hr])
  simpa only [withStarts, Bool.false_eq_true, if_false] using this

/-- In particular a queue that runs the launches in the order in which they are enqueued, and waits for all of
them, gives the traversal. -/
theorem C95_in_order (inp : TravInput) (hn : 0 < inp.tree.nlevels) (trav : Traversal)
    (h : buildTraversal inp = .ok trav) (s₀ : ∀ a, Arr.Val a) (hasStarts : Bool) :
    Allowed (inp.launches hasStarts) [] (inp.programOrder hasStarts) ∧
      inp.returnedEvent ∈ inp.programOrder hasStarts ∧
      inp.info hasStarts (exec (inp.launches hasStarts) (inp.programOrder hasStarts) s₀) =
        if hasStarts then trav
        else { trav with levelStartSource := [], levelStartTarget := [], levelStartSourceParent := [],
                         levelStartTtp := [] } := by
  have hm : inp.returnedEvent ∈ inp.programOrder hasStarts := by
    rw [programOrder_eq]
    exact List.mem_append_right _ inp.returnedEvent_mem
  refine ⟨inp.allowed_programOrder hasStarts, hm, ?_⟩
  exact (inp.run_ok hn hasStarts trav h s₀ _ (inp.allowed_programOrder hasStarts)
    (Or.inr ⟨_, rfl⟩) hm).2

/-- Without level starts the wait lists do not suffice: the launches after the role lists do not wait for them.
The returned event may be complete when the role lists are not there yet, and even when all launches are complete
list 1 may be that of whatever was in memory before. -/
theorem C95_without_level_starts (inp : TravInput) (trav : Traversal)
    (h : buildTraversal inp = .ok trav) (ht : trav.targetBoxes ≠ []) :
    (∃ order, Allowed (inp.launches false) [] order ∧ inp.returnedEvent ∈ order ∧ .roles ∉ order) ∧
    ∃ (s₀ : ∀ a, Arr.Val a) (order : List Arr), Allowed (inp.launches false) [] order ∧
      (∀ a, (∃ c, inp.launches false a = some c) → a ∈ order) ∧
      (inp.info false (exec (inp.launches false) order s₀)).targetBoxes = trav.targetBoxes ∧
      (inp.info false (exec (inp.launches false) order s₀)).list1 ≠ trav.list1 := by
  have hlo : Allowed (inp.launches false) [] inp.listOrder :=
    inp.allowed_listOrder false [] (by simp) (by simp)
  have hnr : Arr.roles ∉ inp.listOrder := by
    unfold listOrder
    by_cases he : inp.targetsHaveExtent = true
    · simp [he]
    · simp [he]
  refine ⟨⟨inp.listOrder, hlo, inp.returnedEvent_mem, hnr⟩, ?_⟩
  let s₀ : ∀ a, Arr.Val a := fun a => match a with
    | .roles => (⟨[], [], [], []⟩ : Roles)
    | .starts k => inp.final (.starts k)
    | .slnws => inp.final .slnws
    | .list1 => inp.final .list1
    | .list2 => inp.final .list2
    | .list3 l => inp.final (.list3 l)
    | .close3 => inp.final .close3
    | .list4 => inp.final .list4
    | .close4 => inp.final .close4
  have hall : ∀ a, (∃ c, inp.launches false a = some c) → a ∈ inp.listOrder ++ [.roles] := by
    rintro a ⟨c, hc⟩
    cases a with
    | roles => simp
    | starts k => cases hc
    | slnws => simp [listOrder]
    | list1 => simp [listOrder]
    | list2 => simp [listOrder]
    | list3 l =>
      by_cases hl : l < inp.tree.nlevels
      · simp [listOrder, hl]
      · rw [show inp.launches false (.list3 l) = _ from if_neg hl] at hc
        cases hc
    | close3 =>
      by_cases he : inp.targetsHaveExtent = true
      · simp [listOrder, he]
      · rw [show inp.launches false .close3 = _ from if_neg he] at hc
        cases hc
    | list4 => simp [listOrder]
    | close4 =>
      by_cases he : inp.targetsHaveExtent = true
      · simp [listOrder, he]
      · rw [show inp.launches false .close4 = _ from if_neg he] at hc
        cases hc
  have F := travFields h
  refine ⟨s₀, inp.listOrder ++ [.roles], ?_, hall, ?_, ?_⟩
  · exact allowed_append _ _ _ _ hlo ⟨⟨_, rfl, by simp⟩, by simpa using hnr, trivial⟩
  · rw [exec_append]
    have hro : ∀ m, (exec (inp.launches false) [.roles] m .roles : Roles) = inp.rolesOf :=
      fun m => exec_values (inp.launches false) readsOf inp.final (inp.launch_value false) [.roles] [] m
        ⟨by simp [readsOf], trivial⟩ (fun x hx => by rw [List.mem_singleton.1 hx]; exact ⟨_, rfl⟩) (by simp)
        .roles (by simp)
    rw [F.targetBoxes]
    exact congrArg Roles.targets (hro (exec (inp.launches false) inp.listOrder s₀))
  · intro he
    have e1 : exec (inp.launches false) (inp.listOrder ++ [.roles]) s₀ .list1 =
        buildLists [] := by
      have hsplit : ∃ tail, inp.listOrder ++ [.roles] = .slnws :: .list1 :: tail ∧ .list1 ∉ tail := by
        refine ⟨_, rfl, ?_⟩
        by_cases he : inp.targetsHaveExtent = true
        · simp [he]
        · simp [he]
      obtain ⟨tail, ht1, ht2⟩ := hsplit
      rw [ht1]
      change exec _ tail _ Arr.list1 = _
      rw [exec_of_not_mem _ _ _ _ ht2]
      rfl
    have e2 : (buildLists []).starts.length = trav.list1.starts.length := by
      rw [← e1, ← he]; rfl
    rw [F.list1] at e2
    unfold buildLists at e2
    rw [length_prefixSums, length_prefixSums] at e2
    simp at e2
    exact ht e2

/-- The traversal of the example tree, in the order of the program and in another one. -/
example : ∃ trav, buildTraversal Ex.exInput = .ok trav ∧ 0 < Ex.exInput.tree.nlevels ∧
    trav.targetBoxes ≠ [] ∧
    ∃ order, order ≠ Ex.exInput.programOrder true ∧
      Allowed (Ex.exInput.launches true) [] order ∧ Ex.exInput.returnedEvent ∈ order := by
  refine ⟨_, rfl, by decide, by decide, ?_⟩
  refine ⟨.roles :: .starts 3 :: .starts 1 :: .starts 0 :: .starts 2 :: Ex.exInput.listOrder, by decide, ?_, ?_⟩
  · exact ⟨⟨_, rfl, by simp⟩, by simp, ⟨_, rfl, by simp⟩, by simp, ⟨_, rfl, by simp⟩, by simp,
      ⟨_, rfl, by simp⟩, by simp, ⟨_, rfl, by simp⟩, by simp,
      Ex.exInput.allowed_listOrder true _ (by simp) (by decide)⟩
  · have := Ex.exInput.returnedEvent_mem
    simp only [List.mem_cons, this, or_true]

end Boxtree
