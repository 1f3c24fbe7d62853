import Verif.Model.GetBoxList
import Verif.Lemmas.Csr
import Verif.Lemmas.Traversal
import Verif.Examples

/-!
# C91: looking up the list of a box
-/

namespace Boxtree

theorem pySlice_nat {α : Type} (a : List α) (i j : Nat) :
    pySlice a i j = (a.drop i).take (j - i) := by
  unfold pySlice
  simp only [Int.not_lt.2 (Int.natCast_nonneg i), Int.not_lt.2 (Int.natCast_nonneg j), if_false]
  have h : ∀ k : Nat, (min (max (k : ℤ) 0) (a.length : ℤ)).toNat = min k a.length := fun k => by omega
  rw [h, h]
  apply List.ext_getElem?
  intro k
  rw [List.getElem?_drop, List.getElem?_take, List.getElem?_take, List.getElem?_drop]
  by_cases h1 : min i a.length + k < min j a.length
  · rw [if_pos h1, if_pos (by omega), Nat.min_eq_left (by omega)]
  · rw [if_neg h1]
    by_cases h2 : k < j - i
    · rw [if_pos h2, List.getElem?_eq_none (by omega)]
    · rw [if_neg h2]

theorem slice_two {α : Type} (a : List α) (d : α) {i : Nat} (h : i + 1 < a.length) :
    (a.take (i + 2)).drop i = [a.getD i d, a.getD (i + 1) d] := by
  apply List.ext_getElem
  · simp; omega
  · intro k h1 h2
    simp at h2
    have : k = 0 ∨ k = 1 := by omega
    rcases this with rfl | rfl
    · simp [List.getElem?_eq_getElem (show i < a.length by omega)]
    · simp [List.getElem?_eq_getElem h]

/-- The two bounds that `get_box_list` reads: where, counted from the front, or that there are not two. -/
theorem pySlice_two (a : List Nat) (n : Nat) (hn : a.length = n + 1) (index : ℤ) :
    (∀ i : Nat, i < n → (index = i ∨ (index = (i : ℤ) - (n + 1) ∧ index + 2 < 0)) →
      pySlice a index (index + 2) = [a.getD i 0, a.getD (i + 1) 0]) ∧
    ((n ≤ index ∨ index = -1 ∨ index = -2 ∨ index < -(n + 1 : ℤ)) →
      (pySlice a index (index + 2)).length < 2) := by
  constructor
  · intro i hi h
    rw [← slice_two a 0 (by omega)]
    unfold pySlice
    simp only [hn]
    rcases h with rfl | ⟨rfl, h⟩
    · rw [if_neg (by omega), if_neg (by omega)]
      congr 1
      · omega
      · congr 1; omega
    · rw [if_pos (by omega), if_pos (by omega)]
      congr 1
      · omega
      · congr 1; omega
  · intro h
    unfold pySlice
    simp only [hn, List.length_drop, List.length_take]
    rcases h with h | rfl | rfl | h
    · rw [if_neg (by omega), if_neg (by omega)]; omega
    · norm_num; omega
    · norm_num
    · split <;> split <;> omega

/-- **C91.** `get_box_list(what, i)` is the `i`-th list for an index that counts boxes from the front, and an
exception if there is no `i`-th box; an unknown name and a list that is `None` are exceptions. -/
theorem C91_get_box_list (trav : Traversal) (what : String) :
    (∀ bl n, trav.listNamed what = some (some bl) → bl.starts.length = n + 1 →
      (∀ i : Nat, i < n → trav.getBoxList what i = .ok (bl.row i)) ∧
      (∀ i : Nat, n ≤ i → trav.getBoxList what i = .error .unpack)) ∧
    (trav.listNamed what = some none → ∀ i, trav.getBoxList what i = .error .type) ∧
    (trav.listNamed what = none → ∀ i, trav.getBoxList what i = .error .attribute) := by
  refine ⟨fun bl n h hn => ⟨fun i hi => ?_, fun i hi => ?_⟩, fun h i => ?_, fun h i => ?_⟩
  · unfold Traversal.getBoxList
    simp only [h, (pySlice_two bl.starts n hn i).1 i hi (.inl rfl), pySlice_nat]
    rfl
  · unfold Traversal.getBoxList
    simp only [h]
    have := (pySlice_two bl.starts n hn i).2 (.inl (by omega))
    split
    · rename_i e; rw [e] at this; simp at this
    · rfl
  · unfold Traversal.getBoxList; simp only [h]
  · unfold Traversal.getBoxList; simp only [h]

/-- **C91** (which lists): after a traversal has been built, the lists that can be looked up are these; there
is one per box, per target box, or per target or target parent box. -/
theorem C91_lists (inp : TravInput) (trav : Traversal) (h : buildTraversal inp = .ok trav) :
    (∃ bl, trav.listNamed "same_level_non_well_sep_boxes" = some (some bl) ∧
      bl = trav.slnws ∧ bl.starts.length = inp.tree.nboxes + 1) ∧
    (∃ bl, trav.listNamed "neighbor_source_boxes" = some (some bl) ∧
      bl = trav.list1 ∧ bl.starts.length = trav.targetBoxes.length + 1) ∧
    (∃ bl, trav.listNamed "from_sep_siblings" = some (some bl) ∧
      bl = trav.list2 ∧ bl.starts.length = trav.ttpBoxes.length + 1) ∧
    (∃ bl, trav.listNamed "from_sep_bigger" = some (some bl) ∧
      bl = trav.list4 ∧ bl.starts.length = trav.ttpBoxes.length + 1) ∧
    (inp.targetsHaveExtent = true →
      (∃ bl, trav.listNamed "from_sep_close_smaller" = some (some bl) ∧
        trav.list3Close = some bl ∧ bl.starts.length = trav.targetBoxes.length + 1) ∧
      (∃ bl, trav.listNamed "from_sep_close_bigger" = some (some bl) ∧
        trav.list4Close = some bl ∧ bl.starts.length = trav.targetBoxes.length + 1)) ∧
    (inp.targetsHaveExtent = false →
      trav.listNamed "from_sep_close_smaller" = some none ∧
      trav.listNamed "from_sep_close_bigger" = some none) ∧
    trav.listNamed "from_sep_smaller" = none := by
  have F := travFields h
  have hlen : ∀ rows : List (List Nat), (buildLists rows).starts.length = rows.length + 1 := by
    intro rows; simp [buildLists, length_prefixSums]
  refine ⟨⟨_, rfl, rfl, by rw [F.slnws, hlen]; simp⟩, ⟨_, rfl, rfl, by rw [F.list1, hlen]; simp⟩,
    ⟨_, rfl, rfl, by rw [F.list2, hlen]; simp⟩, ⟨_, rfl, rfl, by rw [F.list4, hlen]; simp⟩,
    fun he => ⟨?_, ?_⟩, fun he => ⟨?_, ?_⟩, rfl⟩
  · have e := F.list3Close
    rw [he, if_pos rfl] at e
    exact ⟨_, by change some trav.list3Close = _; rw [e], e, by rw [hlen]; simp⟩
  · have e := F.list4Close
    rw [he, if_pos rfl] at e
    refine ⟨_, by change some trav.list4Close = _; rw [e]; rfl, e, ?_⟩
    simp [mergeListsWith, length_prefixSums]
  · change some trav.list3Close = _
    rw [F.list3Close, he]; rfl
  · change some trav.list4Close = _
    rw [F.list4Close, he]; rfl

/-- **C91** (negative indices): with `n` lists, index `-m` for `m = 3, …, n + 1` gives the list `n + 1 - m`,
the one after that which `-m` means in Python; `-1`, `-2` and what is below are exceptions. -/
theorem C91_negative (trav : Traversal) (what : String) (bl : BuiltList) (n : Nat)
    (h : trav.listNamed what = some (some bl)) (hn : bl.starts.length = n + 1) :
    (∀ m : Nat, 3 ≤ m → m ≤ n + 1 → trav.getBoxList what (-(m : ℤ)) = .ok (bl.row (n + 1 - m))) ∧
    (∀ m : Nat, m = 1 ∨ m = 2 ∨ n + 1 < m → trav.getBoxList what (-(m : ℤ)) = .error .unpack) := by
  constructor
  · intro m h1 h2
    unfold Traversal.getBoxList
    simp only [h, (pySlice_two bl.starts n hn (-(m : ℤ))).1 (n + 1 - m) (by omega)
      (.inr ⟨by omega, by omega⟩), pySlice_nat]
    rfl
  · intro m hm
    unfold Traversal.getBoxList
    simp only [h]
    have := (pySlice_two bl.starts n hn (-(m : ℤ))).2 (by omega)
    split
    · rename_i e; rw [e] at this; simp at this
    · rfl

/-- A traversal: lists of target boxes; the third from the end is not what `-3` gives. -/
example : ∃ trav, buildTraversal Ex.exInput = .ok trav ∧
    trav.list1.starts.length = 6 ∧ trav.targetBoxes.length = 5 ∧
    trav.getBoxList "neighbor_source_boxes" 2 = .ok (trav.list1.row 2) ∧
    trav.getBoxList "neighbor_source_boxes" (-3) = .ok (trav.list1.row 3) ∧
    trav.list1.row 2 ≠ trav.list1.row 3 ∧ trav.list1.row 2 ≠ [] ∧
    trav.getBoxList "neighbor_source_boxes" 5 = .error .unpack :=
  ⟨_, rfl, by decide +kernel, by decide +kernel, by decide +kernel, by decide +kernel, by decide +kernel,
    by decide +kernel, by decide +kernel⟩

end Boxtree
