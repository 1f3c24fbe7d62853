import Verif.Model.TobTraversal
import Verif.Lemmas.Csr
import Verif.Lemmas.Traversal

/-!
# Lemmas for the traversal of a tree of boxes
-/

namespace Boxtree
namespace Tob

theorem mapM_some {α β : Type} (f : α → Option β) (g : α → β) (l : List α)
    (h : ∀ x ∈ l, f x = some (g x)) : l.mapM f = some (l.map g) := by
  induction l with
  | nil => rfl
  | cons a l ih =>
    rw [List.mapM_cons, h a (by simp), ih (fun x hx => h x (by simp [hx]))]
    rfl

theorem mapM_none {α β : Type} (f : α → Option β) (l : List α) (x : α) (hx : x ∈ l)
    (h : f x = none) : l.mapM f = none := by
  induction l with
  | nil => simp at hx
  | cons a l ih =>
    rw [List.mapM_cons]
    rcases List.mem_cons.1 hx with rfl | hx
    · rw [h]; rfl
    · rw [ih hx]; cases f a <;> rfl

theorem readBoxes (a : List Nat) (s n : Nat) (h : s + n ≤ a.length) :
    ((List.range n).mapM fun k : Nat => readBox a ((s : ℤ) + (k : ℤ))) = some ((a.drop s).take n) := by
  rw [mapM_some _ (fun k => a.getD (s + k) 0)]
  · congr 1
    apply List.ext_getElem
    · simp; omega
    · intro i h1 h2
      simp at h1
      have := List.getD_eq_getElem a 0 (show s + i < a.length by omega)
      simpa using this
  · intro k hk
    have := List.mem_range.1 hk
    unfold readBox
    rw [if_pos (by omega)]
    congr 2

theorem starts_le (rows : List (List Nat)) (i : Nat) (hi : i < rows.length) :
    (buildLists rows).starts.getD i 0 ≤ (buildLists rows).starts.getD (i + 1) 0 ∧
    (buildLists rows).starts.getD (i + 1) 0 ≤ (buildLists rows).lists.length := by
  unfold buildLists
  simp only
  rw [prefixSums_getD _ _ _ (by simp; omega), prefixSums_getD _ _ _ (by simp; omega)]
  have h1 : ((rows.map List.length).take (i+1)).sum =
      ((rows.map List.length).take i).sum + ((rows.map List.length).getD i 0) := by
    rw [List.take_add_one, List.sum_append]
    simp [List.getElem?_eq_getElem hi]
  have h2 : ((rows.map List.length).take (i+1)).sum ≤ (rows.map List.length).sum := by
    conv_rhs => rw [← List.take_append_drop (i+1) (rows.map List.length), List.sum_append]
    omega
  rw [List.length_flatten]
  omega

theorem length_starts (rows : List (List Nat)) :
    (buildLists rows).starts.length = rows.length + 1 := by
  unfold buildLists
  rw [length_prefixSums, List.length_map]

theorem start_zero (rows : List (List Nat)) : (buildLists rows).starts.getD 0 0 = 0 := by
  unfold buildLists
  rw [prefixSums_getD _ _ _ (by simp)]
  simp

theorem readWord_nat (before : ℤ) (a : List Nat) (i : Nat) (h : i < a.length) :
    readWord before a (i : ℤ) = some (a.getD i 0 : ℤ) := by
  unfold readWord
  rw [if_neg (show ¬ ((i : ℤ) = -1) by omega), if_pos (by omega)]
  rfl

/-- The kernel for list 2 on a box with a parent is the one on the arrays of the tree. -/
theorem list2Raw_child (t : Tob) (p : TravParams) (before : ℤ) (rows : List (List Nat))
    (box par : Nat) (hp : t.parent box = par) (hne : par ≠ box) (hr : par < rows.length) :
    t.list2Raw p before (buildLists rows) box =
      some (list2Kernel t.arrays p (buildLists rows).row box) := by
  have h1 := starts_le rows par hr
  have hl := length_starts rows
  unfold list2Raw list2Kernel
  simp only
  rw [hp]
  rw [if_neg (show ¬ ((par : ℤ) = (box : ℤ)) by omega),
    readWord_nat _ _ _ (by omega),
    show ((par : ℤ) + 1) = ((par + 1 : ℕ) : ℤ) by push_cast; rfl,
    readWord_nat _ _ _ (by omega)]
  simp only [bind, Option.bind, pure]
  have hn : ((((buildLists rows).starts.getD (par + 1) 0 : ℕ) : ℤ) -
      (((buildLists rows).starts.getD par 0 : ℕ) : ℤ)).toNat =
      (buildLists rows).starts.getD (par + 1) 0 - (buildLists rows).starts.getD par 0 := by omega
  rw [hn, readBoxes _ _ _ (by omega)]
  simp only
  have hpa : t.arrays.parent box = par := by
    change (t.parent box).toNat = par
    rw [hp]; rfl
  rw [hpa, if_neg hne]
  rfl

/-- The kernel for list 2 on the root of a tree of boxes reads the word in front of the array. -/
theorem list2Raw_root (t : Tob) (p : TravParams) (before : ℤ) (rows : List (List Nat))
    (hp : t.parent 0 = -1) :
    t.list2Raw p before (buildLists rows) 0 =
      if 0 ≤ before then some (list2Kernel t.arrays p (buildLists rows).row 0) else none := by
  have hl := length_starts rows
  unfold list2Raw list2Kernel
  simp only
  rw [hp]
  rw [if_neg (show ¬ ((-1 : ℤ) = ((0 : ℕ) : ℤ)) by omega)]
  have e1 : readWord before (buildLists rows).starts (-1) = some before := by
    unfold readWord; rw [if_pos rfl]
  have e2 : readWord before (buildLists rows).starts (-1 + 1) = some 0 := by
    rw [show (-1 + 1 : ℤ) = ((0 : ℕ) : ℤ) by norm_num, readWord_nat _ _ _ (by omega), start_zero]
    rfl
  rw [e1, e2]
  simp only [bind, Option.bind, pure]
  have hpa : t.arrays.parent 0 = 0 := by
    change (t.parent 0).toNat = 0
    rw [hp]; rfl
  rw [hpa, if_pos rfl]
  split_ifs with hb
  · rw [show (0 - before).toNat = 0 by omega]
    rfl
  · rw [mapM_none _ _ 0 (by rw [List.mem_range]; omega)]
    unfold readBox
    rw [if_neg (by omega)]

end Tob
end Boxtree
