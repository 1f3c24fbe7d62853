import Verif.Model.Traversal

/-!
# `FMMTraversalInfo.get_box_list`
-/

namespace Boxtree

/-- `a[i:j]` of Python and numpy: negative bounds count from the end, bounds beyond the ends are moved to
them.  Used at `/repo/boxtree/traversal.py:1702`. -/
def pySlice {α : Type} (a : List α) (i j : ℤ) : List α :=
  let bound := fun k : ℤ => (min (max (if k < 0 then k + a.length else k) 0) a.length).toNat
  (a.take (bound j)).drop (bound i)

/-- The pairs of attributes `<what>_starts`, `<what>_lists` of `FMMTraversalInfo`,
`/repo/boxtree/traversal.py:1609-1630`; `some none` are attributes that are `None`. -/
def Traversal.listNamed (trav : Traversal) (what : String) : Option (Option BuiltList) :=
  if what = "same_level_non_well_sep_boxes" then some (some trav.slnws)
  else if what = "neighbor_source_boxes" then some (some trav.list1)
  else if what = "from_sep_siblings" then some (some trav.list2)
  else if what = "from_sep_close_smaller" then some trav.list3Close
  else if what = "from_sep_bigger" then some (some trav.list4)
  else if what = "from_sep_close_bigger" then some trav.list4Close
  else none

/-- Exceptions of `get_box_list`, `/repo/boxtree/traversal.py:1699-1703`. -/
inductive BoxListError
  | attribute  -- AttributeError
  | type       -- TypeError: None is not subscriptable
  | unpack     -- ValueError: not enough values to unpack
deriving DecidableEq, Repr

/-- `get_box_list`, `/repo/boxtree/traversal.py:1699-1703`, on host arrays. -/
def Traversal.getBoxList (trav : Traversal) (what : String) (index : ℤ) :
    Except BoxListError (List Nat) :=
  match trav.listNamed what with
  | none => .error .attribute
  | some none => .error .type
  | some (some bl) =>
    match pySlice bl.starts index (index + 2) with
    | [start, stop] => .ok (pySlice bl.lists start stop)
    | _ => .error .unpack

end Boxtree
