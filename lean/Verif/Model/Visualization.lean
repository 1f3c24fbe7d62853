import Verif.Model.Traversal
import Mathlib.Data.Rat.Floor

/-!
# Plotting and exporting trees

Model of `/repo/boxtree/visualization.py`.

Simplifications (stated once for the whole file): a patch handed to `matplotlib` is the record of
which box is drawn, in which color, hatched or not, filled or as an outline (line width,
transparency and the random part of the shrink factor are left out); the text returned by
`get_tikz_for_tree` is a list of records, one per box, of the numbers and macro names written for
that box (the lines that do not depend on the tree are left out); coordinates are exact rationals,
but the division in `int_to_roman` is rounded by an arbitrary function `fl`.
-/

namespace Boxtree.Vis

/-- The exceptions raised, `/repo/boxtree/visualization.py:41`, `:68`, `:132`, by unpacking at
`:189` and `:203`, and by indexing at `:249`. -/
inductive VisError
  | valueError | notImplemented | indexError
deriving DecidableEq, Repr

/-- `ints` and `nums`, `/repo/boxtree/visualization.py:44-45`. -/
def numerals : List (Nat × List Char) :=
  [(1000, ['M']), (900, ['C', 'M']), (500, ['D']), (400, ['C', 'D']), (100, ['C']),
   (90, ['X', 'C']), (50, ['L']), (40, ['X', 'L']), (10, ['X']), (9, ['I', 'X']), (5, ['V']),
   (4, ['I', 'V']), (1, ['I'])]

/-- `int` of a floating point number: truncation towards zero,
`/repo/boxtree/visualization.py:48`. -/
def trunc (x : ℚ) : ℤ := if 0 ≤ x then ⌊x⌋ else ⌈x⌉

/-- The loop of `int_to_roman`, `/repo/boxtree/visualization.py:46-51`; `fl` rounds the quotient.
A string repeated a negative number of times is empty. -/
def romanLoop (fl : ℚ → ℚ) : List (Nat × List Char) → ℤ → List Char
  | [], _ => []
  | (v, s) :: rest, n =>
      let count := trunc (fl ((n : ℚ) / (v : ℚ)))
      (List.replicate count.toNat s).flatten ++ romanLoop fl rest (n - v * count)

/-- `int_to_roman`, `/repo/boxtree/visualization.py:31-51`, for an integer argument. -/
def intToRoman (fl : ℚ → ℚ) (n : ℤ) : Except VisError (List Char) :=
  if n = 0 then .ok ['Z']
  else if ¬(0 < n ∧ n < 4000) then .error .valueError
  else .ok (romanLoop fl numerals n)

/-- `get_box_size`, `/repo/boxtree/tree.py:278-280`. -/
def boxSize (t : BoxTree) (b : Nat) : ℚ := t.rootExtent * (1 / 2) ^ t.level b

/-- The lower end of `get_box_extent`, `/repo/boxtree/tree.py:282-286`. -/
def extentLow (t : BoxTree) (b i : Nat) : ℚ := t.center b i - 1 / 2 * boxSize t b

/-- The upper end of `get_box_extent`, `/repo/boxtree/tree.py:282-286`. -/
def extentHigh (t : BoxTree) (b i : Nat) : ℚ := extentLow t b i + boxSize t b

/-- The vertices of the path drawn by `draw_box`, `/repo/boxtree/visualization.py:86-112`. -/
def boxPath (t : BoxTree) (b : Nat) (shrink : ℚ) : List (ℚ × ℚ) :=
  let center := fun i => 1 / 2 * (extentLow t b i + extentHigh t b i)
  let el := fun i => if shrink ≠ 0 then
    extentLow t b i + (center i - extentLow t b i) * shrink else extentLow t b i
  let eh := fun i => if shrink ≠ 0 then
    extentHigh t b i + (center i - extentHigh t b i) * shrink else extentHigh t b i
  [(el 0, el 1), (eh 0, el 1), (eh 0, eh 1), (el 0, eh 1), (el 0, el 1)]

/-- The paths added by `draw_tree`, `/repo/boxtree/visualization.py:66-76`. -/
def drawTree (t : BoxTree) : Except VisError (List (List (ℚ × ℚ))) :=
  if t.dims ≠ 2 then .error .notImplemented
  else .ok ((List.range t.nboxes).map fun b => boxPath t b 0)

/-- What `get_tikz_for_tree` writes for one box, `/repo/boxtree/visualization.py:138-158`: the three
coordinates, the names of the two macros and their values. -/
structure TikzBox where
  low : ℚ × ℚ
  high : ℚ × ℚ
  center : ℚ × ℚ
  sizeMacro : List Char
  size : ℚ
  levelMacro : List Char
  level : Nat
deriving DecidableEq, Repr

/-- One pass of the loop of `get_tikz_for_tree`, `/repo/boxtree/visualization.py:137-158`. -/
def tikzBox (fl : ℚ → ℚ) (t : BoxTree) (b : Nat) : Except VisError TikzBox := do
  let sizeName ← intToRoman fl b
  let levelName ← intToRoman fl b
  return {
    low := (extentLow t b 0, extentLow t b 1)
    high := (extentHigh t b 0, extentHigh t b 1)
    center := (t.center b 0, t.center b 1)
    sizeMacro := "boxsize".toList ++ sizeName
    size := extentHigh t b 0 - extentLow t b 0
    levelMacro := "boxlevel".toList ++ levelName
    level := t.level b }

/-- `get_tikz_for_tree`, `/repo/boxtree/visualization.py:130-171`. -/
def getTikz (fl : ℚ → ℚ) (t : BoxTree) : Except VisError (List TikzBox) :=
  if t.dims ≠ 2 then .error .notImplemented
  else (List.range t.nboxes).mapM (tikzBox fl t)

/-- The colors of the patches, `/repo/boxtree/visualization.py:183`, `:219-226`, `:230-274`. -/
inductive Color
  | red | green | blue | orange | purple
deriving DecidableEq, Repr

/-- A patch added by `draw_box`, `/repo/boxtree/visualization.py:86-116`: the box, the color of its
face (or, for an outline, of its edge), whether it is hatched, and whether it is filled. -/
structure Mark where
  box : Nat
  color : Color
  hatch : Bool
  filled : Bool
deriving DecidableEq, Repr

/-- The second half of `_draw_box_list`, `/repo/boxtree/visualization.py:203-215`; unpacking the
slice `starts[key:key+2]` fails unless it has two entries. -/
def drawRow (bl : BuiltList) (key : Nat) (c : Color) (hatch : Bool) :
    Except VisError (List Mark) :=
  match (bl.starts.drop key).take 2 with
  | [start, stop] =>
      if start = stop then .ok []
      else .ok (((bl.lists.drop start).take (stop - start)).map fun j => ⟨j, c, hatch, true⟩)
  | _ => .error .valueError

/-- `_draw_box_list`, `/repo/boxtree/visualization.py:178-215`.  `getattr(kwargs, "facecolor",
default_facecolor)` reads an attribute of a dictionary and gives the default, `"blue"`. -/
def drawBoxList (b : Nat) (bl : BuiltList) (keys : Option (List Nat)) (c : Color) (hatch : Bool) :
    Except VisError (List Mark) :=
  match keys with
  | none => drawRow bl b c hatch
  | some boxes =>
      match (List.range boxes.length).filter fun i => boxes.getD i 0 = b with
      | [] => .ok [⟨b, .blue, false, false⟩]
      | [key] => drawRow bl key c hatch
      | _ => .error .valueError

/-- `draw_same_level_non_well_sep_boxes`, `/repo/boxtree/visualization.py:218-226`. -/
def drawNeighbours (trav : Traversal) (b : Nat) : Except VisError (List Mark) := do
  let m ← drawBoxList b trav.slnws none .green false
  return ⟨b, .red, false, true⟩ :: m

/-- One pass of the loop over the levels of list 3, `/repo/boxtree/visualization.py:247-252`. -/
def drawList3 (trav : Traversal) (b l : Nat) : Except VisError (List Mark) :=
  match trav.list3[l]?, trav.list3Targets[l]? with
  | some bl, some boxes => drawBoxList b bl (some boxes) .orange false
  | _, _ => .error .indexError

/-- `if traversal.…_starts is not None:`, `/repo/boxtree/visualization.py:255-260`, `:270-274`. -/
def drawClose (b : Nat) (bl : Option BuiltList) (boxes : List Nat) (c : Color) :
    Except VisError (List Mark) :=
  match bl with
  | some bl => drawBoxList b bl (some boxes) c true
  | none => .ok []

/-- `draw_box_lists`, `/repo/boxtree/visualization.py:229-274`; `nlevels` is the number of levels of
the tree of the plotter. -/
def drawBoxLists (nlevels : Nat) (trav : Traversal) (b : Nat) : Except VisError (List Mark) := do
  let m1 ← drawBoxList b trav.list1 (some trav.targetBoxes) .green false
  let m2 ← drawBoxList b trav.list2 (some trav.ttpBoxes) .blue false
  let m3 ← (List.range nlevels).mapM (drawList3 trav b)
  let m3c ← drawClose b trav.list3Close trav.targetBoxes .orange
  let m4 ← drawBoxList b trav.list4 (some trav.ttpBoxes) .purple false
  let m4c ← drawClose b trav.list4Close trav.targetBoxes .purple
  return ⟨b, .red, false, true⟩ :: (m1 ++ m2 ++ m3.flatten ++ m3c ++ m4 ++ m4c)

end Boxtree.Vis
