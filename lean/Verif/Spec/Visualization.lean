import Verif.Model.Visualization
import Verif.Spec.Traversal

/-!
# Specification vocabulary: reading Roman numerals and plots
-/

namespace Boxtree.Vis

/-- The value of a Roman digit (`Z` stands for zero). -/
def digitValue : Char → ℤ
  | 'I' => 1
  | 'V' => 5
  | 'X' => 10
  | 'L' => 50
  | 'C' => 100
  | 'D' => 500
  | 'M' => 1000
  | _ => 0

/-- How a Roman numeral is read: the digits are added, except that a digit before a larger one is
subtracted. -/
def romanValue : List Char → ℤ
  | [] => 0
  | [a] => digitValue a
  | a :: b :: rest =>
      (if digitValue a < digitValue b then -digitValue a else digitValue a) + romanValue (b :: rest)

/-- The boxes filled with color `c` (hatched or not), in the order in which they are drawn. -/
def filledBoxes (c : Color) (hatch : Bool) (marks : List Mark) : List Nat :=
  (marks.filter fun m => m.filled && decide (m.color = c) && decide (m.hatch = hatch)).map
    fun m => m.box

/-- The list of box `b` in a list that may be absent. -/
def closeRow (bl : Option BuiltList) (boxes : List Nat) (b : Nat) : List Nat :=
  match bl with
  | some bl => bl.rowFor boxes b
  | none => []

end Boxtree.Vis
