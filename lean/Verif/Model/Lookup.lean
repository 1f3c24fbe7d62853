import Verif.Model.TreeFinish
import Verif.Model.Filter

/-!
Model of the debugging aids of `Tree` in `/repo/boxtree/tree.py:625-684`: conversion of particle
numbers and extents of boxes.  `find_box_nr_for_source/target` is in `Model/Filter`.
-/

namespace Boxtree.Build
open Boxtree

/-- `numpy` indexing with one number: negative numbers count from the end.  Used in
`/repo/boxtree/tree.py:639-684`. -/
def npIndex (n : Nat) (i : ℤ) : Except String Nat :=
  if 0 ≤ i then (if i < n then .ok i.toNat else .error "IndexError")
  else if 0 ≤ i + n then .ok (i + n).toNat else .error "IndexError"

/-- `a[ix]` with an array of indices.  Used in `/repo/boxtree/tree.py:639-662`. -/
def fancyGet (a : List ℤ) (ix : List ℤ) : Except String (List ℤ) :=
  ix.mapM fun i => do return a.getD (← npIndex a.length i) 0

/-- `a[ix] = vals` with an array of indices; of several values for one place the last one stays.
Used in `/repo/boxtree/tree.py:639-645`. -/
def fancySet (a : List ℤ) (ix vals : List ℤ) : Except String (List ℤ) := do
  let ks ← ix.mapM (npIndex a.length)
  return (ks.zip vals).foldl (fun a kv => a.set kv.1 kv.2) a

/-- `Tree._reverse_index_lookup`, `/repo/boxtree/tree.py:639-645`. -/
def reverseIndexLookup (ary : List ℤ) (newKeySize : Nat) : Except String (List ℤ) :=
  fancySet (List.replicate newKeySize (-1)) ary ((List.range ary.length).map fun (i : Nat) => (i : ℤ))

/-- `Tree.indices_to_tree_source_order`, `/repo/boxtree/tree.py:647-655`. -/
def indicesToTreeSourceOrder (t : Built) (userIndices : List ℤ) : Except String (List ℤ) := do
  let ids := (List.range t.particles.nsources).map fun i => (t.particles.userSourceIds i : ℤ)
  let treeSourceIds ← reverseIndexLookup ids t.particles.nsources
  fancyGet treeSourceIds userIndices

/-- `Tree.indices_to_tree_target_order`, `/repo/boxtree/tree.py:657-662`. -/
def indicesToTreeTargetOrder (t : Built) (userIndices : List ℤ) : Except String (List ℤ) :=
  fancyGet ((List.range t.particles.ntargets).map fun i => (t.particles.sortedTargetIds i : ℤ)) userIndices

/-- `Tree.find_box_nr_for_source`, `/repo/boxtree/tree.py:675-684`. -/
def findBoxForSource (t : Built) (i : Nat) : Except String Nat :=
  Filter.findBoxNr t.tree.nboxes t.particles.srcStart t.particles.srcCount i

/-- `Tree.find_box_nr_for_target`, `/repo/boxtree/tree.py:664-673`. -/
def findBoxForTarget (t : Built) (i : Nat) : Except String Nat :=
  Filter.findBoxNr t.tree.nboxes t.particles.tgtStart t.particles.tgtCount i

/-- `Tree.get_box_extent`, `/repo/boxtree/tree.py:625-631`, in exact arithmetic; `root_extent` and
`box_centers` are those of the tree. -/
def boxExtent (t : Built) (b : Nat) : (Nat → ℚ) × (Nat → ℚ) :=
  let size := t.tree.rootExtent / 2 ^ t.tree.level b
  let low := fun a => t.stored b a - 1 / 2 * size
  (low, fun a => low a + size)

end Boxtree.Build
