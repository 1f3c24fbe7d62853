import Verif.Model.BuildCall
import Verif.Model.TravCommands

/-!
# When the tree builder reads the particles

`TreeBuilder.__call__` (`/repo/boxtree/tree_build.py:145-511`) is given events `wait_for`.  Here the arrays of
particles are written by a launch of the caller whose event is in `wait_for`.  With targets, the builder first
copies sources and targets into new arrays, without `wait_for`, as it does with particles that are not given as an
object array; otherwise it uses the given arrays themselves.  The first launch that gets `wait_for` is the bounding box finder, and the host waits for its
result before it goes on.  Simplifications: everything from the bounding box finder on is one launch; arrays that
the builder makes itself record their events, so that this launch waits for the copies.  Not modelled: the
reductions of the refine weights (`:434-446`), which also come before any wait for the events.
-/

namespace Boxtree.Build
open Queue

/-- Contents of the arrays of particles, targets and radii, `/repo/boxtree/tree_build.py:145-162`. -/
structure Contents where
  src : Nat → Nat → ℚ
  tgt : Nat → Nat → ℚ
  srcRadius : Nat → ℚ
  tgtRadius : Nat → ℚ

/-- The contents the caller's launch writes.  `/repo/boxtree/tree_build.py:145-162`. -/
def Call.contents (c : Call) : Contents := ⟨c.src, c.tgt, c.srcRadius, c.tgtRadius⟩

/-- The same call with other contents.  `/repo/boxtree/tree_build.py:145-162`. -/
def Call.withContents (c : Call) (u : Contents) : Call :=
  { c with src := u.src, tgt := u.tgt, srcRadius := u.srcRadius, tgtRadius := u.tgtRadius }

/-- What the launches write.  `/repo/boxtree/tree_build.py:324-400`, `:458-1878`. -/
inductive CallArr
  | given
  | copies
  | tree
deriving DecidableEq

/-- Types of the contents.  `/repo/boxtree/tree_build.py:324-400`, `:458-1878`. -/
def CallArr.Val : CallArr → Type
  | .given => Contents
  | .copies => Contents
  | .tree => Except String Built

/-- Whether particles are copied: `targets is not None` or `particles` is not an object array (`objectArray`),
`/repo/boxtree/tree_build.py:328-337`, `:358-386`. -/
def Call.copied (c : Call) (objectArray : Bool) : Bool := c.args.targets.isSome || !objectArray

/-- The launches with their wait lists: the caller's; `combine_srcntgt_arrays` (`result[:len(ary1)] = ary1`,
`/repo/boxtree/tree_build.py:358-386`) or `actx.np.copy(actx.thaw(p))` (`:335-337`); the bounding box finder
(`wait_for=wait_for`, `:458-460`) and everything after it. -/
def Call.launches (c : Call) (objectArray : Bool) : (x : CallArr) → Option (Launch CallArr CallArr.Val x)
  | .given => some ⟨[], fun _ => c.contents⟩
  | .copies => if c.copied objectArray then some ⟨[], fun m => m .given⟩ else none
  | .tree => some ⟨if c.copied objectArray then [.given, .copies] else [.given], fun m =>
      (c.withContents (if c.copied objectArray then m .copies else m .given)).run⟩

end Boxtree.Build
