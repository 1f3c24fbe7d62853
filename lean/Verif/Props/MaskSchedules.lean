import Verif.Lemmas.MaskKernels
import Verif.Props.LevelStarts

/-!
# C90: schedules of the kernels with shared output
-/

namespace Boxtree
open BoxTree Boxtree.Par Boxtree.Dist

/-- **C90** (local trees): the local tree, the particles that are kept and the four box masks of a rank are
the same for every order in which the work items of the kernels take turns. -/
theorem C90_local_tree (σ : LocalSchedule) (t : BoxTree) (g : GlobalParticles) (trav : Traversal)
    (targetsHaveExtent : Bool) (responsibleBoxes : List Nat) :
    generateLocalTreeRun σ t g trav targetsHaveExtent responsibleBoxes =
      generateLocalTree t g trav targetsHaveExtent responsibleBoxes := by
  unfold generateLocalTreeRun generateLocalTree
  simp only [getBoxMasksRun_eq, constructLocalRun_eq]

/-- **C90** (local particles): so are the coordinates and radii of the particles of a rank. -/
theorem C90_local_particles {α : Type} (σmask σfetch : List Nat) (zero : α) (n nboxes : Nat)
    (boxMask : Nat → Bool) (part : Nat → α) (starts countsNonchild countsCumul : Nat → Nat) :
    constructLocalRun σmask σfetch zero n nboxes boxMask part starts countsNonchild countsCumul =
      constructLocal zero n nboxes boxMask part starts countsNonchild countsCumul :=
  constructLocalRun_eq ..

/-- **C90** (translation classes): the classes, their distance vectors and level starts, and whether there is
an error, are the same for every order. -/
theorem C90_translation_classes (σ : List Nat) (t : BoxTree) (n : Nat) (trav : Traversal)
    (perLevel : Bool) (vec : Nat → Nat → Nat → Nat → ℤ) (dist : ℤ → Nat → ℚ) :
    buildTranslationClassesRun σ t n trav perLevel vec dist =
      buildTranslationClasses t n trav perLevel vec dist :=
  buildTranslationClassesRun_eq ..

/-- **C90** (level starts): so are the four level start arrays of a traversal. -/
theorem C90_level_starts (σ : List Nat) (inp : TravInput) (trav : Traversal) (hw : inp.tree.WF)
    (hl : inp.tree.LevelsOK) (h : buildTraversal inp = .ok trav) :
    extractLevelStartsRun σ inp.tree trav.sourceBoxes = trav.levelStartSource ∧
    extractLevelStartsRun σ inp.tree trav.sourceParentBoxes = trav.levelStartSourceParent ∧
    extractLevelStartsRun σ inp.tree trav.targetBoxes = trav.levelStartTarget ∧
    extractLevelStartsRun σ inp.tree trav.ttpBoxes = trav.levelStartTtp := by
  have F := travFields h
  have key : ∀ boxes, BoxListOK inp.tree boxes →
      extractLevelStartsRun σ inp.tree boxes = extractLevelStarts inp.tree boxes := by
    intro boxes hb
    unfold extractLevelStartsRun extractLevelStarts
    rw [levelStartMarksRun_eq σ hb hw hl]
  refine ⟨?_, ?_, ?_, ?_⟩
  · rw [key _ (by rw [F.sourceBoxes]; exact boxListOK_of _ _), F.lsSource]
  · rw [key _ (by rw [F.sourceParentBoxes]; exact boxListOK_of _ _), F.lsSourceParent]
  · rw [key _ (by rw [F.targetBoxes]; split <;> exact boxListOK_of _ _), F.lsTarget]
  · rw [key _ (by rw [F.ttpBoxes]; exact boxListOK_of _ _), F.lsTtp]

/-- Two boxes with one parent: both work items store in its cell, the second one first. -/
example : Ex.exTree.parent 3 = Ex.exTree.parent 4 ∧
    addParentsRun [4, 3, 3, 4] Ex.exTree (listMask [3, 4]) (Ex.exTree.parent 3) = true ∧
    addParentsRun [4, 3, 3, 4] Ex.exTree (listMask [3, 4]) 3 = false := by decide +kernel

/-- Level starts with work items that take turns from the last to the first. -/
example : extractLevelStartsRun [4, 3, 2, 1, 0] Ex.exTree [3, 4, 5, 7, 8] = [0, 0, 0, 3, 5] := by
  decide +kernel

/-- Two pairs of one class and one that fails: all raise a flag. -/
example : runClasses [2, 1, 0, 1, 0] 3 (fun p => if p = 2 then none else some 7) .error = (1 : Nat) ∧
    runClasses [2, 1, 0, 1, 0] 3 (fun p => if p = 2 then none else some 7) (.used 7) = (1 : Nat) ∧
    runClasses [2, 1, 0, 1, 0] 3 (fun p => if p = 2 then none else some 7) (.cls 1) = (7 : ℤ) ∧
    runClasses [2, 1, 0, 1, 0] 3 (fun p => if p = 2 then none else some 7) (.used 6) = (0 : Nat) := by
  decide +kernel

/-- A rank that keeps the particles of one box of two. -/
example : (constructLocalRun [1, 0, 1] [3, 2, 1, 0] 0 4 2 (fun b => b == 1) (fun i => 10 + i)
    (fun b => 2 * b) (fun _ => 2) fun _ => 2).particles = [12, 13] := by decide +kernel

end Boxtree
