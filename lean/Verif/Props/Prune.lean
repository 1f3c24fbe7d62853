import Verif.Lemmas.Prune
import Verif.Props.BuiltTree

/-!
# Pruning
-/

namespace Boxtree.Build

/-- **C24.** Compared with the tree built with `skip_prune=True`, the tree built from the same
arguments without it has exactly the boxes with particles, in the same relative order, with the same
parents and children (apart from removed ones), levels, centers, flags and particles. -/
theorem C24_prune (inp : Input) (ok : inp.OK) (t₁ : Built)
    (h₁ : { inp with skipPrune := true }.build = .ok t₁) :
    ∃ t₀, { inp with skipPrune := false }.build = .ok t₀ ∧ ∃ old, PrunedFrom t₁ t₀ old := by
  have ok₁ : { inp with skipPrune := true }.OK :=
    ⟨ok.1, ok.2, ok.3, ok.4, ok.5, ok.6, ok.7⟩
  obtain ⟨L, s, hc, o, rfl, hf, _, hs, _⟩ := Input.build_cases ok₁ h₁
  refine ⟨finish inp.params inp.cloud false (fun l => s.used l + inp.pad l) L s, ?_,
    oldNumber inp.params (fun l => s.used l + inp.pad l) L s, ?_⟩
  · exact Input.build_of_levels (inp := { inp with skipPrune := false }) hs
  · exact finish_pruned (hc := hc) (o := o)
      ⟨hf.inv, hf.len_ge, hf.moves, fun _ => ok.n_pos⟩ hf

/-- Every box of a pruned tree has particles. -/
theorem C24_no_empty_boxes (inp : Input) (ok : inp.OK) (hs : inp.skipPrune = false) (t : Built)
    (h : inp.build = .ok t) (b : Nat) (hb : b < t.tree.nboxes) : 0 < t.population b := by
  obtain ⟨L, s, hc, o, rfl, hf, _⟩ := Input.build_cases ok h
  rw [hs] at hf hb ⊢
  rw [population_pos hf hb]
  have := fin_count_pos hf hb
  exact this

/-- **C24**, level grouping: the boxes of level `l` are those from `level_start_box_nrs[l]` up to
`level_start_box_nrs[l+1]`. -/
theorem C24_level_groups (inp : Input) (ok : inp.OK) (t : Built) (h : inp.build = .ok t) (b : Nat)
    (hb : b < t.tree.nboxes) (l : Nat) :
    (t.tree.levelStart l ≤ b ∧ b < t.tree.levelStart (l + 1)) ↔ t.tree.level b = l := by
  obtain ⟨L, s, hc, o, rfl, hf, _⟩ := Input.build_cases ok h
  exact hf.flatOK.mem_level s.used hb l

/-- `Ex.plane` without pruning has four children of the root, two of them empty, and four of one of
these. -/
example : Ex.plane.OK ∧
    Ex.look { Ex.plane with skipPrune := true }.build
      (fun t => (List.range t.tree.nboxes).map t.population) = [6, 2, 0, 4, 0, 2, 2, 0, 0] ∧
    Ex.look { Ex.plane with skipPrune := false }.build
      (fun t => (List.range t.tree.nboxes).map t.population) = [6, 2, 4, 2, 2] :=
  ⟨Ex.plane_ok, by decide +kernel⟩

end Boxtree.Build
