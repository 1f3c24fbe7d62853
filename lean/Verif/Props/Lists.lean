import Verif.Lemmas.Criteria
import Verif.Examples

set_option linter.unusedSimpArgs false
set_option linter.unusedVariables false

/-!
# C03-C08, C12: exact content of the interaction lists

Every theorem is about the result of `buildTraversal`; lists are read through `rowFor`
(`Spec/Traversal.lean`), geometry through closed intervals (`Spec/Geometry.lean`) and the
separation criteria through `Spec/Lists.lean`.
-/

namespace Boxtree
open BoxTree

variable (inp : TravInput) (trav : Traversal)

/-- **C03.** List 1 of a target box holds exactly the source boxes that have a point in common
with it, each once. -/
theorem C03_list1_exact (ok : inp.OK) (h : buildTraversal inp = .ok trav) (tgt : Nat)
    (htgt : tgt ∈ trav.targetBoxes) :
    (trav.list1.rowFor trav.targetBoxes tgt).Nodup ∧
    ∀ s, s ∈ trav.list1.rowFor trav.targetBoxes tgt ↔
      s < inp.tree.nboxes ∧ inp.tree.isSource s = true ∧ inp.tree.Touch tgt s := by
  classical
  have F := travFields h
  have ht := F.target_lt htgt
  rw [F.row1, if_pos htgt]
  apply list_of_count_ite (fun s hs => list1_lt ok.wf hs)
    (fun s hs => count_list1 ok.wf ok.flags ok.adjOK ht hs)
  intro s hs
  rw [ok.wf.nws_one_iff ht hs]

/-- The hypotheses hold for `exInput` (see `Ex.exInput_ok`); list 1 of box 5 has three entries. -/
example : ∃ trav, buildTraversal Ex.exInput = .ok trav ∧ 5 ∈ trav.targetBoxes ∧
    trav.list1.rowFor trav.targetBoxes 5 = [4, 5, 7] :=
  ⟨_, rfl, by decide +kernel⟩

/-- **C04.** The near-neighbour list of a box holds exactly the other boxes on its level that
meet the box enlarged by `nAway - 1` of its widths, each once; and the relation is
symmetric. -/
theorem C04_near_neighbours_exact (ok : inp.OK) (h : buildTraversal inp = .ok trav) (b : Nat)
    (hb : b < inp.tree.nboxes) :
    (trav.slnws.row b).Nodup ∧
    (∀ s, s ∈ trav.slnws.row b ↔
      s < inp.tree.nboxes ∧ s ≠ b ∧ inp.tree.level s = inp.tree.level b ∧
        inp.tree.TouchEnlarged (inp.nAway - 1) b s) ∧
    (∀ s, s ∈ trav.slnws.row b → b ∈ trav.slnws.row s) := by
  classical
  have F := travFields h
  have hmem : ∀ b, b < inp.tree.nboxes → ∀ s, s ∈ trav.slnws.row b ↔
      s < inp.tree.nboxes ∧ s ≠ b ∧ inp.tree.level s = inp.tree.level b ∧
        inp.tree.nws inp.nAway b s := by
    intro b hb s
    rw [F.row_slnws b hb, mem_slnws ok.wf ok.adjOK hb]
    constructor
    · rintro ⟨h1, _, h3⟩; exact ⟨h1, h3⟩
    · rintro ⟨h1, h2, h3, h4⟩
      refine ⟨h1, ?_, h2, h3, h4⟩
      rintro rfl
      rw [ok.wf.level_root] at h3
      exact h2 (ok.wf.eq_zero_of_level h1 h3)
  refine ⟨?_, ?_, ?_⟩
  · rw [F.row_slnws b hb]; exact slnws_nodup ok.wf ok.adjOK hb
  · intro s
    rw [hmem b hb s]
    constructor
    · rintro ⟨h1, h2, h3, h4⟩
      exact ⟨h1, h2, h3, (ok.wf.nws_iff_touch ok.nAway_pos hb h1).1 h4⟩
    · rintro ⟨h1, h2, h3, h4⟩
      exact ⟨h1, h2, h3, (ok.wf.nws_iff_touch ok.nAway_pos hb h1).2 h4⟩
  · intro s hs
    rw [hmem b hb s] at hs
    obtain ⟨h1, h2, h3, h4⟩ := hs
    rw [hmem s h1 b]
    exact ⟨hb, Ne.symm h2, h3.symm, nws_symm_of_level _ h3.symm h4⟩

/-- Near neighbours of box 5 one box away, and of box 3 two boxes away. -/
example : ∃ trav, buildTraversal Ex.exInput = .ok trav ∧ trav.slnws.row 5 = [4, 6] :=
  ⟨_, rfl, by decide +kernel⟩

example : ∃ trav, buildTraversal Ex.exInputExt = .ok trav ∧ trav.slnws.row 3 = [4, 5] :=
  ⟨_, rfl, by decide +kernel⟩

/-- **C05.** List 2 of a target-or-target-parent box holds exactly the boxes on its level that
are well-separated from it while their parents are not, each once. -/
theorem C05_list2_exact (ok : inp.OK) (h : buildTraversal inp = .ok trav) (b : Nat)
    (hb : b ∈ trav.ttpBoxes) :
    (trav.list2.rowFor trav.ttpBoxes b).Nodup ∧
    (∀ s, s ∈ trav.list2.rowFor trav.ttpBoxes b ↔
      s < inp.tree.nboxes ∧ inp.tree.level s = inp.tree.level b ∧
        ¬ inp.tree.TouchEnlarged (inp.nAway - 1) b s ∧
        inp.tree.TouchEnlarged (inp.nAway - 1) (inp.tree.parent b) (inp.tree.parent s)) := by
  classical
  have F := travFields h
  have hlt := F.ttp_lt hb
  rw [F.row2, if_pos hb]
  apply list_of_count_ite (fun s hs => list2_lt ok.wf F.row_slnws hlt hs)
    (fun s hs => count_list2 ok.wf ok.adjOK F.row_slnws hlt hs)
  intro s hs
  have e1 := ok.wf.nws_iff_touch ok.nAway_pos hlt hs
  have e2 := ok.wf.nws_iff_touch ok.nAway_pos (ok.wf.parent_lt b hlt) (ok.wf.parent_lt s hs)
  change b ≠ 0 ∧ _ ∧ inp.tree.nws inp.nAway _ _ ∧ ¬ inp.tree.nws inp.nAway _ _ ↔ _
  rw [e1, e2]
  constructor
  · rintro ⟨_, h2, h3, h4⟩; exact ⟨h2, h4, h3⟩
  · rintro ⟨h2, h4, h3⟩
    refine ⟨?_, h2, h3, h4⟩
    rintro rfl
    rw [ok.wf.level_root] at h2
    have := ok.wf.eq_zero_of_level hs h2
    subst this
    rw [ok.wf.parent_root] at h3
    exact h4 h3

/-- List 2 of box 3 in the example. -/
example : ∃ trav, buildTraversal Ex.exInput = .ok trav ∧ 3 ∈ trav.ttpBoxes ∧
    trav.list2.rowFor trav.ttpBoxes 3 = [5, 6] :=
  ⟨_, rfl, by decide +kernel⟩

/-- **C05**, symmetry: for boxes that both have a list 2, one lists the other iff conversely. -/
theorem C05_list2_symm (ok : inp.OK) (h : buildTraversal inp = .ok trav) (a b : Nat)
    (ha : a ∈ trav.ttpBoxes) (hb : b ∈ trav.ttpBoxes) :
    a ∈ trav.list2.rowFor trav.ttpBoxes b ↔ b ∈ trav.list2.rowFor trav.ttpBoxes a := by
  have F := travFields h
  have halt := F.ttp_lt ha
  have hblt := F.ttp_lt hb
  rw [(C05_list2_exact inp trav ok h b hb).2, (C05_list2_exact inp trav ok h a ha).2]
  have key : ∀ a b, a < inp.tree.nboxes → b < inp.tree.nboxes →
      inp.tree.level a = inp.tree.level b →
      inp.tree.TouchEnlarged (inp.nAway - 1) a b → inp.tree.TouchEnlarged (inp.nAway - 1) b a := by
    intro a b ha hb hl
    rw [← ok.wf.nws_iff_touch ok.nAway_pos ha hb, ← ok.wf.nws_iff_touch ok.nAway_pos hb ha]
    exact nws_symm_of_level _ hl
  have plevel : ∀ b, b < inp.tree.nboxes →
      inp.tree.level (inp.tree.parent b) = inp.tree.level b - 1 := fun b hb =>
    ok.wf.parent_level hb
  have hp : inp.tree.level a = inp.tree.level b →
      inp.tree.level (inp.tree.parent a) = inp.tree.level (inp.tree.parent b) := by
    intro hl; rw [plevel a halt, plevel b hblt, hl]
  constructor
  · rintro ⟨_, h2, h3, h4⟩
    exact ⟨hblt, h2.symm, fun hc => h3 (key a b halt hblt h2 hc),
      key _ _ (ok.wf.parent_lt _ hblt) (ok.wf.parent_lt _ halt) (hp h2).symm h4⟩
  · rintro ⟨_, h2, h3, h4⟩
    exact ⟨halt, h2.symm, fun hc => h3 (key b a hblt halt h2 hc),
      key _ _ (ok.wf.parent_lt _ halt) (ok.wf.parent_lt _ hblt) (hp h2.symm) h4⟩

/-- The two boxes list each other. -/
example : ∃ trav, buildTraversal Ex.exInput = .ok trav ∧ 3 ∈ trav.ttpBoxes ∧ 6 ∈ trav.ttpBoxes ∧
    6 ∈ trav.list2.rowFor trav.ttpBoxes 3 :=
  ⟨_, rfl, by decide +kernel⟩

/-- **C06.** List 3 of a target box for source level `L` holds exactly the boxes on level `L`,
strictly finer than the target box and inside one of its near neighbours, that carry
sources, do not touch it, meet the separation criterion, and none of whose ancestors finer
than the target box already qualified; each once. -/
theorem C06_list3_exact (ok : inp.OK) (h : buildTraversal inp = .ok trav) (tgt L : Nat)
    (htgt : tgt ∈ trav.targetBoxes) (hL : L < inp.tree.nlevels) :
    ((trav.list3.getD L ⟨[], []⟩).rowFor (trav.list3Targets.getD L []) tgt).Nodup ∧
    ∀ s, s ∈ (trav.list3.getD L ⟨[], []⟩).rowFor (trav.list3Targets.getD L []) tgt ↔
      s < inp.tree.nboxes ∧ inp.tree.level s = L ∧ inp.tree.level tgt < L ∧
      inp.tree.HasSources s ∧
      inp.tree.ancAt s (inp.tree.level tgt) ≠ tgt ∧
      inp.tree.TouchEnlarged (inp.nAway - 1) tgt (inp.tree.ancAt s (inp.tree.level tgt)) ∧
      ¬ inp.tree.Touch tgt s ∧ SepSmaller inp tgt s ∧
      ∀ l, inp.tree.level tgt < l → l < L →
        (inp.tree.Touch tgt (inp.tree.ancAt s l) ∨ ¬ SepSmaller inp tgt (inp.tree.ancAt s l)) := by
  classical
  have F := travFields h
  have ht := F.target_lt htgt
  rw [F.row3 L hL, if_pos htgt]
  apply list_of_count_ite
    (fun s hs => list3_lt ok.wf F.row_slnws ht (mem_sepPart.1 hs))
    (fun s hs => (count_sepPart _ _).trans
      (count_list3_sep ok.wf ok.flags ok.adjOK F.row_slnws ht hs L))
  intro s hs
  rw [ok.wf.nws_one_iff ht hs, sep3_iff ok]
  have hanc := fun l => ok.wf.ancAt_lt hs l
  have e1 := ok.wf.nws_iff_touch ok.nAway_pos ht (hanc (inp.tree.level tgt))
  have e2 : ∀ l, Open3 inp.tree inp.params tgt (inp.tree.ancAt s l) ↔
      (inp.tree.Touch tgt (inp.tree.ancAt s l) ∨
        ¬ SepSmaller inp tgt (inp.tree.ancAt s l)) := by
    intro l
    unfold Open3
    rw [ok.wf.nws_one_iff ht (hanc l), sep3_iff ok]
  change _ ∧ _ ∧ _ ∧ _ ∧ inp.tree.nws inp.nAway _ _ ∧ _ ↔ _
  rw [e1]
  simp only [e2]
  constructor
  · rintro ⟨h1, h2, h3, h4, h5, h6, h7, h8, h9⟩
    exact ⟨h1, h1 ▸ h2, h6, h4, h5, h7, h8, fun l a b => h9 l a (h1 ▸ b)⟩
  · rintro ⟨h1, h2, h6, h4, h5, h7, h8, h9⟩
    refine ⟨h1, h1 ▸ h2, ?_, h4, h5, h6, h7, h8, fun l a b => h9 l a (h1 ▸ b)⟩
    rintro rfl
    apply h4
    rw [ok.wf.level_root, ok.wf.ancAt_zero hs]

/-- List 3 of box 5 for source level 3. -/
example : ∃ trav, buildTraversal Ex.exInput = .ok trav ∧ 5 ∈ trav.targetBoxes ∧
    (trav.list3.getD 3 ⟨[], []⟩).rowFor (trav.list3Targets.getD 3 []) 5 = [8] :=
  ⟨_, rfl, by decide +kernel⟩

/-- **C06**, close list: list 3 close of a target box holds exactly the finer source boxes
inside its near neighbours that neither touch it nor have a qualifying ancestor-or-self;
each once. -/
theorem C06_list3_close_exact (ok : inp.OK) (h : buildTraversal inp = .ok trav)
    (he : inp.targetsHaveExtent = true) :
    ∃ bl, trav.list3Close = some bl ∧ ∀ tgt, tgt ∈ trav.targetBoxes →
    (bl.rowFor trav.targetBoxes tgt).Nodup ∧
    ∀ s, s ∈ bl.rowFor trav.targetBoxes tgt ↔
      s < inp.tree.nboxes ∧ inp.tree.level tgt < inp.tree.level s ∧
      inp.tree.isSource s = true ∧
      inp.tree.ancAt s (inp.tree.level tgt) ≠ tgt ∧
      inp.tree.TouchEnlarged (inp.nAway - 1) tgt (inp.tree.ancAt s (inp.tree.level tgt)) ∧
      ¬ inp.tree.Touch tgt s ∧ ¬ SepSmaller inp tgt s ∧
      ∀ l, inp.tree.level tgt < l → l < inp.tree.level s →
        (inp.tree.Touch tgt (inp.tree.ancAt s l) ∨ ¬ SepSmaller inp tgt (inp.tree.ancAt s l)) := by
  classical
  have F := travFields h
  obtain ⟨bl, hbl, _, hrow⟩ := F.row3Close he
  refine ⟨bl, hbl, fun tgt htgt => ?_⟩
  have ht := F.target_lt htgt
  rw [hrow, if_pos htgt]
  apply list_of_count_ite
    (fun s hs => list3_lt ok.wf F.row_slnws ht (mem_closePart.1 hs))
    (fun s hs => (count_closePart _ _).trans
      (count_list3_close ok.wf ok.flags ok.adjOK F.row_slnws ht hs))
  intro s hs
  rw [ok.wf.nws_one_iff ht hs, sep3_iff ok]
  have hanc := fun l => ok.wf.ancAt_lt hs l
  have e1 := ok.wf.nws_iff_touch ok.nAway_pos ht (hanc (inp.tree.level tgt))
  have e2 : ∀ l, Open3 inp.tree inp.params tgt (inp.tree.ancAt s l) ↔
      (inp.tree.Touch tgt (inp.tree.ancAt s l) ∨
        ¬ SepSmaller inp tgt (inp.tree.ancAt s l)) := by
    intro l
    unfold Open3
    rw [ok.wf.nws_one_iff ht (hanc l), sep3_iff ok]
  change _ ∧ _ ∧ _ ∧ inp.tree.nws inp.nAway _ _ ∧ _ ↔ _
  rw [e1]
  simp only [e2]
  constructor
  · rintro ⟨h2, h3, h4, h5, h6, h7, h8, h9⟩
    exact ⟨h2, h6, h4, h5, h7, h8, h9⟩
  · rintro ⟨h2, h6, h4, h5, h7, h8, h9⟩
    refine ⟨h2, ?_, h4, h5, h6, h7, h8, h9⟩
    rintro rfl
    apply h4
    rw [ok.wf.level_root, ok.wf.ancAt_zero hs]

/-- List 3 close of box 4 when targets stick out far. -/
example : ∃ trav, buildTraversal { Ex.exInputExt with crit := some .staticLinf, stickOut := 3 } =
      .ok trav ∧ 4 ∈ trav.targetBoxes ∧
    ∃ bl, trav.list3Close = some bl ∧ bl.rowFor trav.targetBoxes 4 = [7, 8] :=
  ⟨_, rfl, by decide +kernel, _, rfl, by decide +kernel⟩

/-- **C07.** List 4 of a target-or-target-parent box `b` holds exactly the source boxes, at
least as coarse as `b`, that are near neighbours of `b` or an ancestor, are separated from
`b`, and are not already separated from the parent of `b` (unless they are on the level of
`b`, where the parent had no chance to handle them); each once. -/
theorem C07_list4_exact (ok : inp.OK) (h : buildTraversal inp = .ok trav) (b : Nat)
    (hb : b ∈ trav.ttpBoxes) :
    (trav.list4.rowFor trav.ttpBoxes b).Nodup ∧
    ∀ s, s ∈ trav.list4.rowFor trav.ttpBoxes b ↔
      s < inp.tree.nboxes ∧ inp.tree.isSource s = true ∧
      inp.tree.level s ≤ inp.tree.level b ∧
      s ≠ inp.tree.ancAt b (inp.tree.level s) ∧
      inp.tree.TouchEnlarged (inp.nAway - 1) (inp.tree.ancAt b (inp.tree.level s)) s ∧
      (¬ inp.tree.Touch b s ∧ SepBigger inp b s) ∧
      ¬ (inp.tree.level s < inp.tree.level b ∧
          ¬ inp.tree.Touch (inp.tree.parent b) s ∧ SepBigger inp (inp.tree.parent b) s) := by
  classical
  have F := travFields h
  have hlt := F.ttp_lt hb
  rw [F.row4, if_pos hb]
  apply list_of_count_ite
    (fun s hs => list4_lt ok.wf F.row_slnws hlt (mem_sepPart.1 hs))
    (fun s hs => (count_sepPart _ _).trans
      (count_list4_sep ok.wf ok.adjOK F.row_slnws hlt hs))
  intro s hs
  have e1 := ok.wf.nws_iff_touch ok.nAway_pos (ok.wf.ancAt_lt hlt (inp.tree.level s)) hs
  have e2 : ∀ c, c < inp.tree.nboxes → (Far4 inp.tree inp.params c s ↔
      (¬ inp.tree.Touch c s ∧ SepBigger inp c s)) := by
    intro c hc
    unfold Far4
    rw [ok.wf.nws_one_iff hc hs, crit4_iff ok]
  change _ ∧ _ ∧ _ ∧ _ ∧ inp.tree.nws inp.nAway _ _ ∧ _ ↔ _
  rw [e1, e2 b hlt, e2 _ (ok.wf.parent_lt b hlt)]
  constructor
  · rintro ⟨h1, h2, h3, h4, h5, h6, h7, h8⟩
    exact ⟨h6, h3, h4, h5, h7, fun hc => h8 ⟨hc.2, hc.1⟩⟩
  · rintro ⟨h6, h3, h4, h5, h7, h8⟩
    have hs0 : s ≠ 0 := by
      rintro rfl
      apply h4
      rw [ok.wf.level_root, ok.wf.ancAt_zero hlt]
    refine ⟨?_, hs0, h3, h4, h5, h6, h7, fun hc => h8 ⟨hc.2, hc.1⟩⟩
    rintro rfl
    rw [ok.wf.level_root] at h3
    exact hs0 (ok.wf.eq_zero_of_level hs (by omega))

/-- **C07**, close list: list 4 close of a target box holds exactly the source boxes, at least as
coarse as it, that are near neighbours of it or an ancestor and neither touch it nor are
separated from it; each once. -/
theorem C07_list4_close_exact (ok : inp.OK) (h : buildTraversal inp = .ok trav)
    (he : inp.targetsHaveExtent = true) :
    ∃ bl, trav.list4Close = some bl ∧ ∀ tgt, tgt ∈ trav.targetBoxes →
    (bl.rowFor trav.targetBoxes tgt).Nodup ∧
    ∀ s, s ∈ bl.rowFor trav.targetBoxes tgt ↔
      s < inp.tree.nboxes ∧ inp.tree.isSource s = true ∧
      inp.tree.level s ≤ inp.tree.level tgt ∧
      s ≠ inp.tree.ancAt tgt (inp.tree.level s) ∧
      inp.tree.TouchEnlarged (inp.nAway - 1) (inp.tree.ancAt tgt (inp.tree.level s)) s ∧
      ¬ inp.tree.Touch tgt s ∧ ¬ SepBigger inp tgt s := by
  classical
  have F := travFields h
  obtain ⟨bl, hbl, _, hrow⟩ := F.row4Close ok he
  refine ⟨bl, hbl, fun tgt htgt => ?_⟩
  have ht := F.target_lt htgt
  have htt := F.target_is ok htgt
  rw [hrow, if_pos htgt]
  apply list_of_count_ite
    (fun s hs => list4_lt ok.wf F.row_slnws ht (mem_closePart.1 hs))
    (fun s hs => (count_closePart _ _).trans
      (count_list4_close ok.wf ok.adjOK F.row_slnws ht hs))
  intro s hs
  rw [ok.wf.nws_one_iff ht hs, crit4_iff ok]
  have e1 := ok.wf.nws_iff_touch ok.nAway_pos (ok.wf.ancAt_lt ht (inp.tree.level s)) hs
  change _ ∧ _ ∧ _ ∧ _ ∧ inp.tree.nws inp.nAway _ _ ∧ _ ↔ _
  rw [e1]
  constructor
  · rintro ⟨h1, h2, h3, h4, h5, h6, h7, h8, h9⟩
    exact ⟨h6, h3, h4, h5, h8, h9⟩
  · rintro ⟨h6, h3, h4, h5, h8, h9⟩
    have hs0 : s ≠ 0 := by
      rintro rfl
      apply h4
      rw [ok.wf.level_root, ok.wf.ancAt_zero ht]
    refine ⟨?_, hs0, h3, h4, h5, h6, htt, h8, h9⟩
    rintro rfl
    rw [ok.wf.level_root] at h3
    exact hs0 (ok.wf.eq_zero_of_level hs (by omega))

/-- List 4 close of box 8 in the example with extents. -/
example : ∃ trav, buildTraversal Ex.exInputExt = .ok trav ∧ 8 ∈ trav.targetBoxes ∧
    ∃ bl, trav.list4Close = some bl ∧ bl.rowFor trav.targetBoxes 8 = [5] :=
  ⟨_, rfl, by decide +kernel, _, rfl, by decide +kernel⟩

/-- **C07**, no repetition along the ancestor chain: a source box in list 4 of `b` is in list 4
of no proper ancestor of `b`. -/
theorem C07_list4_not_at_ancestor (ok : inp.OK) (h : buildTraversal inp = .ok trav) (b s l : Nat)
    (hb : b ∈ trav.ttpBoxes) (hs : s ∈ trav.list4.rowFor trav.ttpBoxes b)
    (hl : l < inp.tree.level b) :
    s ∉ trav.list4.rowFor trav.ttpBoxes (inp.tree.ancAt b l) := by
  intro hc
  have F := travFields h
  have hlt := F.ttp_lt hb
  have hanc := F.anc_ttp ok hb hl.le
  have h1 := ((C07_list4_exact inp trav ok h b hb).2 s).1 hs
  have h2 := ((C07_list4_exact inp trav ok h _ hanc).2 s).1 hc
  have hslt := h1.1
  obtain ⟨_, _, _, _, _, _, hn⟩ := h1
  obtain ⟨_, _, hl2, _, _, hfar, _⟩ := h2
  rw [ok.wf.level_ancAt hlt hl.le] at hl2
  apply hn
  refine ⟨by omega, ?_⟩
  have hf : Far4 inp.tree inp.params (inp.tree.ancAt b l) s :=
    ⟨fun hc => hfar.1 ((ok.wf.nws_one_iff (ok.wf.ancAt_lt hlt l) hslt).1 hc),
      (crit4_iff ok _ _).2 hfar.2⟩
  have hf' := far4_chain ok.wf ok.sepMono hlt hslt
    (by omega : l ≤ inp.tree.level b - 1) (by omega) hf
  have hpar : inp.tree.ancAt b (inp.tree.level b - 1) = inp.tree.parent b := by
    unfold ancAt
    have : inp.tree.level b - (inp.tree.level b - 1) = 1 := by omega
    rw [this]; rfl
  rw [hpar] at hf'
  exact ⟨fun hc => hf'.1 ((ok.wf.nws_one_iff (ok.wf.parent_lt b hlt) hslt).2 hc),
    (crit4_iff ok _ _).1 hf'.2⟩

/-- List 4 of box 8, with no entry at its parent. -/
example : ∃ trav, buildTraversal Ex.exInput = .ok trav ∧ 8 ∈ trav.ttpBoxes ∧
    trav.list4.rowFor trav.ttpBoxes 8 = [5] ∧ trav.list4.rowFor trav.ttpBoxes 6 = [] :=
  ⟨_, rfl, by decide +kernel⟩

/-- **C08.** Without extents, with `nAway = 1` and sources equal to targets, box `b` is in list 3
of target box `tgt` (for the level of `b`) iff `tgt` is in list 4 of `b`. -/
theorem C08_list3_list4_dual (ok : inp.OK) (h : buildTraversal inp = .ok trav)
    (hst : inp.sourcesAreTargets = true) (hm : inp.srcMask = none)
    (hn : inp.nAway = 1) (he : inp.targetsHaveExtent = false)
    (tgt b : Nat) (htgt : tgt ∈ trav.targetBoxes) (hb : b < inp.tree.nboxes) :
    b ∈ (trav.list3.getD (inp.tree.level b) ⟨[], []⟩).rowFor
        (trav.list3Targets.getD (inp.tree.level b) []) tgt ↔
      b ∈ trav.ttpBoxes ∧ tgt ∈ trav.list4.rowFor trav.ttpBoxes b := by
  have F := travFields h
  have ht := F.target_lt htgt
  have htt := F.target_is ok htgt
  have hsrc : inp.tree.isSource tgt = true := by rw [ok.srcTgt hst tgt ht (by rw [hm]; rfl)]; exact htt
  have hsep : ∀ x, SepSmaller inp tgt x := by
    intro x hx; rw [he] at hx; cases hx
  have hsepb : ∀ x, SepBigger inp x tgt := by
    intro x hx; rw [he] at hx; cases hx
  have hcomm : ∀ x, inp.tree.Touch tgt x ↔ inp.tree.Touch x tgt := by
    intro x
    constructor <;> intro h i hi <;> exact ⟨(h i hi).2, (h i hi).1⟩
  have hcomm' : ∀ x, inp.tree.TouchEnlarged 0 tgt x ↔ inp.tree.TouchEnlarged 0 x tgt := by
    intro x; rw [touchEnlarged_zero, touchEnlarged_zero]; exact hcomm x
  have http : b ∈ trav.ttpBoxes ↔ inp.tree.HasSources b := by
    rw [F.ttpBoxes, mem_selTtp]
    unfold HasSources
    rw [ok.srcTgt hst b hb (by rw [hm]; rfl), ok.srcTgtChild hst hm b hb]
    exact ⟨fun h => h.2, fun h => ⟨hb, h⟩⟩
  rw [(C06_list3_exact inp trav ok h tgt _ htgt (ok.wf.level_lt b hb)).2]
  constructor
  · rintro ⟨_, _, h2, h3, h4, h5, h6, h7, h8⟩
    have hbt := http.2 h3
    refine ⟨hbt, ?_⟩
    rw [(C07_list4_exact inp trav ok h b hbt).2]
    refine ⟨ht, hsrc, h2.le, Ne.symm h4, ?_, ⟨fun hc => h6 ((hcomm b).2 hc), hsepb b⟩, ?_⟩
    · rw [hn] at h5 ⊢; exact (hcomm' _).1 h5
    · rintro ⟨_, hp, _⟩
      rcases Nat.lt_or_ge (inp.tree.level tgt) (inp.tree.level b - 1) with hlt | hge
      · have := h8 (inp.tree.level b - 1) hlt (by omega)
        rcases this with h9 | h9
        · apply hp
          have hpar : inp.tree.ancAt b (inp.tree.level b - 1) = inp.tree.parent b := by
            unfold ancAt
            have : inp.tree.level b - (inp.tree.level b - 1) = 1 := by omega
            rw [this]; rfl
          rw [hpar] at h9
          exact (hcomm _).1 h9
        · exact h9 (hsep _)
      · have hpar : inp.tree.ancAt b (inp.tree.level tgt) = inp.tree.parent b := by
          unfold ancAt
          have : inp.tree.level b - inp.tree.level tgt = 1 := by omega
          rw [this]; rfl
        rw [hpar, hn] at h5
        exact hp ((hcomm _).1 ((touchEnlarged_zero _ _).1 h5))
  · rintro ⟨hbt, h4⟩
    rw [(C07_list4_exact inp trav ok h b hbt).2] at h4
    obtain ⟨_, _, h2, h4, h5, ⟨h6, _⟩, h8⟩ := h4
    have hlt : inp.tree.level tgt < inp.tree.level b := by
      rcases Nat.lt_or_ge (inp.tree.level tgt) (inp.tree.level b) with hlt | hge
      · exact hlt
      · exfalso
        rw [ancAt_ge _ hge, hn] at h5
        exact h6 ((touchEnlarged_zero _ _).1 h5)
    have hpt : inp.tree.Touch (inp.tree.parent b) tgt := by
      by_contra hc
      exact h8 ⟨hlt, hc, hsepb _⟩
    have hpar : inp.tree.ancAt b (inp.tree.level b - 1) = inp.tree.parent b := by
      unfold ancAt
      have : inp.tree.level b - (inp.tree.level b - 1) = 1 := by omega
      rw [this]; rfl
    refine ⟨hb, rfl, hlt, http.1 hbt, Ne.symm h4, ?_, fun hc => h6 ((hcomm b).1 hc), hsep b, ?_⟩
    · rw [hn] at h5 ⊢; exact (hcomm' _).2 h5
    · intro l hl1 hl2
      left
      rw [← ok.wf.nws_one_iff ht (ok.wf.ancAt_lt hb l)]
      have h9 := (ok.wf.nws_one_iff ht (ok.wf.parent_lt b hb)).2 ((hcomm _).2 hpt)
      have := ok.wf.nws_ancAt_right (l := l) (ok.wf.parent_lt b hb) h9
      rw [← hpar, ok.wf.ancAt_ancAt hb (by omega) (by omega)] at this
      exact this

/-- Box 8 is in list 3 of box 5 and box 5 in list 4 of box 8. -/
example : ∃ trav, buildTraversal Ex.exInput = .ok trav ∧ 5 ∈ trav.targetBoxes ∧
    8 ∈ (trav.list3.getD 3 ⟨[], []⟩).rowFor (trav.list3Targets.getD 3 []) 5 ∧
    5 ∈ trav.list4.rowFor trav.ttpBoxes 8 :=
  ⟨_, rfl, by decide +kernel⟩

/-- **C12.** The role lists hold exactly the boxes with the respective flag (and mask bit), in
increasing order without repetition. -/
theorem C12_role_lists (h : buildTraversal inp = .ok trav) :
    let t := inp.tree
    let srcOk := fun b => (inp.srcMask.getD fun _ => true) b = true
    let parOk := fun b => (inp.srcParentMask.getD fun _ => true) b = true
    (trav.sourceBoxes.Pairwise (· < ·) ∧
      ∀ b, b ∈ trav.sourceBoxes ↔ b < t.nboxes ∧ t.isSource b = true ∧ srcOk b) ∧
    (trav.sourceParentBoxes.Pairwise (· < ·) ∧
      ∀ b, b ∈ trav.sourceParentBoxes ↔ b < t.nboxes ∧ t.hasSourceChild b = true ∧ parOk b) ∧
    (trav.targetBoxes.Pairwise (· < ·) ∧
      ∀ b, b ∈ trav.targetBoxes ↔ b < t.nboxes ∧
        (if inp.sourcesAreTargets then t.isSource b = true ∧ srcOk b else t.isTarget b = true)) ∧
    (trav.ttpBoxes.Pairwise (· < ·) ∧
      ∀ b, b ∈ trav.ttpBoxes ↔
        b < t.nboxes ∧ (t.isTarget b = true ∨ t.hasTargetChild b = true)) := by
  have F := travFields h
  have hp : ∀ f : Nat → Bool, ((List.range inp.tree.nboxes).filter f).Pairwise (· < ·) :=
    fun f => List.pairwise_lt_range.filter f
  refine ⟨⟨?_, ?_⟩, ⟨?_, ?_⟩, ⟨?_, ?_⟩, ⟨?_, ?_⟩⟩
  · rw [F.sourceBoxes]; exact hp _
  · intro b; rw [F.sourceBoxes]; exact mem_selSource _ _ _
  · rw [F.sourceParentBoxes]; exact hp _
  · intro b; rw [F.sourceParentBoxes]; exact mem_selSourceParent _ _ _
  · rw [F.targetBoxes]; split <;> exact hp _
  · intro b; rw [F.targetBoxes]
    split
    · exact mem_selSource _ _ _
    · exact mem_selTarget _ _
  · rw [F.ttpBoxes]; exact hp _
  · intro b; rw [F.ttpBoxes]; exact mem_selTtp _ _

/-- Role lists of the example. -/
example : ∃ trav, buildTraversal Ex.exInput = .ok trav ∧ trav.sourceBoxes = [3, 4, 5, 7, 8] ∧
    trav.sourceParentBoxes = [0, 1, 2, 6] ∧ trav.ttpBoxes.length = 9 :=
  ⟨_, rfl, by decide +kernel⟩

end Boxtree
