import Verif.Lemmas.Visualization
import Verif.Examples

/-!
# C85: exporting and plotting trees

`get_tikz_for_tree` names two macros per box by the Roman numeral of the box number, because names of
TeX macros consist of letters only; `draw_box_lists` colors the boxes on the interaction lists of a box.
-/

namespace Boxtree.Vis

open Boxtree.Build

/-- **C85 (names).** For every box number below 4000 the numeral, computed with division in double
precision, exists, consists of letters, and is read as that number. -/
theorem C85_roman_value (n : Nat) (hn : n < 4000) :
    ∃ s, intToRoman (roundEven 53) n = .ok s ∧ romanValue s = n ∧ ∀ c ∈ s, c.isAlpha = true := by
  unfold intToRoman
  by_cases h0 : n = 0
  · subst h0
    exact ⟨['Z'], by simp, by decide, by decide⟩
  · rw [if_neg (by exact_mod_cast h0), if_neg (by push Not; omega)]
    have he := romanLoop_eq numerals (by decide) n hn
    refine ⟨_, rfl, ?_, ?_⟩
    · rw [he]; exact romanValue_exactLoop n
    · rw [he]
      intro c hc
      obtain ⟨p, hp, hc⟩ := exactLoop_chars numerals n c hc
      have hal : ∀ p ∈ numerals, ∀ c ∈ p.2, c.isAlpha = true := by decide
      exact hal p hp c hc

/-- **C85 (names).** Different numbers get different names. -/
theorem C85_roman_injective (m n : Nat) (s : List Char)
    (hm : intToRoman (roundEven 53) m = .ok s) (hn : intToRoman (roundEven 53) n = .ok s) :
    m = n := by
  have hlt : ∀ k : Nat, intToRoman (roundEven 53) k = .ok s → k < 4000 := by
    intro k hk
    by_contra hge
    unfold intToRoman at hk
    rw [if_neg (by omega), if_pos (by push Not; omega)] at hk
    cases hk
  obtain ⟨s1, h1, v1, -⟩ := C85_roman_value m (hlt m hm)
  obtain ⟨s2, h2, v2, -⟩ := C85_roman_value n (hlt n hn)
  rw [hm] at h1; rw [hn] at h2
  have e1 := Except.ok.inj h1; have e2 := Except.ok.inj h2
  rw [← e1] at v1; rw [← e2] at v2
  have : (m : ℤ) = n := v1.symm.trans v2
  exact_mod_cast this

/-- Not vacuous: two names. -/
example : romanLoop id numerals 1994 = "MCMXCIV".toList ∧ romanLoop id numerals 3888 = "MMMDCCCLXXXVIII".toList ∧
    romanValue "MCMXCIV".toList = 1994 := by decide +kernel

theorem extentLow_eq (t : BoxTree) (b i : Nat) : extentLow t b i = t.lo b i := by
  unfold extentLow boxSize BoxTree.lo BoxTree.rad
  rw [pow_succ, div_pow, one_pow]
  field_simp

theorem extentHigh_eq (t : BoxTree) (b i : Nat) : extentHigh t b i = t.hi b i := by
  unfold extentHigh
  rw [extentLow_eq]
  unfold boxSize BoxTree.lo BoxTree.hi BoxTree.rad
  rw [pow_succ, div_pow, one_pow]
  field_simp
  ring

/-- **C85 (TikZ export, partial: trees of at most 4000 boxes).** For every tree in two dimensions with
at most 4000 boxes the export has one entry per box, in order; it holds the corners, the center, the side length and the
level of that box; and no two of the macros have the same name.  Missing: larger trees, see
`C85_tikz_large`. -/
theorem C85_tikz_partial (t : BoxTree) (hd : t.dims = 2) (hn : t.nboxes ≤ 4000) :
    ∃ out, getTikz (roundEven 53) t = .ok out ∧ out.length = t.nboxes ∧
      (∀ (b : Nat) (e : TikzBox), out[b]? = some e →
        e.low = (t.lo b 0, t.lo b 1) ∧ e.high = (t.hi b 0, t.hi b 1) ∧
        e.center = (t.center b 0, t.center b 1) ∧ e.size = t.width b ∧ e.level = t.level b) ∧
      (out.map (fun e => e.sizeMacro) ++ out.map (fun e => e.levelMacro)).Nodup ∧
      (∀ e ∈ out, (∀ c ∈ e.sizeMacro, c.isAlpha = true) ∧ ∀ c ∈ e.levelMacro, c.isAlpha = true) := by
  have key : ∀ b : Nat, ∃ s, b < t.nboxes → intToRoman (roundEven 53) b = .ok s ∧
      ∀ c ∈ s, c.isAlpha = true := by
    intro b
    by_cases hb : b < t.nboxes
    · obtain ⟨s, h, -, h'⟩ := C85_roman_value b (by omega)
      exact ⟨s, fun _ => ⟨h, h'⟩⟩
    · exact ⟨[], fun h => absurd h hb⟩
  choose name hname using key
  let g : Nat → TikzBox := fun b => {
    low := (extentLow t b 0, extentLow t b 1)
    high := (extentHigh t b 0, extentHigh t b 1)
    center := (t.center b 0, t.center b 1)
    sizeMacro := "boxsize".toList ++ name b
    size := extentHigh t b 0 - extentLow t b 0
    levelMacro := "boxlevel".toList ++ name b
    level := t.level b }
  have hinj : ∀ x ∈ List.range t.nboxes, ∀ y ∈ List.range t.nboxes, name x = name y → x = y := by
    intro x hx y hy h
    have h1 := (hname x (by simpa using hx)).1
    have h2 := (hname y (by simpa using hy)).1
    rw [h] at h1
    exact C85_roman_injective x y _ h1 h2
  refine ⟨(List.range t.nboxes).map g, ?_, by simp, ?_, ?_, ?_⟩
  · unfold getTikz
    rw [if_neg (by omega)]
    refine mapM_ok _ g _ fun b hb => ?_
    unfold tikzBox
    rw [(hname b (by simpa using hb)).1]
    rfl
  · intro b e he
    rw [List.getElem?_map, Option.map_eq_some_iff] at he
    obtain ⟨b', hb', rfl⟩ := he
    obtain ⟨hb, rfl⟩ := List.getElem?_eq_some_iff.1 hb'
    rw [List.getElem_range]
    refine ⟨?_, ?_, rfl, ?_, rfl⟩
    · simp only [g, extentLow_eq]
    · simp only [g, extentHigh_eq]
    · simp only [g, extentLow_eq, extentHigh_eq]
      unfold BoxTree.hi BoxTree.lo BoxTree.width; ring
  · rw [List.nodup_append]
    refine ⟨?_, ?_, ?_⟩
    · rw [List.map_map]
      refine List.Nodup.map_on (fun x hx y hy h => hinj x hx y hy ?_) List.nodup_range
      exact List.append_cancel_left h
    · rw [List.map_map]
      refine List.Nodup.map_on (fun x hx y hy h => hinj x hx y hy ?_) List.nodup_range
      exact List.append_cancel_left h
    · intro a ha c hc h
      simp only [List.map_map, List.mem_map, Function.comp, g] at ha hc
      obtain ⟨x, -, rfl⟩ := ha
      obtain ⟨y, -, rfl⟩ := hc
      have := congrArg (fun l => l[3]?) h
      simp at this
  · intro e he
    obtain ⟨b, hb, rfl⟩ := List.mem_map.1 he
    have h := (hname b (by simpa using hb)).2
    have hal : (∀ c ∈ "boxsize".toList, c.isAlpha = true) ∧
        ∀ c ∈ "boxlevel".toList, c.isAlpha = true := by decide
    exact ⟨fun c hc => (List.mem_append.1 hc).elim (hal.1 c) (h c),
      fun c hc => (List.mem_append.1 hc).elim (hal.2 c) (h c)⟩

/-- **C85 (TikZ export, negative).** A tree with more than 4000 boxes cannot be exported. -/
theorem C85_tikz_large (fl : ℚ → ℚ) (t : BoxTree) (hd : t.dims = 2) (hn : 4000 < t.nboxes) :
    ∃ e, getTikz fl t = .error e := by
  cases h : getTikz fl t with
  | error e => exact ⟨e, rfl⟩
  | ok out =>
    exfalso
    unfold getTikz at h
    rw [if_neg (by omega)] at h
    have : ∀ (l : List Nat) out, l.mapM (tikzBox fl t) = .ok out → 4000 ∉ l := by
      intro l
      induction l with
      | nil => simp
      | cons a l ih =>
        intro out ho
        rw [List.mapM_cons] at ho
        cases h1 : tikzBox fl t a with
        | error e => rw [h1] at ho; cases ho
        | ok x =>
          cases h2 : l.mapM (tikzBox fl t) with
          | error e => rw [h1, h2] at ho; cases ho
          | ok y =>
            rw [List.mem_cons, not_or]
            refine ⟨?_, ih y h2⟩
            rintro rfl
            unfold tikzBox intToRoman at h1
            rw [if_neg (by norm_num), if_pos (by norm_num)] at h1
            cases h1
    exact this _ _ h (by simpa using hn)

/-- **C85 (dimensions).** Trees that are not two-dimensional are refused. -/
theorem C85_only_two_dimensions (fl : ℚ → ℚ) (t : BoxTree) (hd : t.dims ≠ 2) :
    getTikz fl t = .error .notImplemented ∧ drawTree t = .error .notImplemented :=
  ⟨if_pos hd, if_pos hd⟩

/-- **C85 (outline).** Drawn with shrink factor `s`, a box is the closed rectangle about its center
whose sides are those of the box times `1 - s`; the whole tree is drawn as its boxes. -/
theorem C85_box_path (t : BoxTree) (b : Nat) (s : ℚ) :
    let r := (1 - s) * t.rad (t.level b)
    boxPath t b s = [(t.center b 0 - r, t.center b 1 - r), (t.center b 0 + r, t.center b 1 - r),
      (t.center b 0 + r, t.center b 1 + r), (t.center b 0 - r, t.center b 1 + r),
      (t.center b 0 - r, t.center b 1 - r)] := by
  intro r
  have hl : ∀ i, (if s ≠ 0 then extentLow t b i +
      (1 / 2 * (extentLow t b i + extentHigh t b i) - extentLow t b i) * s else extentLow t b i) =
      t.center b i - r := by
    intro i
    split
    · rw [extentLow_eq, extentHigh_eq]; simp only [BoxTree.lo, BoxTree.hi, r]; ring
    · rename_i h
      push Not at h
      rw [extentLow_eq]; simp only [BoxTree.lo, r, h]; ring
  have hh : ∀ i, (if s ≠ 0 then extentHigh t b i +
      (1 / 2 * (extentLow t b i + extentHigh t b i) - extentHigh t b i) * s else extentHigh t b i) =
      t.center b i + r := by
    intro i
    split
    · rw [extentLow_eq, extentHigh_eq]; simp only [BoxTree.lo, BoxTree.hi, r]; ring
    · rename_i h
      push Not at h
      rw [extentHigh_eq]; simp only [BoxTree.hi, r, h]; ring
  unfold boxPath
  simp only [hl, hh]

variable {inp : TravInput} {trav : Traversal}

/-- **C85 (interaction lists).** For every traversal and every box of its tree, `draw_box_lists`
succeeds; the box itself is red; the boxes filled in green, blue, orange and purple are exactly those on
its lists 1, 2, 3 and 4, and the hatched ones those on its close lists.  If the box has no list of some
kind, it is outlined, always in blue (finding mm: not in the color of that list). -/
theorem C85_draw_box_lists (ok : inp.OK) (h : buildTraversal inp = .ok trav) (b : Nat) :
    ∃ marks, drawBoxLists inp.tree.nlevels trav b = .ok marks ∧
      filledBoxes .red false marks = [b] ∧
      filledBoxes .green false marks = trav.list1.rowFor trav.targetBoxes b ∧
      filledBoxes .blue false marks = trav.list2.rowFor trav.ttpBoxes b ∧
      filledBoxes .orange false marks = ((List.range inp.tree.nlevels).map fun l =>
        (trav.list3.getD l ⟨[], []⟩).rowFor (trav.list3Targets.getD l []) b).flatten ∧
      filledBoxes .orange true marks = closeRow trav.list3Close trav.targetBoxes b ∧
      filledBoxes .purple false marks = trav.list4.rowFor trav.ttpBoxes b ∧
      filledBoxes .purple true marks = closeRow trav.list4Close trav.targetBoxes b ∧
      (∀ m ∈ marks, m.filled = false → m = ⟨b, .blue, false, false⟩) ∧
      (b ∉ trav.targetBoxes ∨ b ∉ trav.ttpBoxes → ⟨b, .blue, false, false⟩ ∈ marks) := by
  have F := travFields h
  have h1 : drawBoxList b trav.list1 (some trav.targetBoxes) .green false = .ok (listMarks
      (trav.list1.rowFor trav.targetBoxes b) trav.targetBoxes b .green false) := by
    rw [F.list1, drawBoxList_eq _ F.nodup_target]
  have h2 : drawBoxList b trav.list2 (some trav.ttpBoxes) .blue false = .ok (listMarks
      (trav.list2.rowFor trav.ttpBoxes b) trav.ttpBoxes b .blue false) := by
    rw [F.list2, drawBoxList_eq _ F.nodup_ttp]
  have h4 : drawBoxList b trav.list4 (some trav.ttpBoxes) .purple false = .ok (listMarks
      (trav.list4.rowFor trav.ttpBoxes b) trav.ttpBoxes b .purple false) := by
    rw [F.list4, drawBoxList_eq _ F.nodup_ttp]
  have h3 : (List.range inp.tree.nlevels).mapM (drawList3 trav b) =
      .ok ((List.range inp.tree.nlevels).map fun l => listMarks
        ((trav.list3.getD l ⟨[], []⟩).rowFor (trav.list3Targets.getD l []) b)
        (trav.list3Targets.getD l []) b .orange false) := by
    refine mapM_ok _ _ _ fun l hl => ?_
    have hl' : l < inp.tree.nlevels := by simpa using hl
    unfold drawList3
    rw [F.list3, F.list3Targets]
    rw [List.getD_eq_getElem _ _ (by simpa using hl'), List.getD_eq_getElem _ _ (by simpa using hl')]
    simp only [List.getElem?_map, List.getElem?_range hl', Option.map_some, List.getElem_map,
      List.getElem_range]
    have e1 := nonemptyRows_map trav.targetBoxes fun b =>
      sepPart (list3Kernel inp.tree inp.params trav.slnws.row (l : Int) b)
    have e2 := nonemptyIndices_map trav.targetBoxes fun b =>
      sepPart (list3Kernel inp.tree inp.params trav.slnws.row (l : Int) b)
    rw [e1, e2, drawBoxList_eq _ (F.nodup_target.filter _)]
  have hcl : ∀ (c : Color) (o : Option BuiltList), (∀ bl, o = some bl →
      ∃ f, bl = buildLists (trav.targetBoxes.map f)) →
      ∃ ms, drawClose b o trav.targetBoxes c = .ok ms ∧ (∀ c' h', filledBoxes c' h' ms =
        if c = c' ∧ true = h' then closeRow o trav.targetBoxes b else []) ∧
        (∀ m ∈ ms, m.filled = false → m = ⟨b, .blue, false, false⟩) := by
    intro c o ho
    cases o with
    | none => exact ⟨[], rfl, by simp [filledBoxes, closeRow], by simp⟩
    | some bl =>
      obtain ⟨f, rfl⟩ := ho bl rfl
      refine ⟨_, by rw [drawClose]; exact drawBoxList_eq _ F.nodup_target f b c true, ?_, ?_⟩
      · intro c' h'
        rw [filled_listMarks _ _ _ _ _ _ _ (rowFor_not_mem _ _ _)]; rfl
      · exact outline_listMarks _ _ _ _ _
  obtain ⟨m3c, e3c, f3c, o3c⟩ := hcl .orange trav.list3Close (by
    intro bl hbl
    rw [F.list3Close] at hbl
    split at hbl
    · exact ⟨_, (Option.some.inj hbl).symm⟩
    · cases hbl)
  obtain ⟨m4c, e4c, f4c, o4c⟩ := hcl .purple trav.list4Close (by
    intro bl hbl
    by_cases he : inp.targetsHaveExtent = true
    · obtain ⟨bl', e, e', -⟩ := F.row4Close ok he
      rw [e] at hbl
      exact ⟨_, (Option.some.inj hbl).symm.trans e'⟩
    · rw [F.list4Close, if_neg he] at hbl; cases hbl)
  refine ⟨_, by unfold drawBoxLists; rw [h1, h2, h3, e3c, h4, e4c]; rfl, ?_⟩
  have hf1 := fun c' h' => filled_listMarks (trav.list1.rowFor trav.targetBoxes b) trav.targetBoxes b
    .green c' false h' (rowFor_not_mem _ _ _)
  have hf2 := fun c' h' => filled_listMarks (trav.list2.rowFor trav.ttpBoxes b) trav.ttpBoxes b
    .blue c' false h' (rowFor_not_mem _ _ _)
  have hf4 := fun c' h' => filled_listMarks (trav.list4.rowFor trav.ttpBoxes b) trav.ttpBoxes b
    .purple c' false h' (rowFor_not_mem _ _ _)
  have hf3 := fun (l : Nat) c' h' => filled_listMarks
    ((trav.list3.getD l ⟨[], []⟩).rowFor (trav.list3Targets.getD l []) b)
    (trav.list3Targets.getD l []) b .orange c' false h' (rowFor_not_mem _ _ _)
  have hall : ∀ c' h', filledBoxes c' h' (⟨b, .red, false, true⟩ ::
      (listMarks (trav.list1.rowFor trav.targetBoxes b) trav.targetBoxes b .green false ++
        listMarks (trav.list2.rowFor trav.ttpBoxes b) trav.ttpBoxes b .blue false ++
        ((List.range inp.tree.nlevels).map fun l => listMarks
          ((trav.list3.getD l ⟨[], []⟩).rowFor (trav.list3Targets.getD l []) b)
          (trav.list3Targets.getD l []) b .orange false).flatten ++ m3c ++
        listMarks (trav.list4.rowFor trav.ttpBoxes b) trav.ttpBoxes b .purple false ++ m4c)) =
      (if Color.red = c' ∧ false = h' then [b] else []) ++
      ((if Color.green = c' ∧ false = h' then trav.list1.rowFor trav.targetBoxes b else []) ++
      (if Color.blue = c' ∧ false = h' then trav.list2.rowFor trav.ttpBoxes b else []) ++
      ((List.range inp.tree.nlevels).map fun l => if Color.orange = c' ∧ false = h' then
        (trav.list3.getD l ⟨[], []⟩).rowFor (trav.list3Targets.getD l []) b else []).flatten ++
      (if Color.orange = c' ∧ true = h' then closeRow trav.list3Close trav.targetBoxes b else []) ++
      (if Color.purple = c' ∧ false = h' then trav.list4.rowFor trav.ttpBoxes b else []) ++
      (if Color.purple = c' ∧ true = h' then closeRow trav.list4Close trav.targetBoxes b else [])) := by
    intro c' h'
    rw [← List.singleton_append, filledBoxes_append]
    have hr := filled_map [b] .red c' false h'
    simp only [List.map_cons, List.map_nil] at hr
    simp only [filledBoxes_append, hr, hf1, hf2, hf4, f3c, f4c, filledBoxes_flatten, List.map_map,
      Function.comp_def, hf3]
  refine ⟨?_, ?_, ?_, ?_, ?_, ?_, ?_, ?_, ?_⟩
  all_goals first | (rw [hall]; simp) | skip
  swap
  · intro hb
    simp only [List.mem_cons, List.mem_append]
    rcases hb with hb | hb
    · exact Or.inr (Or.inl (Or.inl (Or.inl (Or.inl (Or.inl (by simp [listMarks, hb]))))))
    · exact Or.inr (Or.inl (Or.inl (Or.inl (Or.inl (Or.inr (by simp [listMarks, hb]))))))
  intro m hm hfil
  simp only [List.mem_cons, List.mem_append, List.mem_flatten, List.mem_map] at hm
  rcases hm with rfl | ((((hm | hm) | ⟨x, ⟨l, -, rfl⟩, hm⟩) | hm) | hm) | hm
  · cases hfil
  · exact outline_listMarks _ _ _ _ _ m hm hfil
  · exact outline_listMarks _ _ _ _ _ m hm hfil
  · exact outline_listMarks _ _ _ _ _ m hm hfil
  · exact o3c m hm hfil
  · exact outline_listMarks _ _ _ _ _ m hm hfil
  · exact o4c m hm hfil

/-- **C85 (neighbours).** `draw_same_level_non_well_sep_boxes` colors the box red and its list of
neighbours green. -/
theorem C85_draw_neighbours (h : buildTraversal inp = .ok trav) (b : Nat)
    (hb : b < inp.tree.nboxes) :
    ∃ marks, drawNeighbours trav b = .ok marks ∧ filledBoxes .red false marks = [b] ∧
      filledBoxes .green false marks = trav.slnws.row b ∧ ∀ m ∈ marks, m.filled = true := by
  have F := travFields h
  have hd : drawBoxList b trav.slnws none .green false =
      .ok ((trav.slnws.row b).map fun j => ⟨j, .green, false, true⟩) := by
    rw [F.slnws, row_build _ b (by simpa using hb)]
    exact drawRow_build _ b (by simpa using hb) .green false
  refine ⟨_, by unfold drawNeighbours; rw [hd]; rfl, ?_, ?_, ?_⟩
  · have := filled_map (trav.slnws.row b) .green .red false false
    rw [← List.singleton_append, filledBoxes_append, this]
    rfl
  · have := filled_map (trav.slnws.row b) .green .green false false
    rw [← List.singleton_append, filledBoxes_append, this]
    simp [filledBoxes]
  · intro m hm
    rcases List.mem_cons.1 hm with rfl | hm
    · rfl
    · obtain ⟨j, -, rfl⟩ := List.mem_map.1 hm; rfl

/-- Not vacuous: a box with entries on its lists 1, 2 and 3; one with entries on its list 4; one that has
no lists; and, with extended targets, one with an entry on a close list. -/
example : ∃ trav, buildTraversal _root_.Boxtree.Ex.exInput = .ok trav ∧
    drawBoxLists _root_.Boxtree.Ex.exInput.tree.nlevels trav 5 =
      .ok [⟨5, .red, false, true⟩, ⟨4, .green, false, true⟩, ⟨5, .green, false, true⟩,
        ⟨7, .green, false, true⟩, ⟨3, .blue, false, true⟩, ⟨5, .blue, false, false⟩,
        ⟨5, .blue, false, false⟩, ⟨5, .blue, false, false⟩, ⟨8, .orange, false, true⟩] := by
  refine ⟨_, rfl, ?_⟩
  decide +kernel

example : ∃ trav, buildTraversal _root_.Boxtree.Ex.exInputExt = .ok trav ∧
    drawBoxLists _root_.Boxtree.Ex.exInputExt.tree.nlevels trav 8 =
      .ok [⟨8, .red, false, true⟩, ⟨7, .green, false, true⟩, ⟨8, .green, false, true⟩,
        ⟨8, .blue, false, false⟩, ⟨8, .blue, false, false⟩, ⟨8, .blue, false, false⟩,
        ⟨8, .blue, false, false⟩, ⟨4, .purple, false, true⟩, ⟨5, .purple, true, true⟩] := by
  refine ⟨_, rfl, ?_⟩
  decide +kernel

example : _root_.Boxtree.Ex.exInput.tree.dims ≠ 2 ∧
    { _root_.Boxtree.Ex.exInput.tree with dims := 2 }.nboxes ≤ 4000 := by decide

end Boxtree.Vis
