import Verif.Lemmas.Coarsest
import Verif.Props.Splits
import Verif.Props.BuiltTree

/-!
# The tree is the coarsest one possible
-/

namespace Boxtree.Build
open BoxTree

section
variable {inp : Input}

theorem Admissible.sameRoot {t' : BoxTree} (hA : Admissible inp t') (ok : inp.OK) {L : Nat} {s : State}
    (hI : Inv inp.params (L + 1) s) : SameRoot (toTree inp.params (L + 1) s) t' where
  dims := hA.dims
  extent := hA.extent
  center := fun a ha => by
    have h0 : 0 < s.used 0 := by rw [hI.used_zero]; omega
    have h1 := (center_toTree hI h0 a).trans (hI.root_center a)
    have h2 : (toTree inp.params (L + 1) s).center 0 a = inp.lo a + inp.ext a / 2 := h1
    rw [h2, hA.center a ha, ok.cube a ha]

/-- A box of the builder that has to be split is split in every admissible tree. -/
theorem Needs.split {t' : BoxTree} (hA : Admissible inp t') (ok : inp.Placed) (hx : inp.arith = .exact)
    {L : Nat} {s : State} (hI : Inv inp.params (L + 1) s) {l k : Nat} (hN : Needed inp.params s l k) :
    ∃ b' < t'.nboxes, t'.level b' = l ∧ (∀ a < inp.dims, t'.center b' a = s.center l k a) ∧
      ∃ m < t'.nch, t'.child m b' ≠ 0 := by
  have hpos : 0 < inp.params.rootExtent := ok.toOK.ext_pos
  have hw := hI.toTree_wf hpos
  have hs := hA.sameRoot ok.toOK hI
  induction hN with
  | @heavy l k hk hl =>
    have hlev := level_toTree hI hk
    have hcase := cell_cases hw hA.wf hs hA.all_or_none (id_lt s.used (hI.used_level hk) hk)
    rw [hlev] at hcase
    simp only [center_toTree hI hk] at hcase
    rcases hcase with ⟨f, hf, hlf, hin⟩ | h
    swap
    · exact h
    exfalso
    obtain ⟨ps, h1, h2, h3⟩ := load_list (P := inp.params) (par := s.parent) l k
    have := hA.light f hf ps h1 fun p hp => by
      obtain ⟨p1, p2, _⟩ := (h2 p).1 hp
      refine ⟨p1, fun a ha => ?_⟩
      have ha' : a < inp.dims := hA.dims ▸ ha
      have h4 := ok.in_cell ha' p1 hx l
      rw [← ok.path_center ha' p1 hx hI l k hk p2] at h4
      have h5 := hin a ha'
      have e1 : (toTree inp.params (L + 1) s).rad l = inp.ext 0 / 2 ^ (l + 1) := rfl
      rw [e1] at h5
      rw [hs.rad]
      rw [abs_le] at h5
      constructor <;> linarith [h4.1, h4.2, h5.1, h5.2]
    have h4 : inp.maxWeight < load inp.params s.parent l k (wMove inp.params l) := hl
    have h5 : (ps.map inp.weight).sum = load inp.params s.parent l k (wMove inp.params l) := h3
    omega
  | @near u k k' hr hk hk' hn _ ih =>
    obtain ⟨c', c1, c2, c3, c4⟩ := ih
    have ht := Near.touch hI hpos hk' hk hn
    have h := split_of_touch hw hA.wf hs hA.all_or_none (hA.balanced hr)
      (b := levelStart s.used u + k) (c := levelStart s.used (u + 1) + k')
      (id_lt s.used (hI.used_level hk) hk)
      (by rw [level_toTree hI hk, level_toTree hI hk'])
      (fun a ha => by
        rw [center_toTree hI hk, center_toTree hI hk', level_toTree hI hk, level_toTree hI hk',
          rad_toTree, rad_toTree]
        exact ht a ha)
      c1 (by rw [level_toTree hI hk']; exact c2)
      (fun a ha => by rw [center_toTree hI hk']; exact c3 a ha) c4
    rw [level_toTree hI hk] at h
    simp only [center_toTree hI hk] at h
    exact h

/-- The particles in the cube of a box belong into it. -/
theorem path_of_cell (he : inp.haveExtent = false) (ok : inp.Placed) (hx : inp.arith = .exact)
    {L : Nat} {s : State} (hI : Inv inp.params (L + 1) s) {p : Nat} (hp : p < inp.n) :
    ∀ l k, k < s.used l →
      (toTree inp.params (L + 1) s).InCell (levelStart s.used l + k) (fun a => inp.x a p) →
      PathOK inp.params s.parent p l k := by
  have hw := hI.toTree_wf (show 0 < inp.params.rootExtent from ok.toOK.ext_pos)
  intro l
  induction l with
  | zero => intro k _ _; trivial
  | succ l ih =>
    intro k hk hcell
    obtain ⟨p1, p2, _⟩ := hI.parent_ok l k hk
    have h1 := hw.inCell_parent (id_lt s.used (hI.used_level hk) hk) hcell
    rw [parent_toTree hI hk, if_neg (by omega), Nat.add_sub_cancel] at h1
    have hpath := ih _ p1 h1
    obtain ⟨m, hm⟩ := Option.ne_none_iff_exists'.1 (Input.morton_moves he p l)
    have hlt := Input.mortOK inp p l m hm
    obtain ⟨_, base, hd, hle, h4⟩ := hI.children l _ p2
    obtain ⟨h5, h6, _⟩ := h4 m hlt
    have hmod : (base + m) % inp.params.nch = m := by
      obtain ⟨q, hq⟩ := hd
      rw [hq, Nat.mul_add_mod, Nat.mod_eq_of_lt hlt]
    have hu : base + m < s.used (l + 1) := by omega
    have hpc : PathOK inp.params s.parent p (l + 1) (base + m) :=
      ⟨by rw [hmod]; exact hm, by rw [h6]; exact hpath⟩
    have hin : (toTree inp.params (L + 1) s).InCell (levelStart s.used (l + 1) + (base + m))
        (fun a => inp.x a p) := by
      intro a ha
      have h4 := ok.in_cell ha hp hx (l + 1)
      rw [← ok.path_center ha hp hx hI (l + 1) _ hu hpc] at h4
      rw [center_toTree hI hu, level_toTree hI hu]
      exact h4
    have := hw.inCell_unique (id_lt s.used (hI.used_level hk) hk) (id_lt s.used (hI.used_level hu) hu)
      (level_toTree hI hk) (level_toTree hI hu) hcell hin
    obtain rfl : k = base + m := by omega
    exact hpc

end

/-- **C76.** For points and exact arithmetic: the tree of an adaptive build is the coarsest one.  Every
box that it splits is split in every admissible tree: in every tree over the same bounding box whose
leaves are not too heavy and, if level restriction is asked for, differ by at most one level where they
touch. -/
theorem C76_coarsest (inp : Input) (ok : inp.Placed) (hx : inp.arith = .exact) (hw : inp.WeightsOK)
    (ha : inp.adaptive = true) (he : inp.haveExtent = false) (t : Built) (h : inp.build = .ok t)
    (t' : BoxTree) (hA : Admissible inp t') : SplitsWithin t.tree t' := by
  obtain ⟨M, hF⟩ := Input.fine_exact ok.toOK (by rw [hx]; rfl) t.tree.nlevels
  obtain ⟨L, s, rfl, hf, hlev⟩ := Input.build_fin ok.toOK (.inr he) h
  intro b hb hch
  obtain ⟨l, k, hk, rfl⟩ := hf.exists_nid hb
  have hsplit : s.hasCh l k = true := by
    obtain ⟨m, _, hm⟩ := hch
    obtain ⟨c, h1, _⟩ := hf.fin_child hk hm
    by_contra hne
    have := hf.inv.child_some m l k (.inl (by simpa using hne))
    rw [this] at h1
    cases h1
  have hN := buildLevels_splitOK (hc := s.hasCh) (o := s.oversize) hw.wok ha ok.toOK.ext_pos hw.levels
    hlev (fun hr n h1 h2 => hF.adjOK ok.toOK h1 h2) hf.inv l k hsplit
  obtain ⟨b', h1, h2, h3, h4⟩ := hN.split hA ok hx hf.inv
  have hlb : (finish inp.params inp.cloud inp.skipPrune (fun l => s.used l + inp.pad l) L s).tree.level
      (nid inp.skipPrune (fun l => s.used l + inp.pad l) L s l k) = l := hf.fin_level hk
  have hcb : (finish inp.params inp.cloud inp.skipPrune (fun l => s.used l + inp.pad l) L s).tree.center
      (nid inp.skipPrune (fun l => s.used l + inp.pad l) L s l k) = s.center l k := hf.fin_center hk
  refine ⟨b', h1, by rw [hlb]; exact h2, fun a ha => ?_, h4⟩
  rw [hcb]
  exact h3 a ha

/-- **C76**: without pruning, the tree is itself admissible, so that it is the least of these. -/
theorem C76_admissible (inp : Input) (ok : inp.Placed) (hx : inp.arith = .exact) (hw : inp.WeightsOK)
    (ha : inp.adaptive = true) (he : inp.haveExtent = false) (hs : inp.skipPrune = true) (t : Built)
    (h : inp.build = .ok t) : Admissible inp t.tree := by
  have hx' : inp.arith.fl = id := by rw [hx]; rfl
  have hbal := fun hr => C27_two_to_one_partial inp ok.toOK hx' hr he t h
  have hlight := C22_leaf_weight_points inp ok.toOK hw ha he t h
  obtain ⟨hwf, _, _, _, _, hroot⟩ := C52_built_tree_wf inp ok.toOK t h
  obtain ⟨L, s, rfl, hf, hlev⟩ := Input.build_fin ok.toOK (.inr he) h
  have hcenter : ∀ {l k}, Kept inp.skipPrune s l k →
      (finish inp.params inp.cloud inp.skipPrune (fun l => s.used l + inp.pad l) L s).tree.center
      (nid inp.skipPrune (fun l => s.used l + inp.pad l) L s l k) = s.center l k := fun hk =>
    hf.fin_center hk
  have hlevel : ∀ {l k}, Kept inp.skipPrune s l k →
      (finish inp.params inp.cloud inp.skipPrune (fun l => s.used l + inp.pad l) L s).tree.level
      (nid inp.skipPrune (fun l => s.used l + inp.pad l) L s l k) = l := fun hk => hf.fin_level hk
  refine ⟨hwf, rfl, rfl, ?_, ?_, ?_, fun hr b c hb hc ht => (hbal hr b c hb hc ht).1⟩
  · intro a hax
    rw [hroot a, ok.toOK.cube a hax]
  · intro b hb
    obtain ⟨l, k, hk, rfl⟩ := hf.exists_nid hb
    cases hsp : s.hasCh l k with
    | false =>
      left
      intro m _
      exact hf.fin_child_none hk (hf.inv.child_some m l k (.inl hsp))
    | true =>
      right
      intro m hm
      obtain ⟨_, base, _, hle, h4⟩ := hf.inv.children l k hsp
      have hm' : m < inp.params.nch := hm
      have hkc : Kept inp.skipPrune s (l + 1) (base + m) := ⟨by omega, .inl hs⟩
      have h7 : (finish inp.params inp.cloud inp.skipPrune (fun l => s.used l + inp.pad l) L s).tree.child
        m (nid inp.skipPrune (fun l => s.used l + inp.pad l) L s l k) =
          nid inp.skipPrune (fun l => s.used l + inp.pad l) L s (l + 1) (base + m) :=
        hf.fin_child_kept hk (h4 m hm).1 hkc
      rw [h7]
      exact hf.nid_ne_zero hkc
  · intro b hb ps hn hps
    refine hlight b hb.1 hb.2 ps hn fun p hp => ?_
    obtain ⟨p1, p2⟩ := hps p hp
    obtain ⟨l, k, hk, rfl⟩ := hf.exists_nid hb.1
    refine path_holds hf hk p1 (path_of_cell he ok hx hf.inv p1 l k hk.1 fun a hax => ?_)
    have h1 := p2 a hax
    rw [hcenter hk, hlevel hk] at h1
    rw [center_toTree hf.inv hk.1, level_toTree hf.inv hk.1]
    exact h1

section
variable {t t' : BoxTree}

theorem box_of_splits (hw : t.WF) (hw' : t'.WF) (hs : SameRoot t t')
    (hfull : ∀ b < t'.nboxes, (∀ m < t'.nch, t'.child m b = 0) ∨ ∀ m < t'.nch, t'.child m b ≠ 0)
    (h : SplitsWithin t t') {b : Nat} (hb : b < t.nboxes) :
    ∃ b' < t'.nboxes, t'.level b' = t.level b ∧ ∀ a < t.dims, t'.center b' a = t.center b a := by
  by_cases h0 : b = 0
  · subst h0
    exact ⟨0, hw'.nboxes_pos, by rw [hw'.level_root, hw.level_root], hs.center⟩
  obtain ⟨m, hm, hc⟩ := hw.parent_child b hb h0
  have hp := hw.parent_lt b hb
  obtain ⟨c', h1, h2, h3, m', hm', h4⟩ := h (t.parent b) hp ⟨m, hm, by rw [hc]; exact h0⟩
  have hall : ∀ m < t'.nch, t'.child m c' ≠ 0 := by
    rcases hfull c' h1 with h5 | h5
    · exact absurd (h5 m' hm') h4
    · exact h5
  have hmn : m < t'.nch := by unfold BoxTree.nch at hm ⊢; rw [hs.dims]; exact hm
  refine ⟨t'.child m c', hw'.child_lt m hmn c' h1, ?_, fun a ha => ?_⟩
  · rw [hw'.level_child hmn h1 (hall m hmn), h2, hw.level_parent b hb h0]
  · rw [hw'.center_child m hmn c' h1 (hall m hmn) a (hs.dims ▸ ha), h3 a ha, hs.dims, hs.rad, h2]
    have := hw.center_child m hm (t.parent b) hp (by rw [hc]; exact h0) a ha
    rw [hc] at this
    exact this.symm

theorem eq_of_center (hw : t.WF) {b c : Nat} (hb : b < t.nboxes) (hc : c < t.nboxes)
    (hl : t.level b = t.level c) (h : ∀ a < t.dims, t.center b a = t.center c a) : b = c := by
  refine hw.pos_inj hb hc hl fun i hi => ?_
  unfold BoxTree.gridPos BoxTree.lo BoxTree.width
  rw [h i hi, hl]

theorem nboxes_le (hw : t.WF) (h : ∀ b < t.nboxes, ∃ b' < t'.nboxes,
    t'.level b' = t.level b ∧ ∀ a < t.dims, t'.center b' a = t.center b a) :
    t.nboxes ≤ t'.nboxes := by
  choose! f h1 h2 h3 using h
  have := Finset.card_le_card_of_injOn (s := Finset.range t.nboxes) (t := Finset.range t'.nboxes) f
    (fun b hb => by
      have := h1 b (by simpa using hb)
      simpa using this)
    (fun b hb c hc e => by
      have hb' : b < t.nboxes := by simpa using hb
      have hc' : c < t.nboxes := by simpa using hc
      refine eq_of_center hw hb' hc' ?_ fun a ha => ?_
      · rw [← h2 b hb', ← h2 c hc', e]
      · rw [← h3 b hb' a ha, ← h3 c hc' a ha, e])
  simpa using this

end

/-- **C76**: every box of the tree is a box of every admissible tree, and so no admissible tree has
fewer boxes. -/
theorem C76_fewest_boxes (inp : Input) (ok : inp.Placed) (hx : inp.arith = .exact)
    (hw : inp.WeightsOK) (ha : inp.adaptive = true) (he : inp.haveExtent = false) (t : Built)
    (h : inp.build = .ok t) (t' : BoxTree) (hA : Admissible inp t') :
    (∀ b < t.tree.nboxes, ∃ b' < t'.nboxes, t'.level b' = t.tree.level b ∧
      ∀ a < t.tree.dims, t'.center b' a = t.tree.center b a) ∧ t.tree.nboxes ≤ t'.nboxes := by
  have hc := C76_coarsest inp ok hx hw ha he t h t' hA
  obtain ⟨hwf, _, _, hd, hE, hroot⟩ := C52_built_tree_wf inp ok.toOK t h
  have hs : SameRoot t.tree t' := ⟨by rw [hA.dims, hd], by rw [hA.extent, hE], fun a hax => by
    rw [hd] at hax
    rw [hroot a, hA.center a hax, ok.toOK.cube a hax]⟩
  have hb := fun b hb => box_of_splits (b := b) hwf hA.wf hs hA.all_or_none hc hb
  exact ⟨hb, nboxes_le hwf hb⟩

/-- `Ex.close` without pruning: the tree has 9 boxes, and is one of the trees that the theorems
speak of. -/
example : Ex.close.Placed ∧ Ex.close.arith = .exact ∧ Ex.close.WeightsOK ∧ Ex.close.adaptive = true ∧
    Ex.close.haveExtent = false ∧ Ex.close.levelRestrict = true ∧
    ∃ t, { Ex.close with skipPrune := true }.build = .ok t ∧ Admissible Ex.close t.tree ∧
      t.tree.nboxes = 9 := by
  refine ⟨Ex.close_placed, rfl, Ex.close_weights, rfl, rfl, rfl, ?_⟩
  obtain ⟨t, h, h1⟩ := Ex.look_true (e := { Ex.close with skipPrune := true }.build)
    (f := fun t => t.tree.nboxes = 9) (by decide +kernel)
  have hA := C76_admissible { Ex.close with skipPrune := true }
    { Ex.close_placed with } rfl { Ex.close_weights with } rfl rfl rfl t h
  exact ⟨t, h, ⟨hA.1, hA.2, hA.3, hA.4, hA.5, hA.6, hA.7⟩, h1⟩

end Boxtree.Build
