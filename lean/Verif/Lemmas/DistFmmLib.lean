import Verif.Spec.DistFmmLib
import Verif.Lemmas.FmmLibSim
import Verif.Props.DistFmm

/-!
# Lemmas: the distributed FMM with the `pyfmmlib` wrangler
-/

namespace Boxtree.FmmLib
open Boxtree BoxTree Boxtree.Dist World

variable {A W D C P : Type}

/-! ### views of the flat array -/

section Storage
variable {t : BoxTree} {w : Wrangler A D} [AddCommMonoid C]

theorem getExpn_pack (hw : t.WF) (hl : t.LevelsOK) (mp : Nat → Nat → C) {b : Nat}
    (hb : b < t.nboxes) :
    getExpn t w (packOf w t mp) (t.level b) b = (List.range (w.size t (t.level b))).map (mp b) := by
  unfold getExpn
  apply List.map_congr_left
  intro i hi
  have hi := List.mem_range.1 hi
  unfold packOf
  cases hf : (List.range t.nboxes).find? fun c => decide (offset t w (t.level c) c ≤
      offset t w (t.level b) b + i ∧ offset t w (t.level b) b + i <
        offset t w (t.level c) c + w.size t (t.level c)) with
  | none =>
    rw [List.find?_eq_none] at hf
    exact absurd (decide_eq_true (by omega)) (hf b (List.mem_range.2 hb))
  | some c =>
    have h1 := List.mem_range.1 (List.mem_of_find?_eq_some hf)
    have h2 := List.find?_some hf
    simp only [decide_eq_true_eq] at h2
    have hbc : b = c := by
      by_contra hne
      rcases offset_disjoint (w := w) hw hl hb h1 hne with h | h <;> omega
    subst hbc
    simp only
    rw [Nat.add_sub_cancel_left]

theorem view_map (a : Nat → C) (b : Nat) :
    (List.range (w.size t (t.level b))).map (viewOf w t a b) = getExpn t w a (t.level b) b := by
  unfold getExpn
  apply List.map_congr_left
  intro i hi
  unfold viewOf
  rw [if_pos (List.mem_range.1 hi)]

/-- Multipole expansions of the same box on several ranks add up. -/
theorem mp_sum {X : List C → Multiset Nat → Prop} {n : Nat} (h0 : X (List.replicate n 0) 0)
    (hadd : ∀ v S v' S', X v S → X v' S' → X (List.zipWith (· + ·) v v') (S + S'))
    (f : Nat → Nat → C) (m : Nat → Multiset Nat) (k : Nat)
    (h : ∀ s, s < k → X ((List.range n).map (f s)) (m s)) :
    X ((List.range n).map fun i => ∑ s ∈ Finset.range k, f s i) (∑ s ∈ Finset.range k, m s) := by
  induction k with
  | zero =>
    have e : ((List.range n).map fun i => ∑ s ∈ Finset.range 0, f s i) = List.replicate n 0 := by
      simp
    rw [e]
    exact h0
  | succ k ih =>
    rw [Finset.sum_range_succ]
    have := hadd _ _ _ _ (ih fun s hs => h s (by omega)) (h k (by omega))
    rw [List.zipWith_map] at this
    have e : (List.zipWith (fun a b => (∑ s ∈ Finset.range k, f s a) + f k b) (List.range n)
        (List.range n)) = (List.range n).map fun i => ∑ s ∈ Finset.range (k + 1), f s i := by
      apply List.ext_getElem
      · simp
      · intro i h1 h2
        simp [Finset.sum_range_succ]
    rw [e] at this
    exact this

/-- Boxes that are no source boxes and no parents of source boxes keep a zero expansion. -/
theorem upward_zero [AddCommMonoid P] {inp : TravInput} {trav : Traversal} {q : Particles}
    {R : Lib A W D C P} {w : Wrangler A D} {ts : Nat → Src W D} (ok : inp.OK)
    (hl : inp.tree.LevelsOK) (h : buildTraversal inp = .ok trav) {b : Nat}
    (hb : b < inp.tree.nboxes) (h1 : b ∉ trav.sourceBoxes) (h2 : b ∉ trav.sourceParentBoxes)
    (i : Nat) : viewOf w inp.tree (upward inp.tree q R w ts trav) b i = 0 := by
  have F := travFields h
  have hw := ok.wf
  have hform : getExpn inp.tree w
      (formMultipoles inp.tree q R w ts trav.levelStartSource trav.sourceBoxes)
      (inp.tree.level b) b = List.replicate (w.size inp.tree (inp.tree.level b)) 0 := by
    have hbl : BoxListOK inp.tree trav.sourceBoxes := by rw [F.sourceBoxes]; exact boxListOK_of _ _
    unfold formMultipoles
    rw [F.lsSource, foldl_levels hbl hw hl (fun lev a b => if q.srcCount b = 0 then a
      else setExpn inp.tree w a lev b
        (R.formmp (levelToRscale inp.tree w lev) (boxSrc q ts b) (inp.tree.center b)
          (w.order lev)))]
    refine List.foldlRecOn (motive := fun a => getExpn inp.tree w a (inp.tree.level b) b =
      List.replicate (w.size inp.tree (inp.tree.level b)) 0) _ _ (getExpn_zero _ _) ?_
    intro a ha c hc
    split
    · exact ha
    · rw [getExpn_set_ne hw hl _ (hbl.lt c hc) hb (fun e => h1 (e ▸ hc))]
      exact ha
  have hup : getExpn inp.tree w (upward inp.tree q R w ts trav) (inp.tree.level b) b =
      List.replicate (w.size inp.tree (inp.tree.level b)) 0 := by
    have hbl : BoxListOK inp.tree trav.sourceParentBoxes := by
      rw [F.sourceParentBoxes]; exact boxListOK_of _ _
    unfold upward coarsenMultipoles
    refine List.foldlRecOn (motive := fun a => getExpn inp.tree w a (inp.tree.level b) b =
      List.replicate (w.size inp.tree (inp.tree.level b)) 0) _ _ hform ?_
    intro a ha sl hsl
    have hsl2 : 2 < sl ∧ sl < inp.tree.nlevels := by
      unfold Fmm.coarsenLevels at hsl
      simp only [List.mem_reverse, List.mem_filter, List.mem_range, decide_eq_true_eq] at hsl
      omega
    refine List.foldlRecOn (motive := fun a => getExpn inp.tree w a (inp.tree.level b) b =
      List.replicate (w.size inp.tree (inp.tree.level b)) 0) _ _ ha ?_
    intro a ha c hc
    rw [F.lsSourceParent, levelSlice_extract hbl hw hl (by omega)] at hc
    obtain ⟨hc1, hc2⟩ := List.mem_filter.1 hc
    have hc2 := of_decide_eq_true hc2
    unfold coarsenBox
    refine List.foldlRecOn (motive := fun a => getExpn inp.tree w a (inp.tree.level b) b =
      List.replicate (w.size inp.tree (inp.tree.level b)) 0) _ _ ha ?_
    intro a ha k _
    simp only
    split
    · unfold addExpn
      rw [← hc2, getExpn_set_ne hw hl _ (hbl.lt c hc1) hb (fun e => h2 (e ▸ hc1))]
      exact ha
    · exact ha
  unfold viewOf
  split
  · rename_i hi
    have := congrArg (fun l : List C => l[i]?) hup
    simp only [getExpn, List.getElem?_map, List.getElem?_range hi, Option.map_some,
      List.getElem?_replicate, if_pos hi, Option.some.injEq] at this
    exact this
  · rfl

end Storage

/-! ### one rank -/

section Rank
variable {V : World}

theorem Respects.local [AddCommMonoid C] [AddCommMonoid P] (hV : V.OK) {R : Lib A W D C P}
    {w : Wrangler A D} {src : Nat → Src W D} {x : Nat → Nat → ℚ} {angle : Nat → Nat → A}
    {PV : Nat → P → Multiset Nat → Prop} {MP LOC : Nat → List C → Multiset Nat → Prop}
    (hE : Respects V.inp V.g.toParticles R w src x angle PV MP LOC)
    (dip : Nat → Option (Nat → D)) (rot : Nat → Option (List ℤ × List A)) (r : Nat) :
    Respects (V.localInput r) V.g.toParticles R (rankWrangler V w dip rot r) src x angle PV MP
      LOC where
  pv_zero := hE.pv_zero
  pv_add := hE.pv_add
  mp_len := hE.mp_len
  mp_zero := hE.mp_zero
  mp_add := hE.mp_add
  loc_len := hE.loc_len
  loc_zero := hE.loc_zero
  loc_add := hE.loc_add
  formmp := fun b hb hs => hE.formmp b hb ((isSource_local r b).symm.trans hs)
  mpmp := hE.mpmp
  mploc := hE.mploc
  formta := fun b s hb hs h1 => hE.formta b s hb hs ((isSource_local r s).symm.trans h1)
  locloc := hE.locloc
  mpeval := by
    intro i b s hi hb ht hin hs h1 h2 h3 h4 h5 h6
    have hb' : b < V.inp.tree.nboxes := hb
    refine hE.mpeval i b s hi hb ((hV.tgt_flag b hb').2 ((isTarget_local r b).1 ht).2) hin hs h1 h2 h3
      h4 ((sepSmaller_local hV r b s).1 h5) ?_
    intro l g1 g2
    rcases h6 l g1 g2 with h | h
    · exact Or.inl h
    · exact Or.inr fun hc => h ((sepSmaller_local hV r b _).2 hc)
  taeval := fun i b hi hb ht hin =>
    hE.taeval i b hi hb ((hV.tgt_flag b hb).2 ((isTarget_local r b).1 ht).2) hin
  direct := fun i b hi hb hs => hE.direct i b hi hb ((isSource_local r b).symm.trans hs)

theorem levelStarts_local (w : Wrangler A D) (dip : Nat → Option (Nat → D))
    (rot : Nat → Option (List ℤ × List A)) (r l : Nat) :
    levelStarts (V.localInput r).tree (rankWrangler V w dip rot r) l =
      levelStarts V.inp.tree w l := by
  induction l with
  | zero => rfl
  | succ l ih =>
    rw [levelStarts, levelStarts, ih]
    rfl

/-- The local tree has the same layout of expansions as the global tree. -/
theorem getExpn_local (w : Wrangler A D) (dip : Nat → Option (Nat → D))
    (rot : Nat → Option (List ℤ × List A)) (r : Nat) (a : Nat → C) (l b : Nat) :
    getExpn (V.localInput r).tree (rankWrangler V w dip rot r) a l b =
      getExpn V.inp.tree w a l b := by
  unfold getExpn offset
  rw [levelStarts_local]
  rfl

theorem viewOf_local [AddCommMonoid C] (w : Wrangler A D) (dip : Nat → Option (Nat → D))
    (rot : Nat → Option (List ℤ × List A)) (r : Nat) (a : Nat → C) (b i : Nat) :
    viewOf (rankWrangler V w dip rot r) (V.localInput r).tree a b i =
      viewOf w V.inp.tree a b i := by
  unfold viewOf offset
  rw [levelStarts_local]
  rfl

/-- The local number of a source of a box whose sources the rank has. -/
theorem local_idx (hV : V.OK) {r b : Nat} (hb : b < V.inp.tree.nboxes)
    (hm : (V.localTree r).masks.pointSrc b = true) {j : Nat} (hj : j < V.g.srcCount b) :
    (V.localTree r).sources.particleIdx[(V.localParticles r).srcStart b + j]? =
      some (V.g.srcStart b + j) := by
  have hle : V.g.srcStart b + V.g.srcCount b ≤ V.g.nsources := by
    have h1 := hV.src_ranges.within b hb
    have h2 := hV.src_ranges.count_le b hb
    omega
  have key := (C39_masked_box () V.g.nsources V.inp.tree.nboxes (V.localTree r).masks.pointSrc
    (fun _ => ()) V.g.srcStart V.g.srcCount V.g.srcCumul b hb hm hle).1
  change ((V.localTree r).sources.particleIdx.drop ((V.localTree r).sources.starts b)).take
    ((V.localTree r).sources.countsNonchild b) = _ at key
  have hc : (V.localTree r).sources.countsNonchild b = V.g.srcCount b := if_pos hm
  rw [hc] at key
  have h2 := congrArg (fun l : List Nat => l[j]?) key
  simp only [List.getElem?_take, if_pos hj, List.getElem?_drop, List.getElem?_range' hj,
    Nat.one_mul] at h2
  exact h2

theorem present_local (hV : V.OK) {w : Wrangler A D} {dip : Nat → Option (Nat → D)}
    {rot : Nat → Option (List ℤ × List A)} {weights : Nat → W} {src : Nat → Src W D}
    {x : Nat → Nat → ℚ} (hH : DistHolds V w dip weights src x) {r : Nat} (hr : r < V.size)
    {b : Nat} (hb : b < V.inp.tree.nboxes) (hm : (V.localTree r).masks.pointSrc b = true) :
    Present (V.localParticles r) V.g.toParticles (rankSrc V w dip rot weights r) src
      (V.localWeights (fun j => ({j} : Multiset Nat)) r) b := by
  have hc : (V.localParticles r).srcCount b = V.g.srcCount b := if_pos hm
  refine ⟨?_, ?_, hc⟩
  · unfold boxSrc sourcesOf
    rw [List.map_map, hc]
    apply List.map_congr_left
    intro k hk
    have hk := List.mem_range.1 hk
    have hidx := local_idx hV hb hm hk
    obtain ⟨hlt, hget⟩ := List.getElem?_eq_some_iff.1 hidx
    have hgD : (V.localTree r).sources.particleIdx.getD ((V.localParticles r).srcStart b + k) 0 =
        V.g.srcStart b + k := by
      rw [List.getD_eq_getElem?_getD, hidx]; rfl
    have hn : V.g.srcStart b + k < V.g.nsources := by
      have h1 := hV.src_ranges.within b hb
      have h2 := hV.src_ranges.count_le b hb
      omega
    have hpart := (C39_particles_kept (fun _ => (0 : ℚ)) V.g.nsources V.inp.tree.nboxes
      (V.localTree r).masks.pointSrc w.sources V.g.srcStart V.g.srcCount V.g.srcCumul).2.2
    have hpos : (rankWrangler V w dip rot r).sources ((V.localParticles r).srcStart b + k) =
        (src (V.g.userSourceIds (V.g.srcStart b + k))).pos := by
      unfold rankWrangler
      simp only
      rw [hpart]
      change (((V.localTree r).sources.particleIdx.map w.sources).getD _ _) = _
      rw [List.getD_eq_getElem?_getD, List.getElem?_map, hidx]
      exact hH.pos _ hn
    have hd := hH.dipole r hr _ hlt
    rw [hgD] at hd
    have hw := hH.weight _ (hV.particles.user_lt _ hn)
    unfold rankSrc
    simp only [Function.comp]
    rw [hpos, hgD, ← hd, ← hw]
  · rw [boxWeight_local hV _ r b hb hm]
    exact boxWeight_unit V.g.toParticles b

/-- Every box whose local expansion a rank forms has a target box of the rank below it. -/
theorem ttp_has_target (hV : V.OK) {r : Nat} {trav : Traversal}
    (h : buildTraversal (V.localInput r) = .ok trav) {b : Nat} (hb : b ∈ trav.ttpBoxes) :
    ∃ tgt ∈ trav.targetBoxes, b ∈ (V.localInput r).tree.ancestorsOrSelf tgt := by
  have hw := (localInput_ok hV r).wf
  rw [(travFields h).ttpBoxes, mem_selTtp] at hb
  obtain ⟨hlt, ht | ht⟩ := hb
  · obtain ⟨g1, g2⟩ := (isTarget_local r b).1 ht
    refine ⟨b, (mem_targetBoxes_local hV h b).2 ⟨hlt, g1, g2⟩, ?_⟩
    exact (mem_ancestorsOrSelf hw hlt).2 ⟨hlt, le_rfl, ancAt_self _ b⟩
  · obtain ⟨d, d1, d2, d3, d4⟩ := (hasTargetChild_local hV r b hlt).1 ht
    refine ⟨d, (mem_targetBoxes_local hV h d).2 ⟨d1, d3, d4⟩, ?_⟩
    exact (mem_ancestorsOrSelf hw d1).2 ⟨hlt, Nat.le_of_lt d2.1, d2.2⟩

end Rank
end Boxtree.FmmLib
