import Verif.Lemmas.FmmLib
import Verif.Props.Fmm

/-!
# Lemmas: the run of the library follows a run with multisets of sources

The second run is the constant-one FMM of `Model/Fmm.lean` with the monoid of multisets and the
weight `{j}` for source `j`; C02 says that it collects every source once.
-/

namespace Boxtree.FmmLib
open Boxtree BoxTree

variable {A W D C P : Type}

section Rel
variable {t : BoxTree} {w : Wrangler A D} [AddCommMonoid C]

/-- every box holds the expansion of the sources given by `m` -/
def Rel (t : BoxTree) (w : Wrangler A D) (X : Nat → List C → Multiset Nat → Prop) (a : Nat → C)
    (m : Nat → Multiset Nat) : Prop :=
  ∀ b, b < t.nboxes → X b (getExpn t w a (t.level b) b) (m b)

variable {X : Nat → List C → Multiset Nat → Prop}

theorem Rel.set (hw : t.WF) (hl : t.LevelsOK)
    (hlen : ∀ b v S, X b v S → v.length = w.size t (t.level b))
    {a : Nat → C} {m : Nat → Multiset Nat} (h : Rel t w X a m) {b : Nat} (hb : b < t.nboxes)
    {v : List C} {S : Multiset Nat} (hv : X b v S) :
    Rel t w X (setExpn t w a (t.level b) b v) (Function.update m b S) := by
  intro c hc
  by_cases hbc : b = c
  · subst hbc
    rw [getExpn_set_same _ _ _ _ (hlen _ _ _ hv), Function.update_self]
    exact hv
  · rw [getExpn_set_ne hw hl a hb hc hbc, Function.update_of_ne (Ne.symm hbc)]
    exact h c hc

theorem Rel.add (hw : t.WF) (hl : t.LevelsOK)
    (hlen : ∀ b v S, X b v S → v.length = w.size t (t.level b))
    (hadd : ∀ b v S v' S', X b v S → X b v' S' → X b (List.zipWith (· + ·) v v') (S + S'))
    {a : Nat → C} {m : Nat → Multiset Nat} (h : Rel t w X a m) {b : Nat} (hb : b < t.nboxes)
    {v : List C} {S : Multiset Nat} (hv : X b v S) :
    Rel t w X (addExpn t w a (t.level b) b v) (Function.update m b (m b + S)) :=
  h.set hw hl hlen hb (hadd _ _ _ _ _ (h b hb) hv)

omit [AddCommMonoid C] in
theorem rel_fold_set (l : List Nat) (g : Nat → Nat) (hnd : (l.map g).Nodup)
    (lib : (Nat → C) → Nat → (Nat → C)) (v : Nat → Multiset Nat)
    (hlib : ∀ a m i, i ∈ l → Rel t w X a m → m (g i) = 0 →
      Rel t w X (lib a i) (Function.update m (g i) (m (g i) + v i)))
    (a : Nat → C) (m : Nat → Multiset Nat) (h : Rel t w X a m) (h0 : ∀ i ∈ l, m (g i) = 0) :
    Rel t w X (l.foldl lib a)
      (l.foldl (fun m i => Function.update m (g i) (m (g i) + v i)) m) := by
  induction l generalizing a m with
  | nil => exact h
  | cons i l ih =>
    rw [List.map_cons, List.nodup_cons] at hnd
    rw [List.foldl_cons, List.foldl_cons]
    refine ih hnd.2 (fun a m j hj => hlib a m j (List.mem_cons_of_mem _ hj)) _ _
      (hlib a m i List.mem_cons_self h (h0 i List.mem_cons_self)) ?_
    intro j hj
    rw [Function.update_of_ne]
    · exact h0 j (List.mem_cons_of_mem _ hj)
    · intro hc
      exact hnd.1 (hc ▸ List.mem_map_of_mem hj)

/-- accumulating the images of a list -/
theorem rel_accumulate {ι : Type} {b : Nat}
    (hadd : ∀ b v S v' S', X b v S → X b v' S' → X b (List.zipWith (· + ·) v v') (S + S'))
    (l : List ι) (f : ι → List C) (g : ι → Multiset Nat) (h : ∀ i ∈ l, X b (f i) (g i))
    (e : List C) (S : Multiset Nat) (he : X b e S) :
    X b (l.foldl (fun e i => List.zipWith (· + ·) e (f i)) e) (S + (l.map g).sum) := by
  induction l generalizing e S with
  | nil => simpa using he
  | cons i l ih =>
    rw [List.foldl_cons, List.map_cons, List.sum_cons, ← add_assoc]
    exact ih (fun j hj => h j (List.mem_cons_of_mem _ hj)) _ _
      (hadd _ _ _ _ _ he (h i List.mem_cons_self))

end Rel

theorem sum_singletons (l : List Nat) : (l.map fun j => ({j} : Multiset Nat)).sum = (l : Multiset Nat) := by
  induction l with
  | nil => rfl
  | cons a l ih => rw [List.map_cons, List.sum_cons, ih]; rfl

/-- the weight of source `j` in tree order -/
def unitOf (q : Particles) (j : Nat) : Multiset Nat := {q.userSourceIds j}

theorem boxWeight_unit (q : Particles) (b : Nat) :
    Fmm.boxWeight q (unitOf q) b = (sourcesOf q b : Multiset Nat) := by
  unfold Fmm.boxWeight sourcesOf unitOf
  rw [← sum_singletons, List.map_map]
  rfl

/-- The sources of box `b` are present in the particle lists `q`, with the data `ts` and the weights
`u`: they are those of the box in the particle lists `qG`, in user order. -/
structure Present (q qG : Particles) (ts : Nat → Src W D) (src : Nat → Src W D)
    (u : Nat → Multiset Nat) (b : Nat) : Prop where
  src : boxSrc q ts b = (sourcesOf qG b).map src
  weight : Fmm.boxWeight q u b = (sourcesOf qG b : Multiset Nat)
  count : q.srcCount b = qG.srcCount b

theorem Present.empty {q qG : Particles} {ts src : Nat → Src W D} {u : Nat → Multiset Nat} {b : Nat}
    (h : Present q qG ts src u b) (h0 : q.srcCount b = 0) : (sourcesOf qG b : Multiset Nat) = 0 := by
  unfold sourcesOf
  rw [← h.count, h0]
  rfl

section Sim
variable [AddCommMonoid C] [AddCommMonoid P] {inp : TravInput} {trav : Traversal} {q qG : Particles}
  {R : Lib A W D C P} {w : Wrangler A D} {src : Nat → Src W D} {x : Nat → Nat → ℚ}
  {angle : Nat → Nat → A} {PV : Nat → P → Multiset Nat → Prop} {MP LOC : Nat → List C → Multiset Nat → Prop}
  {ts : Nat → Src W D} {u : Nat → Multiset Nat}

theorem form_rel (hE : Respects inp qG R w src x angle PV MP LOC)
    (hw : inp.tree.WF) (hl : inp.tree.LevelsOK) {boxes : List Nat} (hb : BoxListOK inp.tree boxes)
    (hsrc : ∀ b ∈ boxes, inp.tree.isSource b = true)
    (hts : ∀ b ∈ boxes, Present q qG ts src u b) :
    Rel inp.tree w MP
      (formMultipoles inp.tree q R w ts (extractLevelStarts inp.tree boxes) boxes)
      (Fmm.formMultipoles q boxes u) := by
  unfold formMultipoles Fmm.formMultipoles
  rw [foldl_levels hb hw hl (fun lev a b => if q.srcCount b = 0 then a
      else setExpn inp.tree w a lev b
        (R.formmp (levelToRscale inp.tree w lev) (boxSrc q ts b) (inp.tree.center b)
          (w.order lev)))]
  refine rel_fold_set (t := inp.tree) (w := w) (X := MP) boxes (fun b => b)
    (by rw [List.map_id']; exact hb.sorted.imp (fun h => Nat.ne_of_lt h)) _ (Fmm.boxWeight q u) ?_ _ _ ?_ ?_
  · intro a m b hbm h h0
    have hlt := hb.lt b hbm
    rw [h0, zero_add, (hts b hbm).weight]
    by_cases hc : q.srcCount b = 0
    · rw [if_pos hc]
      rw [(hts b hbm).empty hc, ← h0, Function.update_eq_self]
      exact h
    · rw [if_neg hc]
      apply h.set hw hl hE.mp_len hlt
      rw [(hts b hbm).src]
      exact hE.formmp b hlt (hsrc b hbm)
  · intro b hbn
    rw [getExpn_zero]
    exact hE.mp_zero b
  · intro _ _; rfl

theorem coarsen_rel (hE : Respects inp qG R w src x angle PV MP LOC)
    (hw : inp.tree.WF) (hl : inp.tree.LevelsOK) {boxes : List Nat} (hb : BoxListOK inp.tree boxes)
    {a : Nat → C} {m : Nat → Multiset Nat} (h : Rel inp.tree w MP a m) :
    Rel inp.tree w MP
      (coarsenMultipoles inp.tree R w (extractLevelStarts inp.tree boxes) boxes a)
      (Fmm.coarsenMultipoles inp.tree (extractLevelStarts inp.tree boxes) boxes m) := by
  unfold coarsenMultipoles Fmm.coarsenMultipoles
  apply List.foldl_rel (r := Rel inp.tree w MP) h
  intro sl hsl a m h
  have hsl2 : 2 < sl ∧ sl < inp.tree.nlevels := by
    unfold Fmm.coarsenLevels at hsl
    simp only [List.mem_reverse, List.mem_filter, List.mem_range, decide_eq_true_eq] at hsl
    omega
  apply List.foldl_rel (r := Rel inp.tree w MP) h
  intro b hbm a m h
  rw [levelSlice_extract hb hw hl (by omega)] at hbm
  obtain ⟨hbb, hlev⟩ := List.mem_filter.1 hbm
  have hlev := of_decide_eq_true hlev
  have hlt := hb.lt b hbb
  unfold coarsenBox Fmm.coarsenBox
  apply List.foldl_rel (r := Rel inp.tree w MP) h
  intro k hk a m h
  have hk := List.mem_range.1 hk
  simp only
  by_cases hc0 : inp.tree.child k b ≠ 0
  · rw [if_pos hc0, if_pos hc0]
    have hclt := hw.child_lt k hk b hlt
    have hcl := hw.level_child hk hlt hc0
    have hpar : inp.tree.parent (inp.tree.child k b) = b := hw.child_parent k hk b hlt hc0
    have e1 : inp.tree.level (inp.tree.child k b) = sl := by omega
    have h1 := hE.mpmp _ hclt hc0 _ _ (h _ hclt)
    rw [hpar, e1] at h1
    rw [← hlev] at h1 ⊢
    exact h.add hw hl hE.mp_len hE.mp_add hlt h1
  · rw [if_neg hc0, if_neg hc0]
    exact h

theorem row_sub_rowFor {bl : BuiltList} {boxes : List Nat} {i : Nat} (hi : i < boxes.length)
    {s : Nat} (hs : s ∈ bl.row i) : s ∈ bl.rowFor boxes (boxes.getD i 0) := by
  unfold BuiltList.rowFor
  rw [List.mem_flatMap]
  exact ⟨i, List.mem_range.2 hi, by rw [if_pos rfl]; exact hs⟩

theorem zipIdx_row {bl : BuiltList} {i : Nat} {sp : Nat × Nat}
    (h : sp ∈ (bl.row i).zipIdx (bl.starts.getD i 0)) :
    sp.1 ∈ bl.row i ∧ bl.starts.getD i 0 ≤ sp.2 ∧ sp.2 < bl.starts.getD (i + 1) 0 ∧
      bl.lists.getD sp.2 0 = sp.1 := by
  obtain ⟨s, p⟩ := sp
  obtain ⟨h1, h2, h3⟩ := List.mem_zipIdx h
  have hlen : (bl.row i).length ≤ bl.starts.getD (i + 1) 0 - bl.starts.getD i 0 := by
    unfold BuiltList.row; simp
  have hlen2 : (bl.row i).length ≤ bl.lists.length - bl.starts.getD i 0 := by
    unfold BuiltList.row; simp
  refine ⟨?_, h1, by omega, ?_⟩
  · simp only [h3]; exact List.getElem_mem _
  · simp only
    rw [h3, List.getD_eq_getElem _ _ (by omega)]
    unfold BuiltList.row
    simp only [List.getElem_take, List.getElem_drop]
    congr 1
    omega

theorem m2l_rel (hE : Respects inp qG R w src x angle PV MP LOC) (ok : inp.OK)
    (hl : inp.tree.LevelsOK) (h : buildTraversal inp = .ok trav) (hrot : RotationOK trav w angle)
    {mp : Nat → C} {m : Nat → Multiset Nat}
    (hmp : ∀ b ∈ trav.ttpBoxes, ∀ s ∈ trav.list2.rowFor trav.ttpBoxes b,
      MP s (getExpn inp.tree w mp (inp.tree.level s) s) (m s)) :
    Rel inp.tree w LOC
      (multipoleToLocal inp.tree R w trav.levelStartTtp trav.ttpBoxes trav.list2 mp)
      (Fmm.multipoleToLocal trav.ttpBoxes trav.list2 m) := by
  have F := travFields h
  have hw := ok.wf
  have hb : BoxListOK inp.tree trav.ttpBoxes := by
    rw [F.ttpBoxes]; exact boxListOK_of _ _
  unfold multipoleToLocal Fmm.multipoleToLocal
  rw [F.lsTtp, foldl_levels_idx hb hw hl (fun lev a i =>
      addExpn inp.tree w a lev (trav.ttpBoxes.getD i 0)
        (((trav.list2.row i).zipIdx (trav.list2.starts.getD i 0)).foldl (fun e sp =>
          List.zipWith (· + ·) e
            (R.mploc (rotAngle inp.tree w lev sp.2) (levelToRscale inp.tree w lev)
              (inp.tree.center sp.1)
              (getExpn inp.tree w mp lev sp.1) (levelToRscale inp.tree w lev)
              (inp.tree.center (trav.ttpBoxes.getD i 0)) (w.order lev)
              (radius inp.tree lev))) (List.replicate (w.size inp.tree lev) 0)))]
  apply List.foldl_rel (r := Rel inp.tree w LOC)
  · intro b _
    rw [getExpn_zero]; exact hE.loc_zero b
  · intro i hi a m' hr
    have hi := List.mem_range.1 hi
    have hbm : trav.ttpBoxes.getD i 0 ∈ trav.ttpBoxes := by
      rw [List.getD_eq_getElem _ _ hi]; exact List.getElem_mem _
    have hblt := F.ttp_lt hbm
    have hmem := (C05_list2_exact inp trav ok h _ hbm).2
    apply hr.add hw hl hE.loc_len hE.loc_add hblt
    have hacc := rel_accumulate (X := LOC) (b := trav.ttpBoxes.getD i 0) hE.loc_add
      ((trav.list2.row i).zipIdx (trav.list2.starts.getD i 0))
      (fun sp => R.mploc (rotAngle inp.tree w (inp.tree.level (trav.ttpBoxes.getD i 0)) sp.2)
        (levelToRscale inp.tree w (inp.tree.level (trav.ttpBoxes.getD i 0)))
        (inp.tree.center sp.1)
        (getExpn inp.tree w mp (inp.tree.level (trav.ttpBoxes.getD i 0)) sp.1)
        (levelToRscale inp.tree w (inp.tree.level (trav.ttpBoxes.getD i 0)))
        (inp.tree.center (trav.ttpBoxes.getD i 0))
        (w.order (inp.tree.level (trav.ttpBoxes.getD i 0)))
        (radius inp.tree (inp.tree.level (trav.ttpBoxes.getD i 0))))
      (fun sp => m sp.1) ?_ _ _ (hE.loc_zero _)
    · rw [zero_add] at hacc
      have e : ((trav.list2.row i).zipIdx (trav.list2.starts.getD i 0)).map (fun sp => m sp.1) =
          (trav.list2.row i).map m := by
        rw [show (fun sp : Nat × Nat => m sp.1) = m ∘ Prod.fst from rfl, ← List.map_map,
          List.zipIdx_map_fst]
      rw [e] at hacc
      exact hacc
    · intro sp hsp
      obtain ⟨h1, h2, h3, h4⟩ := zipIdx_row hsp
      obtain ⟨g1, g2, g3, g4⟩ := (hmem sp.1).1 (row_sub_rowFor hi h1)
      apply hE.mploc _ _ hblt g1 g2 g3 g4
      · unfold rotAngle
        split
        · cases hr : w.rotation with
          | none => left; rfl
          | some la =>
            obtain ⟨lists, angles⟩ := la
            right
            obtain ⟨k, hk1, hk2⟩ := hrot lists angles hr i hi sp.2 h2 h3
            simp only [hk1, Int.toNat_natCast, hk2, h4]
        · left; rfl
      · have := hmp _ hbm sp.1 (row_sub_rowFor hi h1)
        rw [g2] at this
        exact this

theorem formLocals_rel (hE : Respects inp qG R w src x angle PV MP LOC) (ok : inp.OK)
    (hl : inp.tree.LevelsOK) (h : buildTraversal inp = .ok trav)
    (hts : ∀ b ∈ trav.ttpBoxes, ∀ s ∈ trav.list4.rowFor trav.ttpBoxes b, Present q qG ts src u s) :
    Rel inp.tree w LOC
      (formLocals inp.tree q R w ts trav.levelStartTtp trav.ttpBoxes trav.list4)
      (Fmm.formLocals q trav.ttpBoxes trav.list4 u) := by
  have F := travFields h
  have hw := ok.wf
  have hb : BoxListOK inp.tree trav.ttpBoxes := by
    rw [F.ttpBoxes]; exact boxListOK_of _ _
  unfold formLocals Fmm.formLocals
  rw [F.lsTtp, foldl_levels_idx hb hw hl (fun lev a i =>
      setExpn inp.tree w a lev (trav.ttpBoxes.getD i 0)
        ((trav.list4.row i).foldl (fun e s =>
          List.zipWith (· + ·) e
            (R.formta (levelToRscale inp.tree w lev) (boxSrc q ts s)
              (inp.tree.center (trav.ttpBoxes.getD i 0)) (w.order lev)))
          (List.replicate (w.size inp.tree lev) 0)))]
  refine rel_fold_set (t := inp.tree) (w := w) (X := LOC) (List.range trav.ttpBoxes.length)
    (fun i => trav.ttpBoxes.getD i 0) ?_ _
    (fun i => ((trav.list4.row i).map (Fmm.boxWeight q u)).sum) ?_ _ _ ?_ ?_
  · have : (List.range trav.ttpBoxes.length).map (fun i => trav.ttpBoxes.getD i 0) =
        trav.ttpBoxes := by
      apply List.ext_getElem
      · simp
      · intro i h1 h2
        simp only [List.getElem_map, List.getElem_range]
        rw [List.getD_eq_getElem _ _ h2]
    rw [this]
    exact hb.sorted.imp (fun h => Nat.ne_of_lt h)
  · intro a m i hi hr h0
    have hi := List.mem_range.1 hi
    have hbm : trav.ttpBoxes.getD i 0 ∈ trav.ttpBoxes := by
      rw [List.getD_eq_getElem _ _ hi]; exact List.getElem_mem _
    have hblt := F.ttp_lt hbm
    have hmem := (C07_list4_exact inp trav ok h _ hbm).2
    rw [h0, zero_add]
    apply hr.set hw hl hE.loc_len hblt
    have hacc := rel_accumulate (X := LOC) (b := trav.ttpBoxes.getD i 0) hE.loc_add
      (trav.list4.row i)
      (fun s => R.formta (levelToRscale inp.tree w (inp.tree.level (trav.ttpBoxes.getD i 0)))
        (boxSrc q ts s) (inp.tree.center (trav.ttpBoxes.getD i 0))
        (w.order (inp.tree.level (trav.ttpBoxes.getD i 0))))
      (Fmm.boxWeight q u) ?_ _ _ (hE.loc_zero _)
    · rw [zero_add] at hacc
      exact hacc
    · intro s hs
      obtain ⟨g1, g2, g3, k1, k2, ⟨g4, g5⟩, k3⟩ := (hmem s).1 (row_sub_rowFor hi hs)
      have hP := hts _ hbm s (row_sub_rowFor hi hs)
      rw [hP.weight, hP.src]
      exact hE.formta _ _ hblt g1 g2 g3 k1 k2 g4 g5 k3
  · intro b _
    rw [getExpn_zero]; exact hE.loc_zero b
  · intro _ _; rfl

theorem refine_rel (hE : Respects inp qG R w src x angle PV MP LOC)
    (hw : inp.tree.WF) (hl : inp.tree.LevelsOK) {boxes : List Nat} (hb : BoxListOK inp.tree boxes)
    {a : Nat → C} {m : Nat → Multiset Nat} (h : Rel inp.tree w LOC a m) :
    Rel inp.tree w LOC
      (refineLocals inp.tree R w (extractLevelStarts inp.tree boxes) boxes a)
      (Fmm.refineLocals inp.tree (extractLevelStarts inp.tree boxes) boxes m) := by
  unfold refineLocals Fmm.refineLocals
  apply List.foldl_rel (r := Rel inp.tree w LOC) h
  intro lev hlev a m h
  obtain ⟨h1, h2⟩ := List.mem_filter.1 hlev
  have h1 := List.mem_range.1 h1
  have h2 := of_decide_eq_true h2
  apply List.foldl_rel (r := Rel inp.tree w LOC) h
  intro b hbm a m h
  rw [levelSlice_extract hb hw hl h1] at hbm
  obtain ⟨hbb, hlv⟩ := List.mem_filter.1 hbm
  have hlv := of_decide_eq_true hlv
  have hlt := hb.lt b hbb
  have hb0 : b ≠ 0 := by
    rintro rfl; rw [hw.level_root] at hlv; omega
  have hplt := hw.parent_lt b hlt
  have hpl := hw.level_parent b hlt hb0
  have hp := h _ hplt
  rw [show inp.tree.level (inp.tree.parent b) = inp.tree.level b - 1 by omega] at hp
  have h3 := hE.locloc b hlt hb0 _ _ hp
  rw [← hlv]
  exact h.add hw hl hE.loc_len hE.loc_add hlt h3

theorem rel_sum (hE : Respects inp qG R w src x angle PV MP LOC) {a a' : Nat → C}
    {m m' : Nat → Multiset Nat} (h : Rel inp.tree w LOC a m) (h' : Rel inp.tree w LOC a' m') :
    Rel inp.tree w LOC (fun k => a k + a' k) (fun b => m b + m' b) := by
  intro b hb
  rw [getExpn_add]
  exact hE.loc_add _ _ _ _ _ (h b hb) (h' b hb)

/-! ### potentials -/

theorem foldl_addPot (q : Particles) (w : Wrangler A D) (l : List Nat) (g : Nat → Nat)
    (v : Nat → (Nat → ℚ) → P) (pot : Nat → P) (p : Nat) :
    (l.foldl (fun pot i => if q.tgtCount (g i) = 0 then pot else addPot q w pot (g i) (v i)) pot) p =
      pot p + (l.map fun i =>
        if q.tgtStart (g i) ≤ p ∧ p < q.tgtStart (g i) + q.tgtCount (g i)
        then v i (w.targets p) else 0).sum := by
  induction l generalizing pot with
  | nil => simp
  | cons a l ih =>
    rw [List.foldl_cons, ih]
    by_cases h0 : q.tgtCount (g a) = 0
    · have : ¬ (q.tgtStart (g a) ≤ p ∧ p < q.tgtStart (g a) + q.tgtCount (g a)) := by omega
      rw [if_pos h0, List.map_cons, List.sum_cons, if_neg this, zero_add]
    · rw [if_neg h0]
      unfold addPot
      by_cases h : q.tgtStart (g a) ≤ p ∧ p < q.tgtStart (g a) + q.tgtCount (g a)
      · simp [h, add_assoc]
      · simp [h]

theorem pv_sum (hE : Respects inp qG R w src x angle PV MP LOC) {ι : Type} (i : Nat) (l : List ι)
    (f : ι → P) (g : ι → Multiset Nat) (h : ∀ k ∈ l, PV i (f k) (g k)) :
    PV i (l.map f).sum (l.map g).sum := by
  induction l with
  | nil => exact hE.pv_zero i
  | cons a l ih =>
    rw [List.map_cons, List.sum_cons, List.map_cons, List.sum_cons]
    exact hE.pv_add _ _ _ _ _ (h a List.mem_cons_self)
      (ih fun k hk => h k (List.mem_cons_of_mem _ hk))

theorem pv_foldl (hE : Respects inp qG R w src x angle PV MP LOC) (i : Nat) (l : List Nat)
    (c : Nat → Prop) [DecidablePred c] (f : Nat → P) (g : Nat → Multiset Nat) (r : P)
    (S : Multiset Nat) (h : PV i r S) (h0 : ∀ s ∈ l, c s → g s = 0)
    (h1 : ∀ s ∈ l, ¬ c s → PV i (f s) (g s)) :
    PV i (l.foldl (fun r s => if c s then r else r + f s) r) (S + (l.map g).sum) := by
  induction l generalizing r S with
  | nil => simpa using h
  | cons a l ih =>
    rw [List.foldl_cons, List.map_cons, List.sum_cons, ← add_assoc]
    refine ih _ _ ?_ (fun s hs => h0 s (List.mem_cons_of_mem _ hs))
      (fun s hs => h1 s (List.mem_cons_of_mem _ hs))
    by_cases hc : c a
    · rw [if_pos hc, h0 a List.mem_cons_self hc, add_zero]; exact h
    · rw [if_neg hc]
      exact hE.pv_add _ _ _ _ _ h (h1 a List.mem_cons_self hc)

variable {i tgt : Nat}

theorem direct_at (hE : Respects inp qG R w src x angle PV MP LOC)
    {p : Nat} (hx : w.targets p = x i) (hi : i < qG.ntargets)
    {boxes : List Nat} (hnd : boxes.Nodup) (htgt : tgt ∈ boxes)
    (hp : ∀ b ∈ boxes, InTgt q b p ↔ b = tgt) (bl : BuiltList)
    (hrow : ∀ s ∈ bl.rowFor boxes tgt, s < inp.tree.nboxes ∧ inp.tree.isSource s = true)
    (hts : ∀ s ∈ bl.rowFor boxes tgt, Present q qG ts src u s) :
    PV i (evalDirect q R w ts boxes bl p)
      (Fmm.evalDirect q boxes bl u p) := by
  rw [evalDirect_at q boxes hnd bl _ _ tgt htgt hp]
  unfold evalDirect
  simp only
  rw [foldl_addPot q w (List.range boxes.length) (fun i => boxes.getD i 0)
    (fun k x => (bl.row k).foldl (fun r s =>
        if q.srcCount s = 0 then r else r + R.direct (boxSrc q ts s) x) 0), zero_add, sum_rowFor]
  apply pv_sum hE
  intro k hk
  have hk := List.mem_range.1 hk
  have hiff := hp (boxes.getD k 0) (by rw [List.getD_eq_getElem _ _ hk]; exact List.getElem_mem _)
  unfold InTgt at hiff
  simp only [hiff]
  by_cases hkt : boxes.getD k 0 = tgt
  · rw [if_pos hkt, if_pos hkt]
    have := pv_foldl hE i (bl.row k) (fun s => q.srcCount s = 0)
      (fun s => R.direct (boxSrc q ts s) (w.targets p))
      (Fmm.boxWeight q u) 0 0 (hE.pv_zero i) ?_ ?_
    · rw [zero_add] at this; exact this
    · intro s hs h0
      have hP := hts s (hkt ▸ row_sub_rowFor hk hs)
      rw [hP.weight]
      exact hP.empty h0
    · intro s hs _
      have hs' : s ∈ bl.rowFor boxes tgt := hkt ▸ row_sub_rowFor hk hs
      obtain ⟨g1, g2⟩ := hrow s hs'
      have hP := hts s hs'
      rw [hP.weight, hP.src, hx]
      exact hE.direct i s hi g1 g2
  · rw [if_neg hkt, if_neg hkt]
    exact hE.pv_zero i

theorem mpeval_at (hE : Respects inp qG R w src x angle PV MP LOC) (ok : inp.OK)
    (h : buildTraversal inp = .ok trav)
    {p : Nat} (hx : w.targets p = x i) (hi : i < qG.ntargets)
    (htgt : tgt ∈ trav.targetBoxes) (hin : TargetIn qG tgt i)
    (hp : ∀ b ∈ trav.targetBoxes, InTgt q b p ↔ b = tgt)
    {mp : Nat → C} {m : Nat → Multiset Nat} 
    (hmp : ∀ l, l < inp.tree.nlevels →
      ∀ s ∈ (trav.list3.getD l ⟨[], []⟩).rowFor (trav.list3Targets.getD l []) tgt,
      MP s (getExpn inp.tree w mp (inp.tree.level s) s) (m s)) :
    PV i (evalMultipoles inp.tree q R w trav.list3Targets trav.list3 mp p)
      (Fmm.evalMultipoles q trav.list3Targets trav.list3 m p) := by
  have F := travFields h
  have hp3 : ∀ l, l < trav.list3.length → ∀ b ∈ trav.list3Targets.getD l [],
      InTgt q b p ↔ b = tgt :=
    fun l hl b hb => hp b (list3Targets_sub F hl hb)
  rw [evalMultipoles_at q _ _ m _ tgt hp3]
  unfold evalMultipoles
  have key : ∀ n, n ≤ trav.list3.length →
      PV i (((List.range n).foldl (fun pot lev =>
        (List.range (trav.list3Targets.getD lev []).length).foldl (fun pot k =>
          if q.tgtCount ((trav.list3Targets.getD lev []).getD k 0) = 0 then pot
          else addPot q w pot ((trav.list3Targets.getD lev []).getD k 0) fun y =>
            ((trav.list3.getD lev ⟨[], []⟩).row k).foldl (fun r s =>
              r + R.mpeval (levelToRscale inp.tree w lev) (inp.tree.center s)
                (getExpn inp.tree w mp lev s) y) 0) pot)
        (fun _ => (0 : P))) p)
      ((List.range n).map fun l =>
        (((trav.list3.getD l ⟨[], []⟩).rowFor (trav.list3Targets.getD l []) tgt).map m).sum).sum := by
    intro n
    induction n with
    | zero => intro _; exact hE.pv_zero i
    | succ n ih =>
      intro hn
      rw [List.range_succ, List.foldl_append, List.foldl_cons, List.foldl_nil,
        foldl_addPot q w _ (fun k => (trav.list3Targets.getD n []).getD k 0)
          (fun k y => ((trav.list3.getD n ⟨[], []⟩).row k).foldl (fun r s =>
              r + R.mpeval (levelToRscale inp.tree w n) (inp.tree.center s)
                (getExpn inp.tree w mp n s) y) 0), List.map_append,
        List.sum_append]
      apply hE.pv_add _ _ _ _ _ (ih (by omega))
      simp only [List.map_cons, List.map_nil, List.sum_cons, List.sum_nil, add_zero]
      rw [sum_rowFor]
      apply pv_sum hE
      intro k hk
      have hk := List.mem_range.1 hk
      have hiff := hp3 n (by omega) ((trav.list3Targets.getD n []).getD k 0)
        (by rw [List.getD_eq_getElem _ _ hk]; exact List.getElem_mem _)
      unfold InTgt at hiff
      simp only [hiff]
      by_cases hkt : (trav.list3Targets.getD n []).getD k 0 = tgt
      · rw [if_pos hkt, if_pos hkt]
        have := pv_foldl hE i ((trav.list3.getD n ⟨[], []⟩).row k) (fun _ => False)
          (fun s => R.mpeval (levelToRscale inp.tree w n) (inp.tree.center s)
                (getExpn inp.tree w mp n s) (w.targets p))
          m 0 0 (hE.pv_zero i) (fun _ _ hf => hf.elim) ?_
        · simpa using this
        · intro s hs _
          have hs' : s ∈ (trav.list3.getD n ⟨[], []⟩).rowFor (trav.list3Targets.getD n []) tgt :=
            hkt ▸ row_sub_rowFor hk hs
          have hnl : n < inp.tree.nlevels := by
            have := F.length3; omega
          obtain ⟨g1, g2, g3, _, k1, k2, g6, g7, k3⟩ :=
            ((C06_list3_exact inp trav ok h tgt n htgt hnl).2 s).1 hs'
          have hms := hmp n hnl s hs'
          rw [g2] at hms
          have hev := hE.mpeval i tgt s hi (F.target_lt htgt) (F.target_is ok htgt) hin g1
            (by omega) k1 k2 g6 g7 (fun l hl1 hl2 => k3 l hl1 (by omega)) _ _ hms
          rw [g2] at hev
          rw [hx]
          exact hev
      · rw [if_neg hkt, if_neg hkt]
        exact hE.pv_zero i
  exact key _ le_rfl

theorem sum_single (l : List Nat) (hnd : l.Nodup) {c : Nat} (hc : c ∈ l) (v : P) :
    (l.map fun b => if b = c then v else 0).sum = v := by
  induction l with
  | nil => simp at hc
  | cons b l ih =>
    rw [List.nodup_cons] at hnd
    rw [List.map_cons, List.sum_cons]
    by_cases hbt : b = c
    · subst hbt
      have : (l.map fun c => if c = b then v else 0) = l.map fun _ => (0 : P) := by
        apply List.map_congr_left
        intro c hcl
        rw [if_neg]; rintro rfl; exact hnd.1 hcl
      rw [if_pos rfl, this]; simp
    · rw [if_neg hbt, zero_add]
      rcases List.mem_cons.1 hc with h' | h'
      · exact absurd h'.symm hbt
      · exact ih hnd.2 h'

theorem taeval_at (hE : Respects inp qG R w src x angle PV MP LOC) (ok : inp.OK)
    (hl : inp.tree.LevelsOK) (h : buildTraversal inp = .ok trav)
    {p : Nat} (hx : w.targets p = x i) (hi : i < qG.ntargets)
    (htgt : tgt ∈ trav.targetBoxes) (hin : TargetIn qG tgt i)
    (hp : ∀ b ∈ trav.targetBoxes, InTgt q b p ↔ b = tgt)
    {a : Nat → C} {m : Nat → Multiset Nat} (hloc : Rel inp.tree w LOC a m) :
    PV i (evalLocals inp.tree q R w trav.levelStartTarget trav.targetBoxes a p)
      (Fmm.evalLocals q trav.targetBoxes m p) := by
  have F := travFields h
  have hb : BoxListOK inp.tree trav.targetBoxes := by
    rw [F.targetBoxes]; split <;> exact boxListOK_of _ _
  have hlt := F.target_lt htgt
  rw [evalLocals_at q _ F.nodup_target m _ tgt htgt hp]
  unfold evalLocals
  rw [F.lsTarget, foldl_levels hb ok.wf hl (fun lev pot b =>
      if q.tgtCount b = 0 then pot
      else addPot q w pot b fun x =>
        R.taeval (levelToRscale inp.tree w lev) (inp.tree.center b) (getExpn inp.tree w a lev b) x),
    foldl_addPot q w trav.targetBoxes (fun b => b) (fun b y =>
        R.taeval (levelToRscale inp.tree w (inp.tree.level b)) (inp.tree.center b)
          (getExpn inp.tree w a (inp.tree.level b) b) y), zero_add, hx]
  have hev := hE.taeval i tgt hi hlt (F.target_is ok htgt) hin _ _ (hloc tgt hlt)
  have e : (trav.targetBoxes.map fun b =>
      if q.tgtStart b ≤ p ∧ p < q.tgtStart b + q.tgtCount b
      then R.taeval (levelToRscale inp.tree w (inp.tree.level b)) (inp.tree.center b)
          (getExpn inp.tree w a (inp.tree.level b) b) (x i) else 0) =
      trav.targetBoxes.map fun b => if b = tgt then
        R.taeval (levelToRscale inp.tree w (inp.tree.level tgt)) (inp.tree.center tgt)
          (getExpn inp.tree w a (inp.tree.level tgt) tgt) (x i) else 0 := by
    apply List.map_congr_left
    intro b hbm
    have hiff := hp b hbm
    unfold InTgt at hiff
    simp only [hiff]
    by_cases hbt : b = tgt
    · subst hbt; simp
    · rw [if_neg hbt, if_neg hbt]
  rw [e, sum_single _ F.nodup_target htgt]
  exact hev

/-! ### the two halves of `drive_fmm` -/

theorem upward_rel (hE : Respects inp qG R w src x angle PV MP LOC) (ok : inp.OK)
    (hl : inp.tree.LevelsOK) (h : buildTraversal inp = .ok trav)
    (hts : ∀ b ∈ trav.sourceBoxes, Present q qG ts src u b) :
    Rel inp.tree w MP (upward inp.tree q R w ts trav) (Fmm.upward inp.tree q trav u) := by
  have F := travFields h
  unfold upward Fmm.upward
  rw [F.lsSourceParent, F.lsSource]
  apply coarsen_rel hE ok.wf hl (by rw [F.sourceParentBoxes]; exact boxListOK_of _ _)
  refine form_rel hE ok.wf hl (by rw [F.sourceBoxes]; exact boxListOK_of _ _) ?_ hts
  intro b hb
  rw [F.sourceBoxes, mem_selSource] at hb
  exact hb.2.1

theorem evaluate_rel (hE : Respects inp qG R w src x angle PV MP LOC) (ok : inp.OK)
    (hl : inp.tree.LevelsOK) (h : buildTraversal inp = .ok trav) (hrot : RotationOK trav w angle)
    {p : Nat} (hx : w.targets p = x i) (hi : i < qG.ntargets)
    (htgt : tgt ∈ trav.targetBoxes) (hin : TargetIn qG tgt i)
    (hp : ∀ b ∈ trav.targetBoxes, InTgt q b p ↔ b = tgt)
    (hts4 : ∀ b ∈ trav.ttpBoxes, ∀ s ∈ trav.list4.rowFor trav.ttpBoxes b, Present q qG ts src u s)
    (htsD : ∀ s, UsesSources trav inp.tree tgt s → Present q qG ts src u s)
    {mp : Nat → C} {m : Nat → Multiset Nat}
    (hmp2 : ∀ b ∈ trav.ttpBoxes, ∀ s ∈ trav.list2.rowFor trav.ttpBoxes b,
      MP s (getExpn inp.tree w mp (inp.tree.level s) s) (m s))
    (hmp3 : ∀ l, l < inp.tree.nlevels →
      ∀ s ∈ (trav.list3.getD l ⟨[], []⟩).rowFor (trav.list3Targets.getD l []) tgt,
      MP s (getExpn inp.tree w mp (inp.tree.level s) s) (m s)) :
    PV i (evaluate inp.tree q R w ts trav mp p) (Fmm.evaluate inp.tree q trav u m p) := by
  have F := travFields h
  have hloc : Rel inp.tree w LOC (downward inp.tree q R w ts trav mp)
      (Fmm.refineLocals inp.tree trav.levelStartTtp trav.ttpBoxes fun b =>
        Fmm.multipoleToLocal trav.ttpBoxes trav.list2 m b +
          Fmm.formLocals q trav.ttpBoxes trav.list4 u b) := by
    unfold downward
    have hr := refine_rel hE ok.wf hl (boxes := trav.ttpBoxes)
      (by rw [F.ttpBoxes]; exact boxListOK_of _ _)
      (rel_sum hE (m2l_rel hE ok hl h hrot hmp2) (formLocals_rel (ts := ts) hE ok hl h hts4))
    rw [← F.lsTtp] at hr
    exact hr
  have hclose : ∀ o : Option BuiltList,
      (∀ bl, o = some bl → ∀ s ∈ bl.rowFor trav.targetBoxes tgt,
        UsesSources trav inp.tree tgt s) → ∀ (pot : Nat → P) (pm : Nat → Multiset Nat),
      PV i (pot p) (pm p) →
      PV i (addDirect q R w ts trav.targetBoxes o pot p)
        (Fmm.addDirect q trav.targetBoxes o u pm p) := by
    intro o ho pot pm hpp
    unfold addDirect Fmm.addDirect
    cases o with
    | none => exact hpp
    | some bl =>
      simp only
      exact hE.pv_add _ _ _ _ _ hpp (direct_at hE hx hi F.nodup_target htgt hp bl
        (fun s hs => usesSources_is ok h htgt (ho bl rfl s hs))
        (fun s hs => htsD s (ho bl rfl s hs)))
  unfold evaluate Fmm.evaluate
  refine hE.pv_add _ _ _ _ _ ?_ (taeval_at hE ok hl h hx hi htgt hin hp hloc)
  apply hclose trav.list4Close
    (fun bl hbl s hs => Or.inr (Or.inr (Or.inl ⟨bl, hbl, hs⟩)))
  apply hclose trav.list3Close (fun bl hbl s hs => Or.inr (Or.inl ⟨bl, hbl, hs⟩))
  exact hE.pv_add _ _ _ _ _ (direct_at hE hx hi F.nodup_target htgt hp trav.list1
      (fun s hs => usesSources_is ok h htgt (Or.inl hs)) (fun s hs => htsD s (Or.inl hs)))
    (mpeval_at hE ok h hx hi htgt hin hp hmp3)

end Sim
end Boxtree.FmmLib
