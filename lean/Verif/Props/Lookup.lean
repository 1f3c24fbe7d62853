import Verif.Model.Lookup
import Verif.Props.BuildCall
import Verif.Props.Stored
import Verif.Props.Filter

/-!
# C81: following a particle of the user into the tree
-/

namespace Boxtree.Build
open Boxtree BoxTree

/-- Place of `i` in an array of length `n`, if it is a valid index. -/
def npPlace (n : Nat) (i : ℤ) : Nat := if 0 ≤ i then i.toNat else (i + n).toNat

/-- Valid indices into an array of length `n`. -/
def ValidIndex (n : Nat) (i : ℤ) : Prop := -(n : ℤ) ≤ i ∧ i < n

theorem npIndex_ok {n : Nat} {i : ℤ} (h : ValidIndex n i) :
    npIndex n i = .ok (npPlace n i) ∧ npPlace n i < n := by
  obtain ⟨h1, h2⟩ := h
  unfold npIndex npPlace
  split
  · exact ⟨rfl, by omega⟩
  · exact ⟨if_pos (by omega), by omega⟩

theorem npIndex_err {n : Nat} {i : ℤ} (h : ¬ ValidIndex n i) : npIndex n i = .error "IndexError" := by
  unfold ValidIndex at h
  unfold npIndex
  split
  · rw [if_neg (by omega)]
  · rw [if_neg (by omega)]

theorem mapM_okL {α β : Type} (f : α → Except String β) (g : α → β) : ∀ l : List α,
    (∀ a ∈ l, f a = .ok (g a)) → l.mapM f = .ok (l.map g)
  | [], _ => rfl
  | a :: l, h => by
    rw [List.mapM_cons, h a (by simp), mapM_okL f g l fun b hb => h b (by simp [hb])]
    rfl

theorem mapM_errL {α β : Type} (f : α → Except String β) (e : String) : ∀ l : List α,
    (∀ a ∈ l, (∃ b, f a = .ok b) ∨ f a = .error e) → (∃ a ∈ l, f a = .error e) →
    l.mapM f = .error e
  | [], _, h => by simp at h
  | a :: l, h, h' => by
    rw [List.mapM_cons]
    rcases h a (by simp) with ⟨b, hb⟩ | hb
    · rw [hb]
      have : ∃ a ∈ l, f a = .error e := by
        obtain ⟨c, hc, hce⟩ := h'
        rcases List.mem_cons.1 hc with rfl | hc
        · rw [hb] at hce; cases hce
        · exact ⟨c, hc, hce⟩
      change (l.mapM f >>= _) = _
      rw [mapM_errL f e l (fun b hb => h b (by simp [hb])) this]
      rfl
    · rw [hb]
      rfl

theorem fancyGet_ok (a ix : List ℤ) (h : ∀ i ∈ ix, ValidIndex a.length i) :
    fancyGet a ix = .ok (ix.map fun i => a.getD (npPlace a.length i) 0) := by
  unfold fancyGet
  refine mapM_okL _ _ _ fun i hi => ?_
  rw [(npIndex_ok (h i hi)).1]
  rfl

theorem fancyGet_err (a ix : List ℤ) (h : ∃ i ∈ ix, ¬ ValidIndex a.length i) :
    fancyGet a ix = .error "IndexError" := by
  unfold fancyGet
  refine mapM_errL _ _ _ (fun i _ => ?_) ?_
  · by_cases hv : ValidIndex a.length i
    · left
      rw [(npIndex_ok hv).1]
      exact ⟨_, rfl⟩
    · right
      rw [npIndex_err hv]
      rfl
  · obtain ⟨i, hi, hv⟩ := h
    refine ⟨i, hi, ?_⟩
    rw [npIndex_err hv]
    rfl

/-- Storing values at distinct places. -/
theorem foldl_set {ks : List Nat} {vs a : List ℤ} (hn : ks.Nodup) (hl : ks.length = vs.length) :
    ((ks.zip vs).foldl (fun a kv => a.set kv.1 kv.2) a).length = a.length ∧
    ∀ j (hj : j < ks.length), ks[j] < a.length →
      ((ks.zip vs).foldl (fun a kv => a.set kv.1 kv.2) a).getD ks[j] 0 = vs.getD j 0 := by
  suffices H : ((ks.zip vs).foldl (fun a kv => a.set kv.1 kv.2) a).length = a.length ∧
      (∀ k, k ∉ ks → ((ks.zip vs).foldl (fun a kv => a.set kv.1 kv.2) a).getD k 0 = a.getD k 0) ∧
      ∀ j (hj : j < ks.length), ks[j] < a.length →
        ((ks.zip vs).foldl (fun a kv => a.set kv.1 kv.2) a).getD ks[j] 0 = vs.getD j 0 from ⟨H.1, H.2.2⟩
  induction ks generalizing vs a with
  | nil => simp
  | cons k ks ih =>
    cases vs with
    | nil => simp at hl
    | cons v vs =>
      obtain ⟨hk, hn⟩ := List.nodup_cons.1 hn
      simp only [List.length_cons, Nat.add_right_cancel_iff] at hl
      obtain ⟨i1, i2, i3⟩ := ih (vs := vs) (a := a.set k v) hn hl
      simp only [List.zip_cons_cons, List.foldl_cons]
      refine ⟨by rw [i1, List.length_set], fun m hm => ?_, fun j hj hlt => ?_⟩
      · have m1 : m ≠ k := fun e => hm (by rw [e]; simp)
        have m2 : m ∉ ks := fun e => hm (List.mem_cons_of_mem _ e)
        rw [i2 m m2, List.getD_eq_getElem?_getD, List.getElem?_set_ne (Ne.symm m1),
          ← List.getD_eq_getElem?_getD]
      · cases j with
        | zero =>
          simp only [List.getElem_cons_zero] at hlt ⊢
          rw [i2 k hk, List.getD_eq_getElem?_getD, List.getElem?_set_self hlt]
          rfl
        | succ j =>
          simp only [List.getElem_cons_succ] at hlt ⊢
          rw [i3 j (by simpa using hj) (by simpa using hlt)]
          rfl

/-- The lookup table for a permutation is its inverse. -/
theorem reverse_perm {n : Nat} {f : Nat → Nat} (hf : IsPerm n f) :
    ∃ r, reverseIndexLookup ((List.range n).map fun i => (f i : ℤ)) n = .ok r ∧ r.length = n ∧
      ∀ j < n, r.getD (f j) 0 = j := by
  have h1 : ((List.range n).map fun i => (f i : ℤ)).mapM (npIndex n) = .ok ((List.range n).map f) := by
    rw [mapM_okL (npIndex n) (fun i => i.toNat)]
    · rw [List.map_map]
      congr 1
    · intro i hi
      obtain ⟨k, hk, rfl⟩ := List.mem_map.1 hi
      have hk := hf.1 k (List.mem_range.1 hk)
      unfold npIndex
      rw [if_pos (by omega), if_pos (by omega)]
  have hnd : ((List.range n).map f).Nodup :=
    List.Nodup.map_on (fun x hx y hy e => hf.2.1 x (List.mem_range.1 hx) y (List.mem_range.1 hy) e)
      List.nodup_range
  obtain ⟨g1, g2⟩ := foldl_set (ks := (List.range n).map f)
    (vs := (List.range n).map fun (i : Nat) => (i : ℤ)) (a := List.replicate n (-1)) hnd (by simp)
  refine ⟨(((List.range n).map f).zip ((List.range n).map fun (i : Nat) => (i : ℤ))).foldl
      (fun a kv => a.set kv.1 kv.2) (List.replicate n (-1)), ?_, ?_, ?_⟩
  · unfold reverseIndexLookup fancySet
    rw [List.length_replicate, h1, List.length_map, List.length_range]
    rfl
  · rw [g1, List.length_replicate]
  · intro j hj
    have := g2 j (by simpa using hj) (by simpa using hf.1 j hj)
    simp only [List.getElem_map, List.getElem_range] at this
    rw [this]
    simp [List.getD_eq_getElem?_getD, hj]

/-- Own ranges of a built tree cover all particles, once. -/
theorem NestedRanges.findBox {t : BoxTree} {n : Nat} {start own cumul : Nat → Nat}
    (h : NestedRanges t n start own cumul) {i : Nat} (hi : i < n) :
    ∃ b, Filter.findBoxNr t.nboxes start own i = .ok b ∧ b < t.nboxes ∧ i ∈ span start own b := by
  have hm : ∀ b i, i ∈ span start own b ↔ start b ≤ i ∧ i < start b + own b := by
    intro b i; unfold span; rw [List.mem_range'_1]
  obtain ⟨b, hb, hin, hu⟩ := h.partition i hi
  have hfil : ((List.range t.nboxes).filter fun b => decide (start b ≤ i) &&
      decide (i < start b + own b)) = [b] := by
    have hnd : ((List.range t.nboxes).filter fun b => decide (start b ≤ i) &&
      decide (i < start b + own b)).Nodup := List.nodup_range.filter _
    have hmem : ∀ x, x ∈ ((List.range t.nboxes).filter fun b => decide (start b ≤ i) &&
        decide (i < start b + own b)) ↔ x = b := by
      intro x
      simp only [List.mem_filter, List.mem_range, Bool.and_eq_true, decide_eq_true_eq]
      constructor
      · rintro ⟨hx, hxi⟩
        exact hu x hx ((hm x i).2 hxi)
      · rintro rfl
        exact ⟨hb, (hm x i).1 hin⟩
    exact List.perm_singleton.1 ((List.perm_ext_iff_of_nodup hnd (List.nodup_singleton b)).2
      (by simpa using hmem))
  refine ⟨b, ?_, hb, hin⟩
  unfold Filter.findBoxNr
  rw [hfil]

/-- The position in `get_box_extent` of a particle that is in the box. -/
theorem boxExtent_of {t : Built} {b a : Nat} (h : t.stored b a = t.tree.center b a) :
    (boxExtent t b).1 a = t.tree.center b a - t.tree.rad (t.tree.level b) ∧
    (boxExtent t b).2 a = t.tree.center b a + t.tree.rad (t.tree.level b) := by
  unfold boxExtent rad
  simp only [h, pow_succ]
  constructor <;> (field_simp; try ring)

/-- **C81**, conversion of numbers: an array of the user's source numbers (negative ones count from the
end) is converted to the places where these sources are in the tree; an invalid number raises
`IndexError`. -/
theorem C81_source_order (c : Call) (ns nt : Nat) (dtype : String) (hd : c.Documented ns nt dtype)
    (hw : c.SomeWeight) (t : Built) (h : c.run = .ok t) (ui : List ℤ) :
    ((∀ i ∈ ui, ValidIndex ns i) → ∃ r : List Nat,
      indicesToTreeSourceOrder t ui = .ok (r.map fun k : ℕ => (k : ℤ)) ∧ r.length = ui.length ∧
      ∀ j (hj : j < ui.length), r.getD j 0 < ns ∧
        t.particles.userSourceIds (r.getD j 0) = npPlace ns ui[j] ∧
        ∀ a, t.sources a (r.getD j 0) = c.src a (npPlace ns ui[j])) ∧
    ((∃ i ∈ ui, ¬ ValidIndex ns i) → indicesToTreeSourceOrder t ui = .error "IndexError") := by
  obtain ⟨s1, s2, s3⟩ := C56_sources c ns nt dtype hd hw t h
  obtain ⟨inv, i1, i2, i3⟩ := reverse_perm s2
  have e : indicesToTreeSourceOrder t ui = fancyGet inv ui := by
    unfold indicesToTreeSourceOrder
    simp only [s1]
    rw [i1]
    rfl
  rw [e]
  refine ⟨fun hv => ?_, fun hv => fancyGet_err _ _ (by rw [i2]; exact hv)⟩
  refine ⟨ui.map fun i => (inv.getD (npPlace ns i) 0).toNat, ?_, by simp, ?_⟩
  · rw [fancyGet_ok _ _ (by rw [i2]; exact hv), i2, List.map_map]
    congr 1
    refine List.map_congr_left fun i hi => ?_
    obtain ⟨j, hj, hfj⟩ := s2.2.2 (npPlace ns i) (npIndex_ok (hv i hi)).2
    simp only [Function.comp_apply, ← hfj, i3 j hj, Int.toNat_natCast]
  · intro j hj
    obtain ⟨k, hk, hfk⟩ := s2.2.2 (npPlace ns ui[j]) (npIndex_ok (hv _ (List.getElem_mem hj))).2
    have e2 : (ui.map fun i => (inv.getD (npPlace ns i) 0).toNat).getD j 0 = k := by
      rw [List.getD_eq_getElem?_getD, List.getElem?_map, List.getElem?_eq_getElem hj]
      simp only [Option.map_some, Option.getD_some, ← hfk, i3 k hk, Int.toNat_natCast]
    rw [e2]
    exact ⟨hk, hfk, fun a => by rw [(s3 k hk).1 a, hfk]⟩

/-- **C81**, the same for targets. -/
theorem C81_target_order (c : Call) (ns nt : Nat) (dtype : String) (hd : c.Documented ns nt dtype)
    (hw : c.SomeWeight) (t : Built) (h : c.run = .ok t) (n : Nat)
    (hn : n = if c.args.targets = none then ns else nt) (ui : List ℤ) :
    ((∀ i ∈ ui, ValidIndex n i) → ∃ r : List Nat,
      indicesToTreeTargetOrder t ui = .ok (r.map fun k : ℕ => (k : ℤ)) ∧ r.length = ui.length ∧
      ∀ j (hj : j < ui.length), r.getD j 0 < n ∧
        r.getD j 0 = t.particles.sortedTargetIds (npPlace n ui[j]) ∧
        ∀ a, t.targets a (r.getD j 0) =
          if c.args.targets = none then c.src a (npPlace n ui[j]) else c.tgt a (npPlace n ui[j])) ∧
    ((∃ i ∈ ui, ¬ ValidIndex n i) → indicesToTreeTargetOrder t ui = .error "IndexError") := by
  obtain ⟨t1, t2, t3⟩ := C56_targets c ns nt dtype hd hw t h
  have e : t.particles.ntargets = n := by
    rw [hn]
    split
    · rename_i ht; exact (t2 ht).1
    · rename_i ht; exact (t3 ht).1
  have el : ((List.range t.particles.ntargets).map fun i => (t.particles.sortedTargetIds i : ℤ)).length
      = n := by simp [e]
  unfold indicesToTreeTargetOrder
  refine ⟨fun hv => ?_, fun hv => fancyGet_err _ _ (by rw [el]; exact hv)⟩
  refine ⟨ui.map fun i => t.particles.sortedTargetIds (npPlace n i), ?_, by simp, ?_⟩
  · rw [fancyGet_ok _ _ (by rw [el]; exact hv), el, List.map_map]
    congr 1
    refine List.map_congr_left fun i hi => ?_
    have := (npIndex_ok (hv i hi)).2
    simp [List.getD_eq_getElem?_getD, e, this]
  · intro j hj
    have hlt := (npIndex_ok (hv _ (List.getElem_mem hj))).2
    have e2 : (ui.map fun i => t.particles.sortedTargetIds (npPlace n i)).getD j 0 =
        t.particles.sortedTargetIds (npPlace n ui[j]) := by
      rw [List.getD_eq_getElem?_getD, List.getElem?_map, List.getElem?_eq_getElem hj]
      rfl
    rw [e2]
    refine ⟨by have := t1.1 (npPlace n ui[j]) (by rw [e]; exact hlt); rw [e] at this; exact this, rfl,
      fun a => ?_⟩
    split
    · rename_i ht
      exact (t2 ht).2 _ (by rw [hn, if_pos ht] at hlt; rw [hn, if_pos ht]; exact hlt) a
    · rename_i ht
      exact ((t3 ht).2 _ (by rw [hn, if_neg ht] at hlt; rw [hn, if_neg ht]; exact hlt)).1 a

/-- **C81**, from the user's source to its box: converting the number of a source, looking up its box
and asking for the extent of the box never fails, and the extent contains the source; it is the only box
whose own particles include the source.

Partial: exact arithmetic, and without `kind="adaptive-level-restricted"` together with radii
(`C20_restricted_extent_loses_particles`). -/
theorem C81_source_box_partial (c : Call) (ns nt : Nat) (dtype : String)
    (hd : c.Documented ns nt dtype) (hw : c.SomeWeight) (hx : c.arith = .exact)
    (hr : c.args.kind = "adaptive-level-restricted" →
      c.args.sourceRadii = none ∧ c.args.targetRadii = none)
    (t : Built) (h : c.run = .ok t) (i : Nat) (hi : i < ns) :
    ∃ k b : Nat, indicesToTreeSourceOrder t [(i : ℤ)] = .ok [(k : ℤ)] ∧ findBoxForSource t k = .ok b ∧
      (∀ a < c.args.particles.length,
        (boxExtent t b).1 a ≤ c.src a i ∧ c.src a i < (boxExtent t b).2 a) ∧
      b < t.tree.nboxes ∧ ∀ b' < t.tree.nboxes,
        k ∈ span t.particles.srcStart t.particles.srcCount b' ↔ b' = b := by
  obtain ⟨r, r1, r2, r3⟩ := (C81_source_order c ns nt dtype hd hw t h [(i : ℤ)]).1
    (by simp [ValidIndex]; omega)
  obtain ⟨q1, q2, q3⟩ := r3 0 (by simp)
  obtain ⟨inp, h1, ok, _, hin⟩ := C56_documented_call c ns nt dtype hd hw
  have hns := (C56_sources c ns nt dtype hd hw t h).1
  rw [h1] at h
  have hreg : inp.Regular := by
    by_cases hl : inp.levelRestrict = true
    · obtain ⟨r1, r2⟩ := hr (hin.levelRestrict.1 hl)
      right
      unfold Input.haveExtent
      rw [hin.sourcesHaveExtent, hin.targetsHaveExtent, r1, r2]
      rfl
    · left
      simpa using hl
  have hnest := (C20_nested_ranges_partial inp ok hreg t h).1
  obtain ⟨k, rfl⟩ : ∃ k, r = [k] := by
    match r, r2 with
    | [k], _ => exact ⟨k, rfl⟩
  have ep : npPlace ns ((i : ℕ) : ℤ) = i := by simp [npPlace]
  simp only [List.getD_cons_zero, List.getElem_cons_zero, ep] at q1 q2 q3
  obtain ⟨b, b1, b2, b3⟩ := hnest.findBox (i := k) (by rw [hns]; exact q1)
  refine ⟨k, b, r1, b1, fun a ha => ?_, b2, fun b' hb' => ?_⟩
  · have hdm : t.tree.dims = c.args.particles.length := by
      rw [(C52_built_tree_wf inp ok t h).2.2.2.1, hin.dims]
    have hst := (C70_exact_partial inp ok hreg (by rw [hin.arith, hx]; rfl) t h b b2 a
      (by rw [hin.dims]; exact ha)).1
    obtain ⟨e1, e2⟩ := boxExtent_of hst
    have hin' := (C21_particles_in_box_partial inp
      (C56_placed c ns nt dtype hd (by rw [hx]; rfl) inp ok hin) (by rw [hin.arith, hx]) t h b b2).1 k
      (by rw [hnest.nested b b2, List.mem_append]; exact Or.inl b3) a (by rw [hdm]; exact ha)
    rw [e1, e2, ← q3 a]
    exact hin'
  · obtain ⟨b₀, _, _, hu⟩ := hnest.partition k (by rw [hns]; exact q1)
    constructor
    · intro hk
      rw [hu b' hb' hk, hu b b2 b3]
    · rintro rfl
      exact b3

/-- **C81**, the same for targets.  Partial as above. -/
theorem C81_target_box_partial (c : Call) (ns nt : Nat) (dtype : String)
    (hd : c.Documented ns nt dtype) (hw : c.SomeWeight) (hx : c.arith = .exact)
    (hr : c.args.kind = "adaptive-level-restricted" →
      c.args.sourceRadii = none ∧ c.args.targetRadii = none)
    (t : Built) (h : c.run = .ok t) (i : Nat) (hi : i < if c.args.targets = none then ns else nt) :
    ∃ k b : Nat, indicesToTreeTargetOrder t [(i : ℤ)] = .ok [(k : ℤ)] ∧ findBoxForTarget t k = .ok b ∧
      (∀ a < c.args.particles.length,
        (boxExtent t b).1 a ≤ (if c.args.targets = none then c.src a i else c.tgt a i) ∧
        (if c.args.targets = none then c.src a i else c.tgt a i) < (boxExtent t b).2 a) ∧
      b < t.tree.nboxes ∧ ∀ b' < t.tree.nboxes,
        k ∈ span t.particles.tgtStart t.particles.tgtCount b' ↔ b' = b := by
  obtain ⟨r, r1, r2, r3⟩ := (C81_target_order c ns nt dtype hd hw t h _ rfl [(i : ℤ)]).1
    (by
      intro j hj
      rw [List.mem_singleton.1 hj]
      exact ⟨by omega, by exact_mod_cast hi⟩)
  obtain ⟨q1, q2, q3⟩ := r3 0 (by simp)
  obtain ⟨inp, h1, ok, _, hin⟩ := C56_documented_call c ns nt dtype hd hw
  have hnt : t.particles.ntargets = if c.args.targets = none then ns else nt := by
    obtain ⟨t1, t2, t3⟩ := C56_targets c ns nt dtype hd hw t h
    split
    · rename_i ht; exact (t2 ht).1
    · rename_i ht; exact (t3 ht).1
  rw [h1] at h
  have hreg : inp.Regular := by
    by_cases hl : inp.levelRestrict = true
    · obtain ⟨r1, r2⟩ := hr (hin.levelRestrict.1 hl)
      right
      unfold Input.haveExtent
      rw [hin.sourcesHaveExtent, hin.targetsHaveExtent, r1, r2]
      rfl
    · left
      simpa using hl
  have hnest := (C20_nested_ranges_partial inp ok hreg t h).2
  obtain ⟨k, rfl⟩ : ∃ k, r = [k] := by
    match r, r2 with
    | [k], _ => exact ⟨k, rfl⟩
  have ep : ∀ n, npPlace n ((i : ℕ) : ℤ) = i := by simp [npPlace]
  simp only [List.getD_cons_zero, List.getElem_cons_zero, ep] at q1 q2 q3
  obtain ⟨b, b1, b2, b3⟩ := hnest.findBox (i := k) (by rw [hnt]; exact q1)
  refine ⟨k, b, r1, b1, fun a ha => ?_, b2, fun b' hb' => ?_⟩
  · have hdm : t.tree.dims = c.args.particles.length := by
      rw [(C52_built_tree_wf inp ok t h).2.2.2.1, hin.dims]
    have hst := (C70_exact_partial inp ok hreg (by rw [hin.arith, hx]; rfl) t h b b2 a
      (by rw [hin.dims]; exact ha)).1
    obtain ⟨e1, e2⟩ := boxExtent_of hst
    have hin' := (C21_particles_in_box_partial inp
      (C56_placed c ns nt dtype hd (by rw [hx]; rfl) inp ok hin) (by rw [hin.arith, hx]) t h b b2).2 k
      (by rw [hnest.nested b b2, List.mem_append]; exact Or.inl b3) a (by rw [hdm]; exact ha)
    rw [e1, e2, ← q3 a]
    exact hin'
  · obtain ⟨b₀, _, _, hu⟩ := hnest.partition k (by rw [hnt]; exact q1)
    constructor
    · intro hk
      rw [hu b' hb' hk, hu b b2 b3]
    · rintro rfl
      exact b3

namespace Ex

/-- The hypotheses of the C81 theorems hold for the example call; the numbers, by evaluation: `-1`
is the last source, and `3` is no valid number. -/
example : ∃ t, call.run = .ok t ∧
    ∀ i : ℕ, i < 3 → ∃ k b : ℕ, indicesToTreeSourceOrder t [(i : ℤ)] = .ok [(k : ℤ)] ∧
      findBoxForSource t k = .ok b ∧
      ∀ a < 2, (boxExtent t b).1 a ≤ call.src a i ∧ call.src a i < (boxExtent t b).2 a := by
  have h : look call.run (fun _ => [()]) = [()] := by decide +kernel
  unfold look at h
  split at h
  · rename_i t ht
    refine ⟨t, ht, fun i hi => ?_⟩
    obtain ⟨k, b, h1, h2, h3, _⟩ := C81_source_box_partial call 3 0 _ call_documented
      (Or.inl (by decide)) rfl (fun _ => ⟨rfl, rfl⟩) t ht i hi
    exact ⟨k, b, h1, h2, h3⟩
  · cases h

example : look call.run (fun t => [indicesToTreeSourceOrder t [0, 1, 2, -1],
      indicesToTreeTargetOrder t [-3, 3]]) =
    [.ok [0, 1, 2, 2], .error "IndexError"] := by decide +kernel

end Ex

end Boxtree.Build
