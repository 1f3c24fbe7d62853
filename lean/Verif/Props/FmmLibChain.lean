import Verif.Spec.FmmLibChain
import Verif.Props.FmmLib
import Mathlib.Algebra.Order.BigOperators.Group.Finset
import Mathlib.Algebra.Order.Field.Rat

/-!
# C60: the potential is a sum of one translation chain per source, and the error is the sum of the
errors of the chains
-/

namespace Boxtree.FmmLib
open Boxtree BoxTree

variable {A W D C P : Type}

section
variable [AddCommMonoid C]

theorem vsum_length {n : Nat} {l : List (List C)} (h : ∀ u ∈ l, u.length = n) :
    (vsum n l).length = n := by
  induction l with
  | nil => exact List.length_replicate
  | cons a l ih =>
    have e := ih fun u hu => h u (List.mem_cons_of_mem _ hu)
    change (List.zipWith (· + ·) a (vsum n l)).length = n
    rw [List.length_zipWith, e, h a List.mem_cons_self, min_self]

theorem zipWith_add_assoc (u v z : List C) :
    List.zipWith (· + ·) (List.zipWith (· + ·) u v) z =
      List.zipWith (· + ·) u (List.zipWith (· + ·) v z) := by
  induction u generalizing v z with
  | nil => simp
  | cons a u ih =>
    cases v with
    | nil => simp
    | cons b v =>
      cases z with
      | nil => simp
      | cons c z => simp [add_assoc, ih]

theorem zero_zipWith {n : Nat} {v : List C} (h : v.length = n) :
    List.zipWith (· + ·) (List.replicate n 0) v = v := by
  induction v generalizing n with
  | nil => simp
  | cons a v ih =>
    subst h
    simp [List.replicate_succ, ih rfl]

theorem vsum_append {n : Nat} (l l' : List (List C)) (h' : ∀ u ∈ l', u.length = n) :
    vsum n (l ++ l') = List.zipWith (· + ·) (vsum n l) (vsum n l') := by
  induction l with
  | nil => exact (zero_zipWith (vsum_length h')).symm
  | cons a l ih =>
    change List.zipWith (· + ·) a (vsum n (l ++ l')) =
      List.zipWith (· + ·) (List.zipWith (· + ·) a (vsum n l)) (vsum n l')
    rw [ih, zipWith_add_assoc]

theorem AddMap.vsum {n m : Nat} {f : List C → List C} (hf : AddMap n m f) (l : List (List C))
    (h : ∀ u ∈ l, u.length = n) : f (vsum n l) = vsum m (l.map f) := by
  induction l with
  | nil => exact hf.zero
  | cons a l ih =>
    have hl : ∀ u ∈ l, u.length = n := fun u hu => h u (List.mem_cons_of_mem _ hu)
    change f (List.zipWith (· + ·) a (FmmLib.vsum n l)) =
      List.zipWith (· + ·) (f a) (FmmLib.vsum m (l.map f))
    rw [hf.add _ _ (h a List.mem_cons_self) (vsum_length hl), ih hl]

theorem AddEval.vsum [AddCommMonoid P] {n : Nat} {f : List C → P} (hf : AddEval n f)
    (l : List (List C)) (h : ∀ u ∈ l, u.length = n) : f (vsum n l) = (l.map f).sum := by
  induction l with
  | nil => exact hf.zero
  | cons a l ih =>
    have hl : ∀ u ∈ l, u.length = n := fun u hu => h u (List.mem_cons_of_mem _ hu)
    change f (List.zipWith (· + ·) a (FmmLib.vsum n l)) = (f a :: l.map f).sum
    rw [hf.add _ _ (h a List.mem_cons_self) (vsum_length hl), ih hl, List.sum_cons]

/-- The expansion `v` is a sum with one summand per element of `S`, each made by a chain. -/
def SumOf (n : Nat) (Ch : Nat → List C → Prop) (v : List C) (S : Multiset Nat) : Prop :=
  ∃ L : List (Nat × List C), (L.map Prod.fst : Multiset Nat) = S ∧
    (∀ e ∈ L, Ch e.1 e.2 ∧ e.2.length = n) ∧ v = vsum n (L.map Prod.snd)

theorem SumOf.len {n : Nat} {Ch : Nat → List C → Prop} {v : List C} {S : Multiset Nat}
    (h : SumOf n Ch v S) : v.length = n := by
  obtain ⟨L, -, h2, rfl⟩ := h
  apply vsum_length
  intro u hu
  obtain ⟨e, he, rfl⟩ := List.mem_map.1 hu
  exact (h2 e he).2

theorem SumOf.zero (n : Nat) (Ch : Nat → List C → Prop) :
    SumOf n Ch (List.replicate n 0) 0 := ⟨[], rfl, by simp, rfl⟩

theorem SumOf.add {n : Nat} {Ch : Nat → List C → Prop} {v v' : List C} {S S' : Multiset Nat}
    (h : SumOf n Ch v S) (h' : SumOf n Ch v' S') :
    SumOf n Ch (List.zipWith (· + ·) v v') (S + S') := by
  obtain ⟨L, rfl, h2, rfl⟩ := h
  obtain ⟨L', rfl, h2', rfl⟩ := h'
  refine ⟨L ++ L', by simp, ?_, ?_⟩
  · intro e he
    rcases List.mem_append.1 he with he | he
    · exact h2 e he
    · exact h2' e he
  · rw [List.map_append, vsum_append]
    intro u hu
    obtain ⟨e, he, rfl⟩ := List.mem_map.1 hu
    exact (h2' e he).2

theorem SumOf.map {n m : Nat} {Ch Ch' : Nat → List C → Prop} {v : List C} {S : Multiset Nat}
    (h : SumOf n Ch v S) {f : List C → List C} (hf : AddMap n m f)
    (hc : ∀ j u, Ch j u → Ch' j (f u)) : SumOf m Ch' (f v) S := by
  obtain ⟨L, rfl, h2, rfl⟩ := h
  refine ⟨L.map fun e => (e.1, f e.2), ?_, ?_, ?_⟩
  · rw [List.map_map]; rfl
  · intro e he
    obtain ⟨e', he', rfl⟩ := List.mem_map.1 he
    exact ⟨hc _ _ (h2 e' he').1, hf.len _ (h2 e' he').2⟩
  · rw [hf.vsum]
    · rw [List.map_map, List.map_map]; rfl
    · intro u hu
      obtain ⟨e, he, rfl⟩ := List.mem_map.1 hu
      exact (h2 e he).2

theorem SumOf.ofList {n : Nat} {Ch : Nat → List C → Prop} (l : List Nat) (f : Nat → List C)
    (hc : ∀ j ∈ l, Ch j (f j)) (hn : ∀ j, (f j).length = n) :
    SumOf n Ch (vsum n (l.map f)) (l : Multiset Nat) := by
  refine ⟨l.map fun j => (j, f j), ?_, ?_, ?_⟩
  · rw [List.map_map]; simp [Function.comp_def]
  · intro e he
    obtain ⟨j, hj, rfl⟩ := List.mem_map.1 he
    exact ⟨hc j hj, hn j⟩
  · rw [List.map_map]; rfl

/-- The potential `p` is a sum with one summand per element of `S`, each made by a chain. -/
def PotOf [AddCommMonoid P] (Ch : Nat → P → Prop) (p : P) (S : Multiset Nat) : Prop :=
  ∃ L : List (Nat × P), (L.map Prod.fst : Multiset Nat) = S ∧ (∀ e ∈ L, Ch e.1 e.2) ∧
    p = (L.map Prod.snd).sum

theorem SumOf.eval [AddCommMonoid P] {n : Nat} {Ch : Nat → List C → Prop} {Ch' : Nat → P → Prop}
    {v : List C} {S : Multiset Nat}
    (h : SumOf n Ch v S) {f : List C → P} (hf : AddEval n f)
    (hc : ∀ j u, Ch j u → Ch' j (f u)) : PotOf Ch' (f v) S := by
  obtain ⟨L, rfl, h2, rfl⟩ := h
  refine ⟨L.map fun e => (e.1, f e.2), ?_, ?_, ?_⟩
  · rw [List.map_map]; rfl
  · intro e he
    obtain ⟨e', he', rfl⟩ := List.mem_map.1 he
    exact hc _ _ (h2 e' he').1
  · rw [hf.vsum]
    · rw [List.map_map, List.map_map]; rfl
    · intro u hu
      obtain ⟨e, he, rfl⟩ := List.mem_map.1 hu
      exact (h2 e he).2

theorem chain_respects [AddCommMonoid P] (inp : TravInput) (hw : inp.tree.WF) (q : Particles)
    (R : Lib A W D C P) (w : Wrangler A D) (hR : Linear inp.tree w R)
    (src : Nat → Src W D) (x : Nat → Nat → ℚ) (angle : Nat → Nat → A) :
    Respects inp q R w src x angle (fun i => PotOf (Chain inp q R w src x angle i))
      (fun b => SumOf (w.size inp.tree (inp.tree.level b)) fun j => MPChain inp q R w src j b)
      (fun b => SumOf (w.size inp.tree (inp.tree.level b))
        fun j => LOCChain inp q R w src angle j b) := by
  constructor
  · exact fun i => ⟨[], rfl, by simp, rfl⟩
  · rintro i _ _ _ _ ⟨L, rfl, h2, rfl⟩ ⟨L', rfl, h2', rfl⟩
    refine ⟨L ++ L', by simp, ?_, by simp⟩
    intro e he
    rcases List.mem_append.1 he with he | he
    · exact h2 e he
    · exact h2' e he
  · exact fun b v S h => h.len
  · exact fun b => SumOf.zero _ _
  · exact fun b v S v' S' h h' => h.add h'
  · exact fun b v S h => h.len
  · exact fun b => SumOf.zero _ _
  · exact fun b v S v' S' h h' => h.add h'
  · intro b hb hs
    rw [hR.formmp, List.map_map]
    exact SumOf.ofList _ _ (fun j hj => .form b hb hs hj) (fun j => hR.formmp_len _ _ _ _)
  · intro c hc h0 v S h
    have e := hw.level_parent c hc h0
    have e' : inp.tree.level c - 1 = inp.tree.level (inp.tree.parent c) := by omega
    have := h.map (hR.mpmp (inp.tree.level c) (inp.tree.level c - 1)
      (levelToRscale inp.tree w (inp.tree.level c)) (inp.tree.center c)
      (levelToRscale inp.tree w (inp.tree.level c - 1)) (inp.tree.center (inp.tree.parent c))
      (radius inp.tree (inp.tree.level c - 1)))
      (Ch' := fun j => MPChain inp q R w src j (inp.tree.parent c))
      (fun j u hu => .up c u hc h0 hu)
    rw [← e']
    exact this
  · intro b s hb hs hl h1 h2 rot hrot v S h
    rw [hl] at h
    exact h.map (hR.mploc _ _ _ _ _ _ _) (fun j u hu => .m2l b s rot u hb hs hl h1 h2 hrot hu)
  · intro b s hb hs h1 h2 h3 h4 h5 h6 h7
    rw [hR.formta, List.map_map]
    exact SumOf.ofList _ _ (fun j hj => .form b s hb hs h1 h2 h3 h4 h5 h6 h7 hj)
      (fun j => hR.formta_len _ _ _ _)
  · intro b hb h0 v S h
    exact h.map (hR.locloc _ _ _ _ _ _ _) (fun j u hu => .down b u hb h0 hu)
  · intro i b s hi hb ht hin hs h1 h2 h3 h4 h5 h6 v S h
    exact h.eval (hR.mpeval _ _ _ _) (fun j u hu => .mp b s u hb ht hin hs h1 h2 h3 h4 h5 h6 hu)
  · intro i b hi hb ht hin v S h
    exact h.eval (hR.taeval _ _ _ _) (fun j u hu => .loc b u hb ht hin hu)
  · intro i b hi hb hs
    rw [hR.direct, List.map_map]
    refine ⟨(sourcesOf q b).map fun j => (j, R.direct [src j] (x i)), ?_, ?_, ?_⟩
    · rw [List.map_map]; simp [Function.comp_def]
    · intro e he
      obtain ⟨j, hj, rfl⟩ := List.mem_map.1 he
      exact .direct
    · rw [List.map_map]; rfl

end

theorem sum_of_perm [AddCommMonoid P] (L : List (Nat × P)) (n : Nat)
    (h : (L.map Prod.fst : Multiset Nat) = Multiset.range n) :
    ∃ g : Nat → P, (∀ j, j < n → (j, g j) ∈ L) ∧
      (L.map Prod.snd).sum = ∑ j ∈ Finset.range n, g j := by
  have hnd : (L.map Prod.fst).Nodup := by
    have := Multiset.nodup_range n
    rw [← h] at this
    exact this
  have hmem : ∀ j, j < n → ∃ p, (j, p) ∈ L := by
    intro j hj
    have : j ∈ (L.map Prod.fst : Multiset Nat) := by rw [h]; exact Multiset.mem_range.2 hj
    obtain ⟨e, he, rfl⟩ := List.mem_map.1 (Multiset.mem_coe.1 this)
    exact ⟨e.2, he⟩
  classical
  let g : Nat → P := fun j => if hj : j < n then (hmem j hj).choose else 0
  have hg : ∀ j, j < n → (j, g j) ∈ L := by
    intro j hj
    simp only [g, dif_pos hj]
    exact (hmem j hj).choose_spec
  have hun : ∀ e ∈ L, e.2 = g e.1 := by
    intro e he
    have : e.1 ∈ (L.map Prod.fst : Multiset Nat) := Multiset.mem_coe.2 (List.mem_map_of_mem he)
    rw [h, Multiset.mem_range] at this
    exact congrArg Prod.snd (List.inj_on_of_nodup_map hnd he (hg _ this) rfl)
  refine ⟨g, hg, ?_⟩
  rw [List.map_congr_left hun]
  change _ = ((Multiset.range n).map g).sum
  rw [← h, Multiset.map_coe, Multiset.sum_coe, List.map_map]
  rfl

/-- **C60.** For every tree and traversal and every library whose routines are linear, however good
or bad its expansions are: the potential at a target is (up to the final scaling) a sum with exactly
one summand per source, and each summand is computed from that source alone by a chain of calls
between boxes between which an FMM may translate. -/
theorem C60_chain_decomposition [AddCommMonoid C] [AddCommMonoid P] (inp : TravInput)
    (trav : Traversal) (ok : inp.OK) (hlev : inp.tree.LevelsOK)
    (h : buildTraversal inp = .ok trav) (hm : inp.srcMask = none) (hm' : inp.srcParentMask = none)
    (hdim : inp.tree.dims = 2 ∨ inp.tree.dims = 3)
    (q : Particles) (hq : q.OK inp.tree) (R : Lib A W D C P) (w : Wrangler A D)
    (hR : Linear inp.tree w R)
    (src : Nat → Src W D) (x : Nat → Nat → ℚ) (angle : Nat → Nat → A)
    (weights : Nat → W) (hH : Holds q w weights src x) (hrot : RotationOK trav w angle) :
    ∃ pot, drive inp.tree q R w trav weights = .ok pot ∧
      ∀ i, i < q.ntargets → ∃ c : Nat → P,
        (∀ j, j < q.nsources → Chain inp q R w src x angle i j (c j)) ∧
        pot i = R.scale w.kernel inp.tree.dims (∑ j ∈ Finset.range q.nsources, c j) := by
  obtain ⟨pot, h1, h2⟩ := C58_fmmlib_respects inp trav ok hlev h hm hm' hdim q hq R w src x angle _
    _ _ (chain_respects inp ok.wf q R w hR src x angle) weights hH hrot
  refine ⟨pot, h1, fun i hi => ?_⟩
  obtain ⟨p, h3, L, h4, h5, rfl⟩ := h2 i hi
  obtain ⟨g, hg, hs⟩ := sum_of_perm L _ h4
  exact ⟨g, fun j hj => h5 _ (hg j hj), by rw [h3, hs]⟩

/-- **C60 (error bound).** If every chain from source `j` to target `i` is within `ε i j` of the
true potential `K i j` of that source, the potential at target `i` is within the sum of the `ε i j`
over all sources of the sum of the `K i j`.  In particular an accuracy of `δ` per unit of source
strength gives an error of at most `δ` times the total strength, for every tree, however deep and
however many translations are made. -/
theorem C60_error_bound [AddCommMonoid C] [AddCommGroup P] [LinearOrder P] [IsOrderedAddMonoid P]
    (inp : TravInput) (trav : Traversal) (ok : inp.OK) (hlev : inp.tree.LevelsOK)
    (h : buildTraversal inp = .ok trav) (hm : inp.srcMask = none) (hm' : inp.srcParentMask = none)
    (hdim : inp.tree.dims = 2 ∨ inp.tree.dims = 3)
    (q : Particles) (hq : q.OK inp.tree) (R : Lib A W D C P) (w : Wrangler A D)
    (hR : Linear inp.tree w R)
    (src : Nat → Src W D) (x : Nat → Nat → ℚ) (angle : Nat → Nat → A)
    (weights : Nat → W) (hH : Holds q w weights src x) (hrot : RotationOK trav w angle)
    (K ε : Nat → Nat → P)
    (hacc : ∀ i j p, i < q.ntargets → j < q.nsources → Chain inp q R w src x angle i j p →
      |p - K i j| ≤ ε i j) :
    ∃ pot, drive inp.tree q R w trav weights = .ok pot ∧
      ∀ i, i < q.ntargets → ∃ p, pot i = R.scale w.kernel inp.tree.dims p ∧
        |p - ∑ j ∈ Finset.range q.nsources, K i j| ≤ ∑ j ∈ Finset.range q.nsources, ε i j := by
  obtain ⟨pot, h1, h2⟩ := C60_chain_decomposition inp trav ok hlev h hm hm' hdim q hq R w hR src x
    angle weights hH hrot
  refine ⟨pot, h1, fun i hi => ?_⟩
  obtain ⟨c, h3, h4⟩ := h2 i hi
  refine ⟨_, h4, ?_⟩
  rw [← Finset.sum_sub_distrib]
  refine (Finset.abs_sum_le_sum_abs _ _).trans (Finset.sum_le_sum fun j hj => ?_)
  exact hacc i j _ hi (Finset.mem_range.1 hj) (h3 j (Finset.mem_range.1 hj))

/-! ### A linear library with errors: only the total strength is kept -/

namespace Ex

/-- Potential `weight * (x₀ - y₀)` with expansions that place all sources of a box at its center
and take the value at the center for all targets of a box. -/
def monoLib : Lib ℚ ℚ ℚ ℚ ℚ where
  formmp _ s _ n := (s.map fun p => p.weight).sum :: List.replicate n 0
  mpmp _ _ v _ _ n _ := v.getD 0 0 :: List.replicate n 0
  mploc _ _ c1 v _ c2 n _ := v.getD 0 0 * (c2 0 - c1 0) :: List.replicate n 0
  formta _ s c n := (s.map fun p => p.weight * (c 0 - p.pos 0)).sum :: List.replicate n 0
  locloc _ _ u _ _ n _ := u.getD 0 0 :: List.replicate n 0
  mpeval _ c v x := v.getD 0 0 * (x 0 - c 0)
  taeval _ _ u _ := u.getD 0 0
  direct s x := (s.map fun p => p.weight * (x 0 - p.pos 0)).sum
  scale _ _ p := -p

theorem zip_repl (n : Nat) :
    List.zipWith (· + ·) (List.replicate n (0 : ℚ)) (List.replicate n 0) = List.replicate n 0 :=
  zero_zipWith List.length_replicate

theorem vsum_head (n : Nat) (l : List (Src ℚ ℚ)) (f : Src ℚ ℚ → ℚ) :
    vsum (n + 1) (l.map fun p => f p :: List.replicate n 0) =
      (l.map f).sum :: List.replicate n 0 := by
  induction l with
  | nil => rfl
  | cons a l ih =>
    rw [List.map_cons, List.map_cons, List.sum_cons]
    change List.zipWith (· + ·) (f a :: List.replicate n 0) (vsum (n + 1) (l.map _)) = _
    rw [ih, List.zipWith_cons_cons, zip_repl]

theorem monoLib_linear (t : BoxTree) (w : Wrangler ℚ ℚ) (hd : t.dims = 2)
    (hk : w.kernel = .laplace) : Linear t w monoLib := by
  have hs : ∀ l, w.size t l = w.order l + 1 := by
    intro l
    unfold Wrangler.size expnSize
    rw [if_pos hd, hk]
  have hm : ∀ n m (g : ℚ → ℚ), g 0 = 0 → (∀ a b, g (a + b) = g a + g b) →
      AddMap (n + 1) (m + 1) fun v => g (v.getD 0 0) :: List.replicate m 0 := by
    intro n m g h0 ha
    refine ⟨fun v _ => by simp, ?_, ?_⟩
    · simp only [getD_repl, h0]; rfl
    · intro u v hu hv
      simp only [getD_zip u v (hu.trans hv.symm), ha, List.zipWith_cons_cons, zip_repl]
  have he : ∀ n (g : ℚ → ℚ), g 0 = 0 → (∀ a b, g (a + b) = g a + g b) →
      AddEval (n + 1) fun v : List ℚ => g (v.getD 0 0) := by
    intro n g h0 ha
    refine ⟨?_, ?_⟩
    · simp only [getD_repl, h0]
    · intro u v hu hv
      simp only [getD_zip u v (hu.trans hv.symm), ha]
  refine ⟨?_, ?_, ?_, ?_, ?_, ?_, ?_, ?_, ?_, ?_⟩
  · intro l r s c
    rw [hs]
    simp only [monoLib, List.map_cons, List.map_nil, List.sum_cons, List.sum_nil, add_zero]
    exact (vsum_head _ _ _).symm
  · intro l r s c; rw [hs]; simp [monoLib]
  · intro l r s c
    rw [hs]
    simp only [monoLib, List.map_cons, List.map_nil, List.sum_cons, List.sum_nil, add_zero]
    exact (vsum_head _ _ _).symm
  · intro l r s c; rw [hs]; simp [monoLib]
  · intro l l' r c r' c' rad
    rw [hs, hs]
    exact hm _ _ (fun a => a) rfl (fun _ _ => rfl)
  · intro l rot r c r' c' rad
    rw [hs]
    exact hm _ _ (fun a => a * (c' 0 - c 0)) (zero_mul _) (fun _ _ => add_mul _ _ _)
  · intro l l' r c r' c' rad
    rw [hs, hs]
    exact hm _ _ (fun a => a) rfl (fun _ _ => rfl)
  · intro l r c x
    rw [hs]
    exact he _ (fun a => a * (x 0 - c 0)) (zero_mul _) (fun _ _ => add_mul _ _ _)
  · intro l r c x
    rw [hs]
    exact he _ (fun a => a) rfl (fun _ _ => rfl)
  · intro s x
    simp [monoLib]

section Accuracy
variable (inp : TravInput) (w : Wrangler ℚ ℚ) (src : Nat → Src ℚ ℚ) (q : Particles)
  (x : Nat → Nat → ℚ) (angle : Nat → Nat → ℚ) (lo L : ℚ)

theorem mono_mp {j b : Nat} {v : List ℚ} (h : MPChain inp q monoLib w src j b v) :
    v.getD 0 0 = (src j).weight := by
  induction h with
  | form b _ _ _ => simp [monoLib]
  | up c v _ _ _ ih => exact ih

/-- The point lies in the interval along the first axis. -/
def In (z : ℚ) : Prop := lo ≤ z ∧ z ≤ lo + L

theorem mono_loc (hc : ∀ b, b < inp.tree.nboxes → In lo L (inp.tree.center b 0))
    {j b : Nat} (hj : In lo L ((src j).pos 0)) {v : List ℚ}
    (h : LOCChain inp q monoLib w src angle j b v) :
    ∃ a z, In lo L a ∧ In lo L z ∧ v.getD 0 0 = (src j).weight * (a - z) := by
  induction h with
  | m2l b s rot v hb hs _ _ _ _ hv =>
    refine ⟨_, _, hc b hb, hc s hs, ?_⟩
    change v.getD 0 0 * _ = _
    rw [mono_mp inp w src q hv]
  | form b s hb _ _ _ _ _ _ _ _ _ => exact ⟨_, _, hc b hb, hj, by simp [monoLib]⟩
  | down b v _ _ _ ih => exact ih

/-- Every chain of `monoLib` is within `2 L` per unit of strength of `weight * (x₀ - y₀)`. -/
theorem mono_acc (hc : ∀ b, b < inp.tree.nboxes → In lo L (inp.tree.center b 0))
    {i j : Nat} (hj : In lo L ((src j).pos 0)) (hi : In lo L (x i 0)) {p : ℚ}
    (h : Chain inp q monoLib w src x angle i j p) :
    |p - (src j).weight * (x i 0 - (src j).pos 0)| ≤ 2 * L * |(src j).weight| := by
  have key : ∃ a z, In lo L a ∧ In lo L z ∧ p = (src j).weight * (a - z) := by
    cases h with
    | direct => exact ⟨_, _, hi, hj, by simp [monoLib]⟩
    | mp b s v _ _ _ hs _ _ _ _ _ _ hv =>
      refine ⟨_, _, hi, hc s hs, ?_⟩
      change v.getD 0 0 * _ = _
      rw [mono_mp inp w src q hv]
    | loc b v _ _ _ hv => exact mono_loc inp w src q angle lo L hc hj hv
  obtain ⟨a, z, ha, hz, rfl⟩ := key
  rw [← mul_sub, abs_mul, mul_comm]
  apply mul_le_mul_of_nonneg_right _ (abs_nonneg _)
  rw [abs_le]
  unfold In at *
  constructor <;> linarith [ha.1, ha.2, hz.1, hz.2, hi.1, hi.2, hj.1, hj.2]

end Accuracy

/-- All hypotheses of `C60_error_bound` hold together on a tree with list 2 interactions: with
`monoLib` the error is at most 16 times the total strength. -/
example (weights : Nat → ℚ) : ∃ trav pot, buildTraversal quadInput = .ok trav ∧
    drive quad quadParticles monoLib quadWrangler trav weights = .ok pot ∧
    ∀ i, i < 16 → ∃ p, pot i = -p ∧ |p - ∑ j ∈ Finset.range 16,
      weights j * (quad.center (20 - i) 0 - quad.center (20 - j) 0)| ≤
        ∑ j ∈ Finset.range 16, 2 * 8 * |weights j| := by
  obtain ⟨trav, htrav⟩ : ∃ trav, buildTraversal quadInput = .ok trav := ⟨_, rfl⟩
  have hc : ∀ b, b < 21 → In 0 8 (quad.center b 0) := by unfold In; decide +kernel
  have := C60_error_bound quadInput trav quadInput_ok quad_levels htrav rfl rfl (Or.inl rfl)
    quadParticles quadParticles_ok monoLib quadWrangler (monoLib_linear quad quadWrangler rfl rfl)
    (fun j => ⟨quad.center (20 - j), weights j, none⟩) (fun i => quad.center (20 - i))
    (fun _ _ => 0) weights ⟨?_, fun _ _ => rfl, fun _ _ => rfl, ?_⟩ (by intro _ _ h; cases h)
    (fun i j => weights j * (quad.center (20 - i) 0 - quad.center (20 - j) 0))
    (fun _ j => 2 * 8 * |weights j|) ?_
  · obtain ⟨pot, h1, h2⟩ := this
    exact ⟨trav, pot, htrav, h1, h2⟩
  · intro j hj
    have hj' : j < 16 := hj
    funext i
    change quad.center (j + 5) i = quad.center (20 - (15 - j)) i
    rw [show 20 - (15 - j) = j + 5 by omega]
  · intro i hi
    have hi' : i < 16 := hi
    funext k
    change quad.center (15 - i + 5) k = quad.center (20 - i) k
    rw [show 15 - i + 5 = 20 - i by omega]
  · intro i j p hi hj h
    have := mono_acc quadInput quadWrangler (fun j => ⟨quad.center (20 - j), weights j, none⟩)
      quadParticles (fun i => quad.center (20 - i)) (fun _ _ => 0) 0 8 hc (i := i) (j := j)
      (hc (20 - j) (by omega)) (hc (20 - i) (by omega)) h
    exact this

end Ex

end Boxtree.FmmLib
