import Verif.Props.TobRequests

set_option linter.unusedSimpArgs false
set_option linter.unusedVariables false

/-!
# C16: refining and then coarsening again gives the same tree
-/

namespace Boxtree
open Tob

namespace Tob

/-- Boxes of the same level with the same center are the same box. -/
theorem Core.eq_of_key {t : Tob} (hc : t.Core (· < t.nboxes)) {L : Nat}
    (hL : ∀ b, b < t.nboxes → t.level b < L) {a b : Nat} (ha : a < t.nboxes) (hb : b < t.nboxes)
    (hl : t.level a = t.level b) (he : ∀ i, i < t.dims → t.center a i = t.center b i) : a = b := by
  have hw := hc.wf hL
  have hr := hw.rad_pos (t.level b)
  have hrb : ∀ i, i < t.dims → t.center b i - (t.toBoxTree L).rad (t.level b) ≤ t.center b i ∧
      t.center b i < t.center b i + (t.toBoxTree L).rad (t.level b) := by
    intro i _; constructor <;> linarith
  refine hw.inCell_unique (x := t.center b) ha hb hl rfl ?_ hrb
  intro i hi
  have := hrb i hi
  change t.center a i - (t.toBoxTree L).rad (t.level a) ≤ t.center b i ∧
    t.center b i < t.center a i + (t.toBoxTree L).rad (t.level a)
  rw [hl, he i hi]; exact this

end Tob

/-- **C16.** Refine a set of leaves; then flag for coarsening exactly the boxes that the original tree
does not have.  Both calls return, and the result is the original tree up to the numbering of its
boxes: same levels, centers, parents and children. -/
theorem C16_refine_then_coarsen (s1 s2 : List Nat → List Nat) (hs1 : IsArgsort s1)
    (hs2 : IsArgsort s2) (t : Tob) (hv : t.Valid) (hsig : t.lvSigned = true)
    (hL : ∀ b, b < t.nboxes → t.level b + 2 < t.lvBits) (rf : Nat → Bool)
    (hleaf : ∀ b, b < t.nboxes → rf b = true → t.NoChildren b)
    (hdeep : ∀ b, b < t.nboxes → rf b = true → t.level b + 3 < t.lvBits) :
    ∃ t1, t.refineTree s1 rf = .ok t1 ∧ ∀ cf : Nat → Bool,
      (∀ b, b < t1.nboxes → (cf b = true ↔ ¬ t.HasBox (t1.level b) (t1.center b))) →
      ∃ t2, t1.coarsenTree s2 cf = .ok t2 ∧ ∃ f, SameUpTo t t2 f := by
  have hc := hv.toCore
  have h0 : (0 : Nat) < t.nboxes := hc.root
  obtain ⟨t1, ht1⟩ : ∃ t1, t.refineAndCoarsen s1 rf (fun _ => false) true = .ok t1 := by
    refine (C17_rejected_requests s1 t hv rf (fun _ => false) true).2.2.2.2.2.2
      ⟨by simp, ?_, by simp, by simp, by simp⟩
    rintro ⟨b, hb, hr, hn⟩; exact hn (hleaf b hb hr)
  refine ⟨t1, ht1, ?_⟩
  intro cf hcf
  obtain ⟨tr, tc, σ, τ, _, _, _, hf⟩ := step_facts hs1 hv hsig hL hdeep ht1
  have hRf := hf.refineFacts
  have hCf := hf.coarsenFacts
  have hRe := hf.relabel
  have hnle : t.nboxes ≤ tr.nboxes := by rw [hRf.nboxes]; omega
  have hex0 : tr.executed (resizeFlags t.nboxes fun _ => false) = [] := by
    unfold executed
    have : (List.range tr.nboxes).filter (resizeFlags t.nboxes fun _ => false) = [] := by
      rw [List.filter_eq_nil_iff]; intro b _; simp [resizeFlags]
    rw [this]; rfl
  have hpe0 : ∀ b, b ∉ tr.cpeers (tr.executed (resizeFlags t.nboxes fun _ => false)) := by
    intro b; rw [hex0]; simp [cpeers, cparents]
  have hpa0 : ∀ b, b ∉ tr.cparents (tr.executed (resizeFlags t.nboxes fun _ => false)) := by
    intro b; rw [hex0]; simp [cparents]
  -- the first call in terms of the refined tree
  have fwd1 : ∀ b, b < t1.nboxes → σ b < tr.nboxes ∧ τ (σ b) = b :=
    fun b hb => ⟨(hRe.fwd b hb).1.1, (hRe.fwd b hb).2⟩
  have bwd1 : ∀ a, a < tr.nboxes → τ a < t1.nboxes ∧ σ (τ a) = a :=
    fun a ha => hRe.bwd a ⟨ha, hpe0 a⟩
  have lev1 : ∀ b, b < t1.nboxes → t1.level b = tr.level (σ b) := by
    intro b hb; rw [hRe.level b hb, hCf.level, if_neg (hpe0 _)]
  have cen1 : ∀ b, b < t1.nboxes → t1.center b = tr.center (σ b) := by
    intro b hb; rw [hRe.center b hb, hCf.center]
  have par1 : ∀ b, b < t1.nboxes → t1.parent b =
      if 0 ≤ tr.parent (σ b) then (τ (tr.parent (σ b)).toNat : Int) else tr.parent (σ b) := by
    intro b hb; rw [hRe.parent b hb, hCf.parent, if_neg (hpe0 _)]
  have chi1 : ∀ b, b < t1.nboxes → ∀ m, t1.child m b =
      if tr.child m (σ b) ≠ 0 then τ (tr.child m (σ b)) else 0 := by
    intro b hb m; rw [hRe.child b hb, hCf.child, if_neg (hpa0 _)]
  have dims1 : t1.dims = t.dims := by rw [hRe.dims, hCf.dims, hRf.dims]
  have nch1 : t1.nch = t.nch := by simp [nch, dims1]
  have bits1 : t1.lvBits = t.lvBits := by rw [hRe.bits, hCf.bits, hRf.bits]
  have sig1 : t1.lvSigned = true := by rw [hRe.signed, hCf.signed, hRf.signed, hsig]
  have hσ0 : σ 0 = 0 := by
    have := (bwd1 0 (by omega)).2; rwa [hRe.root] at this
  -- which boxes are flagged: the new ones
  have hnew : ∀ b, b < t1.nboxes → (cf b = true ↔ t.nboxes ≤ σ b) := by
    intro b hb
    rw [hcf b hb]
    obtain ⟨h1, _⟩ := fwd1 b hb
    constructor
    · intro hno
      by_contra hlt
      have hlt : σ b < t.nboxes := by omega
      apply hno
      refine ⟨σ b, hlt, ?_, ?_⟩
      · rw [lev1 b hb, hRf.level _ hlt]
      · intro i _; rw [cen1 b hb, hRf.center _ hlt]
    · rintro hge ⟨a, ha, hla, hca⟩
      have : a = σ b := by
        apply hf.coreR.eq_of_key (L := t.lvBits) (fun b hb => by have := hf.levelB b hb; omega)
          (by omega) h1
        · rw [hRf.level a ha, hla, lev1 b hb]
        · intro i hi
          rw [hRf.dims] at hi
          rw [hRf.center a ha, hca i hi, cen1 b hb]
      omega
  -- siblings of a flagged box are flagged leaves
  have hnew_leaf : ∀ b, b < t1.nboxes → t.nboxes ≤ σ b → t1.NoChildren b := by
    intro b hb hge m _
    rw [chi1 b hb, hRf.child_new _ hge (fwd1 b hb).1]; simp
  have hpar_new : ∀ a, a < tr.nboxes → t.nboxes ≤ a → ∃ p, p < t.nboxes ∧ rf p = true ∧
      tr.parent a = (p : Nat) := by
    intro a ha hge
    obtain ⟨k, m, hk, hm, rfl⟩ := new_index (nch_pos t) hge (by rw [← hRf.nboxes]; exact ha)
    have hmem := getD_mem hk
    simp only [List.mem_filter, List.mem_range] at hmem
    exact ⟨_, hmem.1, hmem.2, hRf.parent_new k m hk hm⟩
  have hpar_old : ∀ a, a < t.nboxes → a ≠ 0 → ∃ p, p < t.nboxes ∧ ¬ rf p = true ∧
      tr.parent a = (p : Nat) ∧ t.parent a = (p : Nat) := by
    intro a ha h0'
    obtain ⟨p, hp, hpa, _, m, hm, hcm⟩ := hc.parent_alive a ha h0'
    refine ⟨p, hp, ?_, by rw [hRf.parent a ha, hpa], hpa⟩
    intro hr
    have := hleaf p hp hr m hm
    omega
  have hsame : ∀ a b, a < t1.nboxes → b < t1.nboxes → a ≠ 0 → t1.parent a = t1.parent b →
      t.nboxes ≤ σ b → t.nboxes ≤ σ a := by
    intro a b ha hb ha0 hpe hge
    by_contra hlt
    have hlt : σ a < t.nboxes := by omega
    have hσa : σ a ≠ 0 := by
      intro h
      have := (fwd1 a ha).2
      rw [h, hRe.root] at this
      omega
    obtain ⟨p, hp, hrp, hpa⟩ := hpar_new _ (fwd1 b hb).1 hge
    obtain ⟨q, hq, hrq, hqa, _⟩ := hpar_old _ hlt hσa
    rw [par1 a ha, par1 b hb, hpa, hqa] at hpe
    simp at hpe
    have : q = p := by
      rw [← (bwd1 q (by omega)).2, ← (bwd1 p (by omega)).2, hpe]
    subst this
    exact hrq hrp
  have hne0 : ∀ b, b < t1.nboxes → t.nboxes ≤ σ b → b ≠ 0 := by
    rintro b hb hge rfl
    rw [hσ0] at hge; omega
  have heff : ∀ b, b < t1.nboxes → cf b = true → t1.Effective (fun _ => false) b := by
    rintro b hb hcb c ⟨hc1, hc2, _, hc3⟩
    have hge := (hnew b hb).1 hcb
    exact ⟨hnew_leaf c hc1 (hsame c b hc1 hb hc2 hc3 hge), rfl⟩
  have hv1 := hf.valid
  have ht10 : (0 : Nat) < t1.nboxes := hv1.root
  obtain ⟨t2, ht2⟩ : ∃ t2, t1.refineAndCoarsen s2 (fun _ => false) cf true = .ok t2 := by
    refine (C17_rejected_requests s2 t1 hv1 (fun _ => false) cf true).2.2.2.2.2.2
      ⟨by simp, by simp, ?_, ?_, ?_⟩
    · rintro ⟨b, hb, hcb, hn⟩
      exact hn (hnew_leaf b hb ((hnew b hb).1 hcb))
    · intro hcb
      exact hne0 0 ht10 ((hnew 0 ht10).1 hcb) rfl
    · rintro ⟨_, b, hb, hcb, hn⟩
      exact hn (heff b hb hcb)
  refine ⟨t2, ht2, ?_⟩
  have hL1 : ∀ b, b < t1.nboxes → t1.level b + 2 < t1.lvBits := by
    intro b hb; rw [lev1 b hb, bits1]; exact hf.levelB _ (fwd1 b hb).1
  obtain ⟨tr2, tc2, σ2, τ2, _, _, _, hg⟩ := step_facts hs2 hv1 sig1 hL1 (by simp) ht2
  have gRf := hg.refineFacts
  have gCf := hg.coarsenFacts
  have gRe := hg.relabel
  have hps0 : (List.range t1.nboxes).filter (fun _ => false) = [] := by simp
  rw [hps0] at gRf
  have n2 : tr2.nboxes = t1.nboxes := by rw [gRf.nboxes]; simp
  have gchi : ∀ b, b < t1.nboxes → ∀ m, tr2.child m b = t1.child m b :=
    fun b hb m => gRf.child_old b hb (by simp) m
  have gexe : ∀ s, s ∈ tr2.executed (resizeFlags t1.nboxes cf) ↔ s < t1.nboxes ∧ cf s = true := by
    intro s
    rw [mem_executed, resize_true, n2]
    constructor
    · rintro ⟨_, h, _⟩; exact h
    · rintro ⟨h1, h2⟩
      refine ⟨h1, ⟨h1, h2⟩, ?_⟩
      have hb0 := hne0 s h1 ((hnew s h1).1 h2)
      have hrr := hg.refineFacts
      exact (hrr.canCoarsen_iff hv1.toCore hg.refineLeaf h1 hb0).2 (heff s h1 h2)
  have gpeer : ∀ b, b < t1.nboxes → (b ∈ tr2.cpeers (tr2.executed (resizeFlags t1.nboxes cf)) ↔
      t.nboxes ≤ σ b) := by
    intro b hb
    rw [hg.coreR.cpeers_iff (by
      intro s hs
      obtain ⟨h1, h2⟩ := (gexe s).1 hs
      exact ⟨by omega, (hg.coarsenLeaf s h1 h2).2⟩)]
    constructor
    · rintro ⟨_, hb0, s, hs, he⟩
      obtain ⟨h1, h2⟩ := (gexe s).1 hs
      rw [gRf.parent b hb, gRf.parent s h1] at he
      exact hsame b s hb h1 hb0 he ((hnew s h1).1 h2)
    · intro hge
      exact ⟨by omega, hne0 b hb hge, b, (gexe b).2 ⟨hb, (hnew b hb).2 hge⟩, rfl⟩
  have gpar : ∀ b, b < t1.nboxes → (b ∈ tr2.cparents (tr2.executed (resizeFlags t1.nboxes cf)) ↔
      σ b < t.nboxes ∧ rf (σ b) = true) := by
    intro b hb
    rw [mem_cparents]
    constructor
    · rintro ⟨s, hs, he⟩
      obtain ⟨h1, h2⟩ := (gexe s).1 hs
      obtain ⟨p, hp, hrp, hpa⟩ := hpar_new _ (fwd1 s h1).1 ((hnew s h1).1 h2)
      rw [gRf.parent s h1, par1 s h1, hpa] at he
      simp at he
      rw [← he, (bwd1 p (by omega)).2]
      exact ⟨hp, hrp⟩
    · rintro ⟨hlt, hrb⟩
      have hmem : σ b ∈ (List.range t.nboxes).filter rf := by simp [hlt, hrb]
      have hcp := nch_pos t
      have hchild := hRf.child_ps _ hmem 0
      obtain ⟨h1, h2⟩ := hf.coreR.child_alive (σ b) (by omega) 0 (by rw [hRf.nch]; exact hcp)
        (by rw [hchild]; omega)
      obtain ⟨h3, h4⟩ := bwd1 _ h1
      refine ⟨τ (tr.child 0 (σ b)), (gexe _).2 ⟨h3, (hnew _ h3).2 ?_⟩, ?_⟩
      · rw [h4, hchild]; omega
      · rw [gRf.parent _ h3, par1 _ h3, h4, h2]
        simp [(fwd1 b hb).2]
  -- the boxes of the final tree
  have A2 : ∀ a, a < t.nboxes → τ2 (τ a) < t2.nboxes ∧ σ2 (τ2 (τ a)) = τ a := by
    intro a ha
    obtain ⟨h1, h2⟩ := bwd1 a (by omega)
    refine gRe.bwd _ ⟨by omega, ?_⟩
    rw [gpeer _ h1, h2]; omega
  have B2 : ∀ b, b < t2.nboxes → σ2 b < t1.nboxes ∧ σ (σ2 b) < t.nboxes ∧ τ2 (σ2 b) = b := by
    intro b hb
    obtain ⟨⟨h1, h2⟩, h3⟩ := gRe.fwd b hb
    rw [n2] at h1
    rw [gpeer _ h1] at h2
    exact ⟨h1, by omega, h3⟩
  have dims2 : t2.dims = t.dims := by rw [gRe.dims, gCf.dims, gRf.dims, dims1]
  have finj : ∀ a b, a < t.nboxes → b < t.nboxes → τ2 (τ a) = τ2 (τ b) → a = b := by
    intro a b ha hb he
    have h1 := (A2 a ha).2
    have h2 := (A2 b hb).2
    have h3 := (bwd1 a (by omega)).2
    have h4 := (bwd1 b (by omega)).2
    rw [← h3, ← h4, ← h1, ← h2, he]
  have froot : τ2 (τ 0) = 0 := by rw [hRe.root, gRe.root]
  refine ⟨fun b => τ2 (τ b), ?_⟩
  refine ⟨dims2, ?_, ?_, fun b hb => (A2 b hb).1, finj, froot, ?_, ?_, ?_, ?_⟩
  · rw [gRe.ext, gCf.ext, gRf.ext, hRe.ext, hCf.ext, hRf.ext]
  · apply Nat.le_antisymm
    · have := Finset.card_le_card_of_injOn (s := Finset.range t2.nboxes) (t := Finset.range t.nboxes)
        (fun b => σ (σ2 b)) (by
          intro b hb
          simp only [Finset.coe_range, Set.mem_Iio] at hb ⊢
          exact (B2 b hb).2.1) (by
          intro a ha b hb he
          simp only [Finset.coe_range, Set.mem_Iio] at ha hb he
          have h1 := B2 a ha
          have h2 := B2 b hb
          have h3 := (fwd1 _ h1.1).2
          have h4 := (fwd1 _ h2.1).2
          rw [← h1.2.2, ← h2.2.2, ← h3, ← h4, he])
      simpa using this
    · have := Finset.card_le_card_of_injOn (s := Finset.range t.nboxes) (t := Finset.range t2.nboxes)
        (fun b => τ2 (τ b)) (by
          intro b hb
          simp only [Finset.coe_range, Set.mem_Iio] at hb ⊢
          exact (A2 b hb).1) (by
          intro a ha b hb he
          simp only [Finset.coe_range, Set.mem_Iio] at ha hb he
          exact finj a b ha hb he)
      simpa using this
  · intro b hb
    obtain ⟨h1, h2⟩ := A2 b hb
    obtain ⟨h3, h4⟩ := bwd1 b (by omega)
    have hnp : τ b ∉ tr2.cpeers (tr2.executed (resizeFlags t1.nboxes cf)) := by
      rw [gpeer _ h3, h4]; omega
    rw [gRe.level _ h1, h2, gCf.level, if_neg hnp, gRf.level _ h3, lev1 _ h3, h4, hRf.level b hb]
  · intro b hb i hi
    obtain ⟨h1, h2⟩ := A2 b hb
    obtain ⟨h3, h4⟩ := bwd1 b (by omega)
    rw [gRe.center _ h1, h2, gCf.center, gRf.center _ h3, cen1 _ h3, h4, hRf.center b hb]
  · intro b hb hb0
    obtain ⟨h1, h2⟩ := A2 b hb
    obtain ⟨h3, h4⟩ := bwd1 b (by omega)
    have hnp : τ b ∉ tr2.cpeers (tr2.executed (resizeFlags t1.nboxes cf)) := by
      rw [gpeer _ h3, h4]; omega
    obtain ⟨p, hp, _, hpr, hpt⟩ := hpar_old b hb hb0
    have h5 : t1.parent (τ b) = (τ p : Nat) := by
      rw [par1 _ h3, h4, hpr]; simp
    rw [gRe.parent _ h1, h2, gCf.parent, if_neg hnp, gRf.parent _ h3, h5, hpt]
    simp
  · intro b hb m hm
    obtain ⟨h1, h2⟩ := A2 b hb
    obtain ⟨h3, h4⟩ := bwd1 b (by omega)
    by_cases hr : rf b = true
    · have hz := hleaf b hb hr m hm
      rw [gRe.child _ h1, h2, gCf.child, if_pos ((gpar _ h3).2 (by rw [h4]; exact ⟨hb, hr⟩)), hz]
      simpa using froot.symm
    · have hnpar : τ b ∉ tr2.cparents (tr2.executed (resizeFlags t1.nboxes cf)) := by
        rw [gpar _ h3, h4]; exact fun h => hr h.2
      have hnps : b ∉ (List.range t.nboxes).filter rf := by simp [hr]
      rw [gRe.child _ h1, h2, gCf.child, if_neg hnpar, gchi _ h3, chi1 _ h3, h4,
        hRf.child_old b hb hnps]
      by_cases hz : t.child m b = 0
      · rw [hz]; simpa using froot.symm
      · rw [if_pos hz]
        have hcl := (hc.child_alive b hb m hm hz).1
        have hcne : τ (t.child m b) ≠ 0 := by
          intro h
          have := (bwd1 (t.child m b) (by omega)).2
          rw [h, hσ0] at this
          omega
        rw [if_pos hcne]

/-- The tree after two refinements of the root meets the hypotheses of `C16_refine_then_coarsen` and
of the theorems of `TobRequests`. -/
example : ∃ t : Tob, t.Valid ∧ t.lvSigned = true ∧
    (∀ b, b < t.nboxes → t.level b + 2 < t.lvBits) ∧
    (∀ b, b < t.nboxes → t.isLeaf b = true → t.NoChildren b) ∧ t.nboxes = 21 := by
  have h : nboxesAfter exRoot [.uniformlyRefine stableArgsort, .uniformlyRefine stableArgsort] =
    some 21 := by decide +kernel
  unfold nboxesAfter at h
  split at h
  · rename_i u hu
    have hs : ∀ r ∈ ([.uniformlyRefine stableArgsort, .uniformlyRefine stableArgsort] :
        List Request), IsArgsort r.argsort := by
      intro r hr; simp at hr; rw [hr]; exact stableArgsort_ok
    have hI := (root_inv (dims := 2) (bits := 32) (lo := fun _ => 0) (hi := fun _ => 16) (by omega)
      (by norm_num) (by omega)).history hs
      (C14_short_histories 2 32 _ _ (by omega) (by norm_num) _ hs (by decide)) hu
    exact ⟨u, hI.valid, hI.signed, hI.level, fun b _ h => (isLeaf_iff u b).1 h, by simpa using h⟩
  · simp at h

/-- **C18**, documentation: "when children of the same parent box are marked differently, the
refinement flag takes priority".  With the default `error_on_ignored_flags=True` that request is
rejected instead. -/
theorem C18_default_rejects_mixed_siblings (argsort : List Nat → List Nat) (t : Tob) (hv : t.Valid)
    (rf cf : Nat → Bool) (a b : Nat) (hb : b < t.nboxes) (hsib : t.Sibling b a)
    (ha : rf a = true) (hcb : cf b = true) : ∃ e, t.refineAndCoarsen argsort rf cf true = .error e := by
  cases h : t.refineAndCoarsen argsort rf cf true with
  | error e => exact ⟨e, rfl⟩
  | ok u =>
    exfalso
    have := (C17_rejected_requests argsort t hv rf cf true).2.2.2.2.2.1 ⟨u, h⟩
    apply this.2.2.2.2
    refine ⟨rfl, b, hb, hcb, ?_⟩
    intro he
    have := (he a hsib).2
    rw [ha] at this; simp at this

end Boxtree
