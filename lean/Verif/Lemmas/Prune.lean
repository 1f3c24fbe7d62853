import Verif.Lemmas.Build

/-! The pruned and the unpruned tree of the same state. -/

namespace Boxtree.Build

section
variable {P : Params} {C : Cloud} {len : Nat → Nat} {L : Nat} {s : State}
  {hc : Nat → Nat → Bool} {o : Bool}

/-- Old number of a box. -/
def oldNumber (P : Params) (len : Nat → Nat) (L : Nat) (s : State) (b : Nat) : Nat :=
  rankOf (keeps true len L s) (srcBoxId (flatten P len L s).nboxes (keeps false len L s) b)

/-- The state with other marks. -/
abbrev marked (s : State) (hc : Nat → Nat → Bool) (o : Bool) : State :=
  { s with hasCh := hc, oversize := o }

theorem FinOK.old_nid (h : FinOK P false len L (marked s hc o)) {l k : Nat}
    (hk : Kept false s l k) :
    oldNumber P len L s (nid false len L s l k) = nid true len L s l k := by
  unfold oldNumber
  have : srcBoxId (flatten P len L s).nboxes (keeps false len L s) (nid false len L s l k)
    = levelStart len l + k := h.src_nid hk
  rw [this]; rfl

/-- What is stored about the own particles of a box, without reference to the number of the box. -/
def storedNonchild (P : Params) (len : Nat → Nat) (L : Nat) (s : State) (l k : Nat) : Nat :=
  if P.haveExtent then
    if levelStart len L ≤ levelStart len l + k then 0
    else if s.count l k = 0 then 0 else (s.bins l k).nonchild
  else 0

theorem FinOK.fin_nonchild_stored {skip : Bool} (h : FinOK P skip len L (marked s hc o)) {l k : Nat}
    (hk : Kept skip s l k) :
    (fin P skip len L s).nonchild (nid skip len L s l k) = storedNonchild P len L s l k := by
  show (if P.haveExtent then
      if levelStart len L ≤ srcBoxId _ _ _ then 0
      else if s.count (locate _ _ _ _).1 (locate _ _ _ _).2 = 0 then 0
      else (s.bins (locate _ _ _ _).1 (locate _ _ _ _).2).nonchild
    else 0) = _
  have h1 : srcBoxId (flatten P len L s).nboxes (keeps skip len L s) (nid skip len L s l k)
    = levelStart len l + k := h.src_nid hk
  have h2 : locate len (L + 1) 0 (levelStart len l + k) = (l, k) :=
    locate_id len (h.kept_level hk).1 (h.kept_level hk).2
  rw [h1, h2]
  rfl

theorem FinOK.fin_hasCh_marked {skip : Bool} (h : FinOK P skip len L (marked s hc o)) {l k : Nat}
    (hk : Kept skip s l k) :
    (fin P skip len L s).hasCh (nid skip len L s l k) = s.hasCh l k := by
  show s.hasCh (locate _ _ _ _).1 (locate _ _ _ _).2 = _
  have h1 : locate len (L + 1) 0 (srcBoxId (flatten P len L s).nboxes (keeps skip len L s)
      (nid skip len L s l k)) = (l, k) := h.loc hk
  rw [h1]

theorem scatter_congr {n b b' : Nat} {cells cells' : Nat → List Nat}
    {value value' : Nat → Nat → Nat} (h : ∀ i < n, (b ∈ cells i ↔ b' ∈ cells' i))
    (hv : ∀ i < n, b ∈ cells i → value i b = value' i b') :
    scatter n cells value b = scatter n cells' value' b' := by
  unfold scatter
  have e : (List.range n).find? (fun i => decide (b ∈ cells i))
      = (List.range n).find? (fun i => decide (b' ∈ cells' i)) := by
    apply List.find?_congr
    intro i hi
    rw [decide_eq_decide]
    exact h i (List.mem_range.1 hi)
  rw [← e]
  cases hf : (List.range n).find? fun i => decide (b ∈ cells i) with
  | none => rfl
  | some i =>
    have h1 := List.find?_some hf
    exact hv i (List.mem_range.1 (List.mem_of_find?_eq_some hf)) (by simpa using h1)

theorem boxNonchild_pruned (h₀ : FinOK P false len L (marked s hc o))
    (h₁ : FinOK P true len L (marked s hc o)) {ns : Nat} {ids : Nat → Nat} {src : Bool} {l k : Nat}
    (hk : Kept false s l k) :
    boxNonchild (FinOK.fin P false len L s) P.n ns ids src (nid false len L s l k)
      = boxNonchild (FinOK.fin P true len L s) P.n ns ids src (nid true len L s l k) := by
  have up : ∀ l k, Kept false s l k → Kept true s l k := fun l k h => ⟨h.1, .inl rfl⟩
  have st : ∀ l k, Kept false s l k → (FinOK.fin P false len L s).start (nid false len L s l k)
      = (FinOK.fin P true len L s).start (nid true len L s l k) := fun l k h =>
    (h₀.fin_start h).trans (h₁.fin_start (up l k h)).symm
  have non : ∀ l k, Kept false s l k → (FinOK.fin P false len L s).nonchild (nid false len L s l k)
      = (FinOK.fin P true len L s).nonchild (nid true len L s l k) := fun l k h =>
    (h₀.fin_nonchild_stored h).trans (h₁.fin_nonchild_stored (up l k h)).symm
  unfold boxNonchild
  apply scatter_congr
  · intro i hi
    have e₀ : (FinOK.fin P false len L s).pbox i = nid false len L s (s.box i).1 (s.box i).2 :=
      h₀.fin_pbox hi
    have e₁ : (FinOK.fin P true len L s).pbox i = nid true len L s (s.box i).1 (s.box i).2 :=
      h₁.fin_pbox hi
    have hkb : Kept false s (s.box i).1 (s.box i).2 := h₀.kept_box hi
    rw [e₀, e₁, st _ _ hkb, non _ _ hkb]
    split
    · rw [List.mem_singleton, List.mem_singleton]
      constructor
      · intro h
        obtain ⟨a, b⟩ := h₀.nid_inj hk hkb h
        rw [a, b]
      · intro h
        obtain ⟨a, b⟩ := h₁.nid_inj (up _ _ hk) (up _ _ hkb) h
        rw [a, b]
    · simp
  · intro i _ _
    unfold kindCount
    rw [st _ _ hk]

theorem population_pos {skip : Bool} (h : FinOK P skip len L (marked s hc o)) {b : Nat}
    (hb : b < (FinOK.fin P skip len L s).nboxes) :
    0 < (finish P C skip len L s).population b ↔ 0 < (FinOK.fin P skip len L s).count b := by
  obtain ⟨_, _, e3, e4⟩ := finish_hasCh (P := P) C skip len L s hc o
  have hS := srcKind (C := C) h
  have hT := tgtKind (C := C) h
  rw [e3] at hS
  rw [e4] at hT
  unfold Built.population
  constructor
  · intro h0
    rcases Nat.eq_zero_or_pos ((finish P C skip len L s).particles.srcCumul b) with h1 | h1
    · exact hT.cu_pos_count hb (by omega)
    · exact hS.cu_pos_count hb h1
  · intro h0
    have hk : C.kind s.ids true ((FinOK.fin P skip len L s).start b) ∨
        C.kind s.ids false ((FinOK.fin P skip len L s).start b) := by
      unfold Cloud.kind
      by_cases hi : s.ids ((FinOK.fin P skip len L s).start b) < C.nsources
      · exact .inl (.inr (isKind_true.2 hi))
      · exact .inr (.inr (isKind_false.2 hi))
    rcases hk with hk | hk
    · have := (hS.mem_cu hb hk).2 ⟨le_refl _, Nat.lt_add_of_pos_right h0⟩
      omega
    · have := (hT.mem_cu hb hk).2 ⟨le_refl _, Nat.lt_add_of_pos_right h0⟩
      omega

theorem kept_false {l k : Nat} (h : Kept true s l k) : Kept false s l k ↔ 0 < s.count l k := by
  unfold Kept
  simp only [Bool.false_eq_true, false_or]
  have := h.1
  omega

theorem finish_pruned (h₀ : FinOK P false len L (marked s hc o))
    (h₁ : FinOK P true len L (marked s hc o)) :
    PrunedFrom (finish P C true len L s) (finish P C false len L s) (oldNumber P len L s) := by
  have up : ∀ l k, Kept false s l k → Kept true s l k := fun l k h => ⟨h.1, .inl rfl⟩
  have ex : ∀ b < (finish P C false len L s).tree.nboxes, ∃ l k, Kept false s l k ∧
      b = nid false len L s l k := fun b hb => h₀.exists_nid hb
  have ex₁ : ∀ b < (finish P C true len L s).tree.nboxes, ∃ l k, Kept true s l k ∧
      b = nid true len L s l k := fun b hb => h₁.exists_nid hb
  obtain ⟨a1, a2, a3, a4⟩ := finish_hasCh (P := P) C false len L s hc o
  obtain ⟨b1, b2, b3, b4⟩ := finish_hasCh (P := P) C true len L s hc o
  have hS₀ := srcKind (C := C) h₀
  have hT₀ := tgtKind (C := C) h₀
  have hS₁ := srcKind (C := C) h₁
  have hT₁ := tgtKind (C := C) h₁
  rw [a1, a3] at hS₀
  rw [a2, a4] at hT₀
  rw [b1, b3] at hS₁
  rw [b2, b4] at hT₁
  have lt₀ : ∀ l k, Kept false s l k → nid false len L s l k < (FinOK.fin P false len L s).nboxes :=
    fun l k h => h₀.nid_lt h
  have lt₁ : ∀ l k, Kept true s l k → nid true len L s l k < (FinOK.fin P true len L s).nboxes :=
    fun l k h => h₁.nid_lt h
  have st : ∀ l k, Kept false s l k → (FinOK.fin P false len L s).start (nid false len L s l k)
      = (FinOK.fin P true len L s).start (nid true len L s l k) := fun l k h =>
    (h₀.fin_start h).trans (h₁.fin_start (up l k h)).symm
  have cnt : ∀ l k, Kept false s l k → (FinOK.fin P false len L s).count (nid false len L s l k)
      = (FinOK.fin P true len L s).count (nid true len L s l k) := fun l k h =>
    (h₀.fin_count h).trans (h₁.fin_count (up l k h)).symm
  have cpos : ∀ l k, Kept false s l k →
      0 < (FinOK.fin P false len L s).count (nid false len L s l k) := fun l k h => by
    have e : (FinOK.fin P false len L s).count (nid false len L s l k) = s.count l k :=
      h₀.fin_count h
    have := h.2
    rw [e]
    simp only [Bool.false_eq_true, false_or] at this
    omega
  have old : ∀ l k, Kept false s l k →
      oldNumber P len L s (nid false len L s l k) = nid true len L s l k := fun l k h => h₀.old_nid h
  have srcSt : ∀ l k, Kept false s l k →
      (finish P C false len L s).particles.srcStart (nid false len L s l k)
      = (finish P C true len L s).particles.srcStart (nid true len L s l k) := fun l k h => by
    rw [hS₀.st_eq _ (lt₀ l k h) (cpos l k h),
      hS₁.st_eq _ (lt₁ l k (up l k h)) (lt_of_lt_of_eq (cpos l k h) (cnt l k h))]
    exact congrArg _ (st l k h)
  have tgtSt : ∀ l k, Kept false s l k →
      (finish P C false len L s).particles.tgtStart (nid false len L s l k)
      = (finish P C true len L s).particles.tgtStart (nid true len L s l k) := fun l k h => by
    rw [hT₀.st_eq _ (lt₀ l k h) (cpos l k h),
      hT₁.st_eq _ (lt₁ l k (up l k h)) (lt_of_lt_of_eq (cpos l k h) (cnt l k h))]
    exact congrArg _ (st l k h)
  have srcCu : ∀ l k, Kept false s l k →
      (finish P C false len L s).particles.srcCumul (nid false len L s l k)
      = (finish P C true len L s).particles.srcCumul (nid true len L s l k) := fun l k h => by
    rw [hS₀.cu_eq _ (lt₀ l k h) (cpos l k h),
      hS₁.cu_eq _ (lt₁ l k (up l k h)) (lt_of_lt_of_eq (cpos l k h) (cnt l k h))]
    show Nat.count _ ((FinOK.fin P false len L s).start _ + (FinOK.fin P false len L s).count _)
      - Nat.count _ ((FinOK.fin P false len L s).start _) = _
    rw [st l k h, cnt l k h]
    rfl
  have tgtCu : ∀ l k, Kept false s l k →
      (finish P C false len L s).particles.tgtCumul (nid false len L s l k)
      = (finish P C true len L s).particles.tgtCumul (nid true len L s l k) := fun l k h => by
    rw [hT₀.cu_eq _ (lt₀ l k h) (cpos l k h),
      hT₁.cu_eq _ (lt₁ l k (up l k h)) (lt_of_lt_of_eq (cpos l k h) (cnt l k h))]
    show Nat.count _ ((FinOK.fin P false len L s).start _ + (FinOK.fin P false len L s).count _)
      - Nat.count _ ((FinOK.fin P false len L s).start _) = _
    rw [st l k h, cnt l k h]
    rfl
  -- arguments of the box info kernel
  have info : ∀ l k, Kept false s l k →
      boxInfo C.sourcesAreTargets ((FinOK.fin P false len L s).hasCh (nid false len L s l k))
        ((FinOK.fin P false len L s).count (nid false len L s l k))
        ((finish P C false len L s).particles.srcCumul (nid false len L s l k))
        ((finish P C false len L s).particles.tgtCumul (nid false len L s l k))
        ((if P.haveExtent then (if C.sourcesAreTargets then (FinOK.fin P false len L s).nonchild else
          boxNonchild (FinOK.fin P false len L s) P.n C.nsources s.ids true) else fun _ => 0)
          (nid false len L s l k))
        ((if P.haveExtent then (if C.sourcesAreTargets then (FinOK.fin P false len L s).nonchild else
          boxNonchild (FinOK.fin P false len L s) P.n C.nsources s.ids false) else fun _ => 0)
          (nid false len L s l k))
      = boxInfo C.sourcesAreTargets ((FinOK.fin P true len L s).hasCh (nid true len L s l k))
        ((FinOK.fin P true len L s).count (nid true len L s l k))
        ((finish P C true len L s).particles.srcCumul (nid true len L s l k))
        ((finish P C true len L s).particles.tgtCumul (nid true len L s l k))
        ((if P.haveExtent then (if C.sourcesAreTargets then (FinOK.fin P true len L s).nonchild else
          boxNonchild (FinOK.fin P true len L s) P.n C.nsources s.ids true) else fun _ => 0)
          (nid true len L s l k))
        ((if P.haveExtent then (if C.sourcesAreTargets then (FinOK.fin P true len L s).nonchild else
          boxNonchild (FinOK.fin P true len L s) P.n C.nsources s.ids false) else fun _ => 0)
          (nid true len L s l k)) := fun l k h => by
    rw [srcCu l k h, tgtCu l k h, cnt l k h, h₀.fin_hasCh_marked h, h₁.fin_hasCh_marked (up l k h)]
    have hn : ∀ src, (if P.haveExtent then (if C.sourcesAreTargets then
          (FinOK.fin P false len L s).nonchild else
          boxNonchild (FinOK.fin P false len L s) P.n C.nsources s.ids src) else fun _ => 0)
          (nid false len L s l k)
        = (if P.haveExtent then (if C.sourcesAreTargets then (FinOK.fin P true len L s).nonchild else
          boxNonchild (FinOK.fin P true len L s) P.n C.nsources s.ids src) else fun _ => 0)
          (nid true len L s l k) := by
      intro src
      cases P.haveExtent
      · rfl
      · cases C.sourcesAreTargets
        · exact boxNonchild_pruned h₀ h₁ h
        · exact (h₀.fin_nonchild_stored h).trans (h₁.fin_nonchild_stored (up l k h)).symm
    rw [hn true, hn false]
  have lev : ∀ l k, Kept false s l k →
      (finish P C false len L s).tree.level (nid false len L s l k) = l := fun l k h =>
    h₀.fin_level h
  have lev₁ : ∀ l k, Kept true s l k →
      (finish P C true len L s).tree.level (nid true len L s l k) = l := fun l k h => h₁.fin_level h
  have pop : ∀ l k, Kept true s l k →
      (0 < (finish P C true len L s).population (nid true len L s l k) ↔ 0 < s.count l k) :=
    fun l k h => by
      rw [population_pos h₁ (lt₁ l k h)]
      have e : (FinOK.fin P true len L s).count (nid true len L s l k) = s.count l k :=
        h₁.fin_count h
      rw [e]
  refine
  { old_lt := ?_, increasing := ?_, kept := ?_, parent := ?_, child := ?_, no_child := ?_
    nlevels := rfl, level := ?_, center := ?_, flags := ?_, sources := ?_, targets := ?_
    order := ⟨rfl, rfl⟩ }
  · intro b hb
    obtain ⟨l, k, hk, rfl⟩ := ex b hb
    rw [old l k hk]
    exact lt₁ l k (up l k hk)
  · intro b' hb' b hbb
    obtain ⟨l, k, hk, rfl⟩ := ex b (by omega)
    obtain ⟨l', k', hk', rfl⟩ := ex b' hb'
    rw [old l k hk, old l' k' hk']
    exact (h₁.nid_lt_iff (up l k hk) (up l' k' hk')).2 ((h₀.nid_lt_iff hk hk').1 hbb)
  · intro c hc
    obtain ⟨l, k, hk, rfl⟩ := ex₁ c hc
    rw [pop l k hk, ← kept_false hk]
    constructor
    · rintro ⟨b, hb, e⟩
      obtain ⟨l', k', hk', rfl⟩ := ex b hb
      rw [old l' k' hk'] at e
      obtain ⟨rfl, rfl⟩ := h₁.nid_inj (up l' k' hk') hk e
      exact hk'
    · intro hk'
      exact ⟨_, lt₀ l k hk', old l k hk'⟩
  · intro b hb
    obtain ⟨l, k, hk, rfl⟩ := ex b hb
    rw [old l k hk]
    cases l with
    | zero =>
      have h0 : k = 0 := by have h1 : k < s.used 0 := hk.1; have h2 : s.used 0 = 1 := h₀.inv.used_zero; omega
      subst h0
      have e0 : (finish P C false len L s).tree.parent (nid false len L s 0 0) = nid false len L s 0 0 :=
        h₀.fin_parent_root
      have e1 : (finish P C true len L s).tree.parent (nid true len L s 0 0) = nid true len L s 0 0 :=
        h₁.fin_parent_root
      rw [e0, e1, old 0 0 hk]
    | succ l =>
      have e0 : (finish P C false len L s).tree.parent (nid false len L s (l + 1) k)
        = nid false len L s l (s.parent (l + 1) k) := h₀.fin_parent hk
      have e1 : (finish P C true len L s).tree.parent (nid true len L s (l + 1) k)
        = nid true len L s l (s.parent (l + 1) k) := h₁.fin_parent (up _ _ hk)
      rw [e0, e1, old l _ (h₀.kept_parent hk)]
  · intro b hb m _ hne
    obtain ⟨l, k, hk, rfl⟩ := ex b hb
    rw [old l k hk]
    obtain ⟨c, h1, h2, h3⟩ := h₀.fin_child hk hne
    have e0 : (finish P C false len L s).tree.child m (nid false len L s l k)
      = nid false len L s (l + 1) c := h3
    have e1 : (finish P C true len L s).tree.child m (nid true len L s l k)
      = nid true len L s (l + 1) c := h₁.fin_child_kept (up l k hk) h1 (up _ _ h2)
    rw [e0, e1, old _ _ h2]
  · intro b hb m _ hz
    obtain ⟨l, k, hk, rfl⟩ := ex b hb
    rw [old l k hk]
    cases hch : s.child m l k with
    | none => exact .inl (h₁.fin_child_none (up l k hk) hch)
    | some c =>
      right
      have hu := (h₀.child_used hch).2.2.1
      have h2 : Kept true s (l + 1) c := ⟨hu, .inl rfl⟩
      have e1 : (finish P C true len L s).tree.child m (nid true len L s l k)
        = nid true len L s (l + 1) c := h₁.fin_child_kept (up l k hk) hch h2
      rw [e1]
      by_contra hne
      have h3 := (kept_false h2).2 ((pop _ _ h2).1 (by omega))
      have e0 : (finish P C false len L s).tree.child m (nid false len L s l k)
        = nid false len L s (l + 1) c := h₀.fin_child_kept hk hch h3
      rw [e0] at hz
      exact h₀.nid_ne_zero h3 hz
  · intro b hb
    obtain ⟨l, k, hk, rfl⟩ := ex b hb
    rw [old l k hk, lev l k hk, lev₁ l k (up l k hk)]
  · intro b hb
    obtain ⟨l, k, hk, rfl⟩ := ex b hb
    rw [old l k hk]
    exact (h₀.fin_center hk).trans (h₁.fin_center (up l k hk)).symm
  · intro b hb
    obtain ⟨l, k, hk, rfl⟩ := ex b hb
    rw [old l k hk]
    exact congrArg Prod.fst (info l k hk)
  · intro b hb
    obtain ⟨l, k, hk, rfl⟩ := ex b hb
    rw [old l k hk]
    exact ⟨srcSt l k hk, congrArg (fun p => p.2.1) (info l k hk), srcCu l k hk⟩
  · intro b hb
    obtain ⟨l, k, hk, rfl⟩ := ex b hb
    rw [old l k hk]
    exact ⟨tgtSt l k hk, congrArg (fun p => p.2.2) (info l k hk), tgtCu l k hk⟩

end
end Boxtree.Build
