import Verif.Lemmas.AllocMove
import Verif.Lemmas.AllocRestrict

/-! The level loop on the flat arrays does what the level loop on the state does. -/

namespace Boxtree.Build

/-- The flat arrays and the state at the beginning of a trip. -/
structure Start (P : Params) (level : Nat) (final : Bool) (B : Buf) (s : State) : Prop where
  rel : Rel P level B s
  entry : Entry P level s
  wok : WOK P
  refine_ : P.levelRestrict = true → P.adaptive = true
  pos : ∀ l < level, 0 < s.used l
  start0 : ∀ l k, s.used l ≤ k → s.start l k = 0
  out : ∀ i, P.n ≤ i → s.box i = (0, 0)
  leaf : ∀ l < level, B.leaf l = leaves s l
  look : P.levelRestrict = true → 2 ≤ level → B.lookSet = true
  adapt : P.adaptive = true → AInv P level final s

/-- Same outcome. -/
def Match (P : Params) : Except String (Nat × Buf) → Except String (Nat × State) → Prop
  | .error e', .error e => e' = e
  | .ok (L', B), .ok (L, s) => L' = L ∧ Rel P (L + 1) B s
  | _, _ => False

/-- The kernels of a trip: the splitter with the renumberer, and the level restriction with whether it
has marked a box. -/
structure Steps where
  split : Nat → Nat → Buf → Buf
  restrict : Nat → Buf → Buf × Bool

/-- The kernels do what they are to do, on the arrays for which they are called. -/
structure Steps.OK (P : Params) (K : Steps) : Prop where
  split : ∀ {level nnew : Nat} {B : Buf} {s : State}, Room P level nnew B s →
    K.split level nnew B = B.splitStep P level nnew
  restrict : ∀ {level : Nat} {B : Buf} {s : State}, Rel P (level + 1) B s → Inv P (level + 1) s →
    K.restrict level B = (B.restrict P level, (B.restrict P level).didSplit level)

/-- The loop with given kernels. -/
def Buf.loopBy (P : Params) (look : Nat) (K : Steps) :
    Nat → Nat → Bool → Buf → Except String (Nat × Buf)
  | 0, _, _, _ => .error "out of fuel"
  | fuel + 1, level, final, B =>
    if P.nlevelsMax ≤ level + 1 then .error "MaxLevelsExceeded"
    else if ¬ B.ScanOK P level then .error "IndexError"
    else
      let B := (B.writeBins P).markSplit P level
      match B.plan P look level final with
      | .fail e => .error e
      | .move cap =>
        if B.MoveOK P look level cap then loopBy P look K fuel level final (B.move P look level cap)
        else .error "IndexError"
      | .enlarge cap => loopBy P look K fuel level final (B.enlarge cap)
      | .stop => .ok (level - 1, B)
      | .split nnew =>
        if ¬ B.SplitOK P level nnew then .error "IndexError"
        else
          let B := K.split level nnew B
          if final then
            if B.oversize ∨ B.used level ≠ 0 then .error "AssertionError" else .ok (level - 1, B)
          else if P.levelRestrict ∧ ¬ B.WalkOK P level then .error "IndexError"
          else
            let r := if P.levelRestrict then K.restrict level B else (B, false)
            if r.1.oversize = false then
              if P.levelRestrict ∧ r.2 = true then loopBy P look K fuel (level + 1) true r.1
              else .ok (level, r.1)
            else loopBy P look K fuel (level + 1) false { r.1 with oversize := false }

/-- The kernels of `Model/Alloc`. -/
def Steps.std (P : Params) : Steps where
  split := fun level nnew B => B.splitStep P level nnew
  restrict := fun level B => (B.restrict P level, (B.restrict P level).didSplit level)

theorem Steps.std_ok (P : Params) : (Steps.std P).OK P := ⟨fun _ => rfl, fun _ _ => rfl⟩

theorem Buf.loop_eq (P : Params) (look : Nat) : ∀ (fuel level : Nat) (final : Bool) (B : Buf),
    Buf.loop P look fuel level final B = Buf.loopBy P look (Steps.std P) fuel level final B := by
  intro fuel
  induction fuel with
  | zero => intro _ _ _; rfl
  | succ fuel ih =>
    intro level final B
    unfold Buf.loop Buf.loopBy
    simp only [ih]
    generalize (B.writeBins P).markSplit P level = B'
    cases Buf.plan P look level final B' with
    | split nnew => cases hr : P.levelRestrict <;> simp [Steps.std] <;> rfl
    | _ => rfl

/-- What a trip does after the scans. -/
def Buf.resume (P : Params) (look : Nat) (K : Steps) (fuel level : Nat) (final : Bool) (B : Buf) :
    Except String (Nat × Buf) :=
  match B.plan P look level final with
  | .fail e => .error e
  | .move cap =>
    if B.MoveOK P look level cap then loopBy P look K fuel level final (B.move P look level cap)
    else .error "IndexError"
  | .enlarge cap => loopBy P look K fuel level final (B.enlarge cap)
  | .stop => .ok (level - 1, B)
  | .split nnew =>
    if ¬ B.SplitOK P level nnew then .error "IndexError"
    else
      let B := K.split level nnew B
      if final then
        if B.oversize ∨ B.used level ≠ 0 then .error "AssertionError" else .ok (level - 1, B)
      else if P.levelRestrict ∧ ¬ B.WalkOK P level then .error "IndexError"
      else
        let r := if P.levelRestrict then K.restrict level B else (B, false)
        if r.1.oversize = false then
          if P.levelRestrict ∧ r.2 = true then loopBy P look K fuel (level + 1) true r.1
          else .ok (level, r.1)
        else loopBy P look K fuel (level + 1) false { r.1 with oversize := false }

theorem Buf.loop_succ (P : Params) (look : Nat) (K : Steps) (fuel level : Nat) (final : Bool)
    (B : Buf) : Buf.loopBy P look K (fuel + 1) level final B =
      if P.nlevelsMax ≤ level + 1 then .error "MaxLevelsExceeded"
      else if ¬ B.ScanOK P level then .error "IndexError"
      else ((B.writeBins P).markSplit P level).resume P look K fuel level final := rfl

/-- The same for the state. -/
def resumeA (P : Params) (fuel level : Nat) (final : Bool) (s : State) :
    Except String (Nat × State) :=
  if newUsed P level s level = 0 ∧ final = false then
    if P.haveExtent then .ok (level - 1, s) else .error "AssertionError"
  else
    let s := splitStep P level s
    if final then
      if s.oversize ∨ s.used level ≠ 0 then .error "AssertionError" else .ok (level - 1, s)
    else
      let s := if P.levelRestrict then restrict P level s else s
      if s.oversize = false then
        if P.levelRestrict ∧ didSplit level s = true then loop P fuel (level + 1) true s
        else .ok (level, s)
      else loop P fuel (level + 1) false { s with oversize := false }

theorem loop_succ (P : Params) (fuel level : Nat) (final : Bool) (s : State) :
    loop P (fuel + 1) level final s =
      if P.nlevelsMax ≤ level + 1 then .error "MaxLevelsExceeded"
      else resumeA P fuel level final (markSplit P level (writeBins P s)) := rfl

section
variable {P : Params} {level : Nat} {B : Buf} {s : State} {final : Bool}

theorem writeBins_twice (s : State) : writeBins P (writeBins P s) = writeBins P s := by
  have hsc : ∀ i, scanItem P (writeBins P s) i = scanItem P s i := by
    intro i
    induction i with
    | zero => rfl
    | succ i ih => unfold scanItem; rw [ih]; rfl
  have e : (writeBins P (writeBins P s)).bins = (writeBins P s).bins := by
    funext l k
    change (match (List.range P.n).find? fun i => decide (s.box i = (l, k) ∧
        (scanItem P (writeBins P s) i).total P.nch = s.count l k) with
      | some i => scanItem P (writeBins P s) i
      | none => (writeBins P s).bins l k) = _
    rw [show scanItem P (writeBins P s) = scanItem P s from funext hsc]
    change _ = (match (List.range P.n).find? fun i => decide (s.box i = (l, k) ∧
        (scanItem P s i).total P.nch = s.count l k) with
      | some i => scanItem P s i
      | none => s.bins l k)
    split
    · rfl
    · rename_i hn
      change (match (List.range P.n).find? fun i => decide (s.box i = (l, k) ∧
        (scanItem P s i).total P.nch = s.count l k) with
      | some i => scanItem P s i
      | none => s.bins l k) = _
      rw [hn]
  have e2 : writeBins P (writeBins P s) =
      { writeBins P s with bins := (writeBins P (writeBins P s)).bins } := rfl
  rw [e2, e]

theorem Start.inBoxes (h : Start P level final B s) : InBoxes P level s := by
  intro i hi
  have := (h.entry.inv.box_used hi).1
  exact ⟨h.entry.inv.used_level this, this⟩

theorem Start.marked (h : Start P level final B s) :
    Marked P level ((B.writeBins P).markSplit P level) (writeBins P s) where
  rel := (h.rel.writeBins h.inBoxes).markSplit h.refine_
  pre := h.entry.pre h.wok.mort
  refine_ := h.refine_
  pos := h.pos
  start0 := h.start0
  out := h.out
  leaf := h.leaf
  look := by
    intro h1 h2
    change (B.lookSet || _) = true
    rw [h.look h1 h2]; rfl
  lookO := by
    intro h1 h2
    change (B.lookSet || (P.levelRestrict && _)) = true
    rw [h1, Bool.true_and, Bool.or_eq_true]
    exact .inr h2
  noForce := h.entry.noForce
  wb := writeBins_twice s

/-- The scans access existing entries. -/
theorem scanOK {s : State} (h : Rel P level B s) (hi : ∀ i < P.n, s.ids i < P.n)
    (hb : InBoxes P level s) (hp : ∀ l < level, 0 < s.used l) : B.ScanOK P level := by
  refine ⟨h.cap, ?_, fun b hb => h.lev_lt hb, ?_⟩
  · intro i hin
    refine ⟨?_, by rw [h.ids]; exact hi i hin⟩
    have := h.lay.lt_level (hb i hin).1 (hb i hin).2
    have := h.cap
    rw [h.box]
    omega
  · intro l hl
    have h1 := h.lay.len l hl
    have h2 := hp l hl
    omega

/-- Without new boxes on the new level no box is oversize. -/
theorem Start.no_oversize (h : Start P level final B s)
    (hu : (after P level (writeBins P s)).used level = 0)
    (ha : P.adaptive = true) : (after P level (writeBins P s)).oversize = false := by
  have hA := h.adapt ha
  have hpre := h.entry.pre h.wok.mort
  have hF := h.entry.inv.writeBins_pwt h.wok.mort h.wok.weight
  have hl : LeafOK P level (writeBins P s) := hA.leaf
  by_contra hne
  rcases (oversize_iff hpre).1 (by simpa using hne) with h1 | ⟨l, k, h1, h2, h3⟩
  · have : s.oversize = true := h1
    rw [hA.oversize] at this; cases this
  · have hc := (hpre.want_leaf h1 h2).2
    obtain ⟨m, h4, h5⟩ := (hF.maxWeight h1 hc h.wok.maxWeight).1 h3
    have h6 : load P (writeBins P s).parent l k (wChild P l m) ≤ mload P (writeBins P s) l k :=
      load_mono fun p => wChild_le l m p
    have hlev : l + 1 = level := by
      by_contra hne
      have := hpre.inv.used_level h1
      have := hl l k h1 hc (by omega)
      omega
    subst hlev
    have := hpre.newBase_le h1 h2
    have := nch_pos P
    omega

/-- The test for the end of the loop. -/
theorem Start.stop_iff (h : Start P level final B s) {B' : Buf}
    (hM : Marked P level B' (writeBins P s)) {look : Nat} (hf : Marked.Fits P look level B') :
    B'.lstart level = B'.nboxesMinimal P look level ↔
      newUsed P level (markSplit P level (writeBins P s)) level = 0 := by
  have h1 := hM.nboxesMinimal_eq look hf.1
  have h2 := lenA_ge P look level (after P level (writeBins P s))
  have e : newUsed P level (markSplit P level (writeBins P s)) level =
    (after P level (writeBins P s)).used level := rfl
  rw [e]
  constructor
  · intro hx; omega
  · intro hx
    have : lenA P look level (after P level (writeBins P s)) = 0 := by
      unfold lenA
      rw [hx]
      by_cases hr : P.levelRestrict = true
      · rw [h.no_oversize hx (h.refine_ hr)]; simp
      · simp [hr]
    omega

theorem Rel.pred (h : Rel P (level + 1) B s) (hu : s.used level = 0) : Rel P level B s where
  lay := ⟨h.lay.start0, fun l hl => h.lay.len l (by omega)⟩
  tight := fun hr l hl => h.tight hr l (by omega)
  cap := by
    have := h.lay.mono (show level ≤ level + 1 by omega) (le_refl _)
    have := h.cap
    omega
  used := h.used
  ids := h.ids
  flag := h.flag
  oversize := h.oversize
  box := h.box
  lev := fun l hl => h.lev l (by omega)
  same := fun l hl => h.same l (by omega)
  blank := by
    intro b hb
    apply h.blank
    rcases hb with h1 | ⟨l, h1, h2, h3⟩
    · by_cases h2 : b < B.lstart (level + 1)
      · exact .inr ⟨level, by omega, by rw [hu]; omega, h2⟩
      · exact .inl (by omega)
    · exact .inr ⟨l, by omega, h2, h3⟩

theorem Rel.setOversize (h : Rel P level B s) (o : Bool) :
    Rel P level { B with oversize := o } { s with oversize := o } :=
  { h with
    oversize := rfl
    same := fun l hl k hk => { h.same l hl k hk with }
    blank := fun b hb => { h.blank b hb with } }

theorem Marked.out_after (h : Marked P level B s) (i : Nat) (hi : P.n ≤ i) :
    (after P level s).box i = (0, 0) := by
  change (match mover P level (markSplit P level s) i with
    | some j => newBox P level (markSplit P level s) j
    | none => (0, 0)) = _
  have : mover P level (markSplit P level s) i = none := by
    unfold mover
    apply find?_range_none
    intro j hj
    have := (h.pre.target_box hj).1
    simp only [decide_eq_false_iff_not]
    omega
  rw [this]

theorem Marked.leaf_after (h : Marked P level B s) (nnew : Nat) (l : Nat) (hl : l < level + 1) :
    (B.splitStep P level nnew).leaf l = leaves (after P level s) l :=
  h.newLeaf_eq (by omega)

/-- A trip in which everything fits. -/
theorem Start.resume_fits (h : Start P level final B s) {B' : Buf}
    (hM : Marked P level B' (writeBins P s)) {look : Nat} (hf : Marked.Fits P look level B')
    {K : Steps} (hK : K.OK P) {g f : Nat}
    (ih : ∀ level' final' B' s', level + 1 = level' → Start P level' final' B' s' →
      Match P (Buf.loopBy P look K g level' final' B') (loop P f level' final' s')) :
    Match P (B'.resume P look K g level final)
      (resumeA P f level final (markSplit P level (writeBins P s))) := by
  have hpos := h.entry.pos
  have hiff := h.stop_iff hM hf
  unfold Buf.resume resumeA
  rw [Marked.plan_fits final hf]
  by_cases hstop : B'.lstart level = B'.nboxesMinimal P look level ∧ final = false
  · have hu : newUsed P level (markSplit P level (writeBins P s)) level = 0 ∧ final = false :=
      ⟨hiff.1 hstop.1, hstop.2⟩
    rw [if_pos hstop, if_pos hu]
    cases P.haveExtent with
    | true =>
      refine ⟨rfl, ?_⟩
      rw [show level - 1 + 1 = level by omega]
      exact hM.rel
    | false => rfl
  · have hu : ¬ (newUsed P level (markSplit P level (writeBins P s)) level = 0 ∧ final = false) :=
      fun hx => hstop ⟨hiff.2 hx.1, hx.2⟩
    rw [if_neg hstop, if_neg hu]
    have hR := hM.toRoom hf.1 hf.2
    have hS := hR.splitStep
    have hI := hR.pre.after_inv
    have eA : splitStep P level (markSplit P level (writeBins P s)) =
      after P level (writeBins P s) := rfl
    simp only
    rw [if_neg (not_not.2 hR.splitOK), eA, hK.split hR]
    have eo : (B'.splitStep P level (B'.nboxesMinimal P look level)).oversize =
        (after P level (writeBins P s)).oversize := hS.oversize
    have eu : (B'.splitStep P level (B'.nboxesMinimal P look level)).used =
        (after P level (writeBins P s)).used := hS.used
    cases final with
    | true =>
      simp only [if_true]
      rw [eo, eu]
      split
      · rfl
      · rename_i hx
        rw [not_or, not_not] at hx
        refine ⟨rfl, ?_⟩
        rw [show level - 1 + 1 = level by omega]
        exact hS.pred hx.2
    | false =>
      have hnew : (after P level (writeBins P s)).used level ≠ 0 := by
        intro hx
        exact hstop ⟨hiff.2 hx, rfl⟩
      have hpos' : ∀ l < level + 1, 0 < (after P level (writeBins P s)).used l := by
        intro l hl
        by_cases he : l = level
        · subst he; omega
        · have h1 := h.pos l (by omega)
          have h2 : s.used l ≤ _ := hR.pre.used_le l
          omega
      have hW := hS.walkOK hI
      have hW' : ¬ (P.levelRestrict = true ∧
          ¬ (B'.splitStep P level (B'.nboxesMinimal P look level)).WalkOK P level) :=
        fun hx => hx.2 hW
      have hft : ¬ (false = true) := by simp
      simp only [if_neg hft, if_neg hW']
      -- level restriction
      have key : ∃ B3, (if P.levelRestrict = true then
            K.restrict level (B'.splitStep P level (B'.nboxesMinimal P look level))
            else (B'.splitStep P level (B'.nboxesMinimal P look level), false)) =
              (B3, P.levelRestrict && B3.didSplit level) ∧
          Rel P (level + 1) B3 (trip P level s) ∧ B3.leaf =
            (B'.splitStep P level (B'.nboxesMinimal P look level)).leaf ∧
          B3.lookSet = B'.lookSet := by
        refine ⟨if P.levelRestrict = true then
            (B'.splitStep P level (B'.nboxesMinimal P look level)).restrict P level
            else B'.splitStep P level (B'.nboxesMinimal P look level), ?_, ?_, ?_, ?_⟩
        · rw [hK.restrict hS hI]
          cases P.levelRestrict <;> rfl
        · unfold trip
          split
          · exact hS.restrict hI
          · exact hS
        · split <;> rfl
        · split <;> rfl
      obtain ⟨B3, e3, hR3, hl3, hk3⟩ := key
      have et : (if P.levelRestrict = true then restrict P level (after P level (writeBins P s))
          else after P level (writeBins P s)) = trip P level s := rfl
      have eand : ∀ x : Bool, (P.levelRestrict = true ∧ (P.levelRestrict && x) = true) =
          (P.levelRestrict = true ∧ x = true) := by
        intro x; cases P.levelRestrict <;> simp
      rw [e3, et]
      simp only
      rw [hR3.oversize, hR3.didSplit]
      simp only [eand]
      have htf : ∀ l, (trip P level s).used l = (after P level (writeBins P s)).used l := by
        intro l; unfold trip; split <;> rfl
      have hts : (trip P level s).start = (after P level (writeBins P s)).start := by
        unfold trip; split <;> rfl
      have htb : (trip P level s).box = (after P level (writeBins P s)).box := by
        unfold trip; split <;> rfl
      have htl : ∀ l, leaves (trip P level s) l = leaves (after P level (writeBins P s)) l := by
        intro l; unfold trip; split <;> rfl
      split
      · rename_i ho
        split
        · rename_i hd
          apply ih (level + 1) true _ _ rfl
          have h3 : 3 ≤ level := by
            have := hd.2
            unfold Build.didSplit at this
            simp only [Bool.and_eq_true, decide_eq_true_eq] at this
            omega
          exact
            { rel := hR3
              entry := by
                have := h.entry.trip h.wok.mort (trip P level s).oversize
                exact this
              wok := h.wok
              refine_ := h.refine_
              pos := fun l hl => by rw [htf]; exact hpos' l hl
              start0 := fun l k hk => by
                rw [htf] at hk; rw [hts]; exact Room.start_unused hR.pre h.start0 l k hk
              out := fun i hi => by rw [htb]; exact hM.out_after i hi
              leaf := fun l hl => by rw [hl3, htl]; exact hM.leaf_after _ l hl
              look := fun hr _ => by rw [hk3]; exact hM.look hr (by omega)
              adapt := fun ha => (h.adapt ha).last h.wok ha (by
                rw [← trip_oversize]; exact ho) }
        · exact ⟨rfl, hR3⟩
      · rename_i ho
        apply ih (level + 1) false _ _ rfl
        have ho' : (after P level (writeBins P s)).oversize = true := by
          rw [← trip_oversize]; simpa using ho
        exact
          { rel := hR3.setOversize false
            entry := h.entry.trip h.wok.mort false
            wok := h.wok
            refine_ := h.refine_
            pos := fun l hl => by
              change 0 < (trip P level s).used l
              rw [htf]; exact hpos' l hl
            start0 := fun l k hk => by
              change (trip P level s).used l ≤ k at hk
              change (trip P level s).start l k = 0
              rw [htf] at hk; rw [hts]; exact Room.start_unused hR.pre h.start0 l k hk
            out := fun i hi => by
              change (trip P level s).box i = _
              rw [htb]; exact hM.out_after i hi
            leaf := fun l hl => by
              change B3.leaf l = leaves (trip P level s) l
              rw [hl3, htl]; exact hM.leaf_after _ l hl
            look := fun hr _ => by
              change B3.lookSet = true
              rw [hk3]
              exact hM.lookO hr (by rw [hM.rel.oversize]; exact ho')
            adapt := fun ha => (h.adapt ha).next h.wok ha ho' }

/-- The whole loop. -/
theorem loopBy_match (P : Params) (look : Nat) {K : Steps} (hK : K.OK P) : ∀ (f g level : Nat) (final : Bool) (B : Buf)
    (s : State), 2 * f ≤ g → level ≤ P.nlevelsMax → P.nlevelsMax + 1 ≤ f + level →
    Start P level final B s →
    Match P (Buf.loopBy P look K g level final B) (loop P f level final s) := by
  intro f
  induction f with
  | zero => intro g level _ _ _ _ h1 h2 _; omega
  | succ f ih =>
    intro g level final B s hg hlev hfuel h
    obtain ⟨g, rfl⟩ : ∃ g', g = g' + 2 := ⟨g - 2, by omega⟩
    rw [Buf.loop_succ, loop_succ]
    split
    · rfl
    · rename_i hmax
      have hsc := scanOK h.rel h.entry.inv.ids_lt h.inBoxes h.pos
      rw [if_neg (not_not.2 hsc)]
      have hM := h.marked
      have ih' : ∀ g', 2 * f ≤ g' → ∀ level' final' B' s', level + 1 = level' →
          Start P level' final' B' s' →
          Match P (Buf.loopBy P look K g' level' final' B') (loop P f level' final' s') := by
        rintro g' hg' level' final' B' s' rfl hst
        exact ih g' (level + 1) final' B' s' hg' (by omega) (by omega) hst
      -- a second try
      have again : ∀ B2 : Buf, Rel P level B2 (markSplit P level (writeBins P s)) →
          Marked P level ((B2.writeBins P).markSplit P level) (writeBins P s) →
          Marked.Fits P look level ((B2.writeBins P).markSplit P level) →
          Match P (Buf.loopBy P look K (g + 1) level final B2)
            (resumeA P f level final (markSplit P level (writeBins P s))) := by
        intro B2 hR2 hM2 hf2
        have hsc2 := scanOK hR2 hM.pre.inv.ids_lt (Room.inBoxes hM.pre) hM.pos
        rw [Buf.loop_succ, if_neg hmax, if_neg (not_not.2 hsc2)]
        exact h.resume_fits hM2 hf2 hK (ih' g (by omega))
      by_cases hn : ((B.writeBins P).markSplit P level).needsRenumbering P level = true
      · obtain ⟨cap, hp, hc⟩ := hM.plan_needs look final hn
        have hge := lenA_ge P look level (after P level (writeBins P s))
        have hr := (hM.needs_restrict hn).1
        obtain ⟨h1, h2⟩ := hM.move_fits hr look hc
        unfold Buf.resume
        rw [hp]
        simp only
        rw [if_pos (hM.moveOK look (by omega))]
        exact again _ (hM.move hr look (by omega)) h1 h2
      · have hn' : ((B.writeBins P).markSplit P level).needsRenumbering P level = false := by
          simpa using hn
        by_cases hc : ((B.writeBins P).markSplit P level).cap <
            ((B.writeBins P).markSplit P level).nboxesMinimal P look level
        · obtain ⟨cap, hp, hc1, hc2⟩ := hM.plan_enlarge look final hn' hc
          obtain ⟨h1, h2⟩ := hM.enlarge_fits look hn' hc1 hc2
          unfold Buf.resume
          rw [hp]
          exact again _ (hM.enlarge hc1) h1 h2
        · exact h.resume_fits hM ⟨hn', by omega⟩ hK (ih' (g + 1) (by omega))

theorem init_rel (P : Params) {guess : Nat} (hg : 1 ≤ guess) :
    Rel P 1 (Buf.init P guess) (init P) where
  lay := ⟨rfl, by
    intro l hl
    obtain rfl : l = 0 := by omega
    simp [Buf.init, init]⟩
  tight := by
    intro _ l hl
    obtain rfl : l = 0 := by omega
    simp [Buf.init, init]
  cap := by simpa [Buf.init] using hg
  used := rfl
  ids := rfl
  flag := rfl
  oversize := rfl
  box := fun _ => rfl
  lev := by
    intro l hl b _ _
    obtain rfl : l = 0 := by omega
    rfl
  same := by
    intro l hl k hk
    obtain rfl : l = 0 := by omega
    have hk' : k < 1 := by simpa [init] using hk
    obtain rfl : k = 0 := by omega
    exact ⟨rfl, by simp [Buf.init, init], rfl, fun a => by simp [Buf.init, init],
      fun a => by simp [Buf.init, init], rfl, rfl, rfl, fun _ => rfl⟩
  blank := by
    intro b hb
    have hb0 : b ≠ 0 := by
      rintro rfl
      rcases hb with h1 | ⟨l, h1, h2, h3⟩
      · simp [Buf.init] at h1
      · obtain rfl : l = 0 := by omega
        simp [Buf.init, init] at h2
    exact ⟨rfl, by simp [Buf.init, hb0], rfl, rfl, rfl, fun _ => rfl, rfl⟩

theorem init_start (hP : WOK P) (hLR : P.levelRestrict = true → P.adaptive = true)
    (hw : P.maxWeight < totalWeight P) {guess : Nat} (hg : 1 ≤ guess) :
    Start P 1 false (Buf.init P guess) (init P) where
  rel := init_rel P hg
  entry := Entry.init P
  wok := hP
  refine_ := hLR
  pos := by
    intro l hl
    obtain rfl : l = 0 := by omega
    simp [init]
  start0 := fun _ _ _ => rfl
  out := fun _ _ => rfl
  leaf := by
    intro l hl
    obtain rfl : l = 0 := by omega
    simp [Buf.init, leaves, init]
  look := by intro _ hx; omega
  adapt := fun _ => AInv.init hP hw

/-- The level loop on the flat arrays. -/
theorem buildLevels_match (hP : WOK P) (hn : 1 ≤ P.nlevelsMax)
    (hLR : P.levelRestrict = true → P.adaptive = true) {guess : Nat} (hg : 1 ≤ guess)
    (look : Nat) : Match P (Buf.buildLevels P guess look) (buildLevels P) := by
  unfold Buf.buildLevels buildLevels
  split
  · rename_i hw
    rw [Buf.loop_eq]
    exact loopBy_match P look (Steps.std_ok P) _ _ 1 false _ _ (le_refl _) hn (by omega)
      (init_start hP hLR hw hg)
  · exact ⟨rfl, init_rel P hg⟩

end
end Boxtree.Build
