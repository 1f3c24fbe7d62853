import Verif.Model.FmmLibErr
import Verif.Props.FmmLib

/-!
# C87: error codes of the expansion library are never lost

The specification is `Model/FmmLib`, the run of the same wrangler in which no routine fails.
-/

namespace Boxtree.FmmLib.Err

/-- `m` either fails or gives `v`. -/
def Sim {α : Type} (m : Except LibError α) (v : α) : Prop := ∀ r, m = .ok r → r = v

theorem sim_foldlM {α β : Type} {f : β → α → Except LibError β} {g : β → α → β} (l : List α)
    (h : ∀ a x, x ∈ l → Sim (f a x) (g a x)) (a : β) : Sim (l.foldlM f a) (l.foldl g a) := by
  induction l generalizing a with
  | nil => intro r hr; exact (Except.ok.inj hr).symm
  | cons x l ih =>
    intro r hr
    rw [List.foldlM_cons] at hr
    cases hf : f a x with
    | error e => rw [hf] at hr; cases hr
    | ok b =>
      rw [hf] at hr
      rw [h a x (by simp) b hf] at hr
      exact ih (fun a y hy => h a y (by simp [hy])) _ r hr

theorem total_foldlM {α β : Type} {f : β → α → Except LibError β} {g : β → α → β} (l : List α)
    (h : ∀ a x, x ∈ l → f a x = .ok (g a x)) (a : β) : l.foldlM f a = .ok (l.foldl g a) := by
  induction l generalizing a with
  | nil => rfl
  | cons x l ih =>
    rw [List.foldlM_cons, h a x (by simp)]
    exact ih (fun a y hy => h a y (by simp [hy])) _

/-- A step that fails whatever has been computed so far makes the loop fail. -/
theorem fail_foldlM {α β : Type} {f : β → α → Except LibError β} (l : List α) (x : α) (hx : x ∈ l)
    (h : ∀ a r, f a x ≠ .ok r) (a : β) (r : β) : l.foldlM f a ≠ .ok r := by
  induction l generalizing a with
  | nil => simp at hx
  | cons y l ih =>
    intro hr
    rw [List.foldlM_cons] at hr
    cases hf : f a y with
    | error e => rw [hf] at hr; cases hr
    | ok b =>
      rw [hf] at hr
      rcases List.mem_cons.1 hx with rfl | hx
      · exact h a b hf
      · exact ih hx b hr

theorem sim_raiseIf {α : Type} (bad : Bool) (v : α) : Sim (raiseIf bad v) v := by
  intro r hr
  unfold raiseIf at hr
  split at hr
  · cases hr
  · exact (Except.ok.inj hr).symm

theorem sim_ok {α : Type} (v : α) : Sim (.ok v : Except LibError α) v :=
  fun _ hr => (Except.ok.inj hr).symm

theorem sim_bind {α β : Type} {m : Except LibError α} {v : α} {f : α → Except LibError β} {u : β}
    (h : Sim m v) (h' : Sim (f v) u) : Sim (m >>= f) u := by
  intro r hr
  cases hm : m with
  | error e => rw [hm] at hr; cases hr
  | ok b =>
    rw [hm, h b hm] at hr
    exact h' r hr

theorem bind_ok {α β : Type} {m : Except LibError α} {v : α} {f : α → Except LibError β} {r : β}
    (h : (m >>= f) = .ok r) (hs : Sim m v) : m = .ok v ∧ f v = .ok r := by
  cases hm : m with
  | error e => rw [hm] at h; cases h
  | ok b =>
    rw [hm] at h
    have := hs b hm
    subst this
    exact ⟨rfl, h⟩

variable {A W D C P : Type} [AddCommMonoid C] [AddCommMonoid P]
variable {t : BoxTree} {q : Particles} {R : Lib A W D C P} {S : Status A W D C} {w : Wrangler A D}
  {src : Nat → Src W D}

omit [AddCommMonoid P] in
theorem sim_formMultipoles (ls boxes : List Nat) :
    Sim (formMultipoles t q R S w src ls boxes) (FmmLib.formMultipoles t q R w src ls boxes) := by
  refine sim_foldlM _ (fun a lev _ => sim_foldlM _ (fun a b _ => ?_) _) _
  by_cases h : q.srcCount b = 0
  · simp only [h, if_true]; exact sim_ok _
  · simp only [h, if_false]; exact sim_raiseIf _ _

omit [AddCommMonoid P] in
theorem sim_coarsenMultipoles (ls boxes : List Nat) (a : Nat → C) :
    Sim (coarsenMultipoles t R S w ls boxes a) (FmmLib.coarsenMultipoles t R w ls boxes a) := by
  refine sim_foldlM _ (fun a lev _ => sim_foldlM _ (fun a b _ => sim_foldlM _ (fun a m _ => ?_) _) _) _
  by_cases h : t.child m b ≠ 0
  · simp only [if_pos h]; exact sim_raiseIf _ _
  · simp only [if_neg h]; exact sim_ok _

omit [AddCommMonoid P] in
theorem sim_multipoleToLocal (ls boxes : List Nat) (lists : BuiltList) (mp : Nat → C) :
    Sim (multipoleToLocal t R S w ls boxes lists mp)
      (FmmLib.multipoleToLocal t R w ls boxes lists mp) := by
  refine sim_bind (v := ()) (fun _ _ => rfl) ?_
  exact sim_foldlM _ (fun _ _ _ => sim_foldlM _ (fun _ _ _ => sim_raiseIf _ _) _) _

omit [AddCommMonoid C] in
theorem sim_evalMultipoles (tl : List (List Nat)) (ll : List BuiltList) (mp : Nat → C) :
    Sim (evalMultipoles t q R S w tl ll mp) (FmmLib.evalMultipoles t q R w tl ll mp) := by
  refine sim_foldlM _ (fun a lev _ => sim_foldlM _ (fun a i _ => ?_) _) _
  by_cases h : q.tgtCount ((tl.getD lev []).getD i 0) = 0
  · simp only [h, if_true]; exact sim_ok _
  · simp only [h, if_false]; exact sim_raiseIf _ _

omit [AddCommMonoid P] in
theorem sim_formLocals (ls boxes : List Nat) (lists : BuiltList) :
    Sim (formLocals t q R S w src ls boxes lists) (FmmLib.formLocals t q R w src ls boxes lists) :=
  sim_foldlM _ (fun _ _ _ => sim_foldlM _ (fun _ _ _ => sim_raiseIf _ _) _) _

omit [AddCommMonoid P] in
theorem sim_refineLocals (ls boxes : List Nat) (a : Nat → C) :
    Sim (refineLocals t R S w ls boxes a) (FmmLib.refineLocals t R w ls boxes a) :=
  sim_foldlM _ (fun _ _ _ => sim_foldlM _ (fun _ _ _ => sim_raiseIf _ _) _) _

omit [AddCommMonoid C] in
theorem sim_evalLocals (ls boxes : List Nat) (a : Nat → C) :
    Sim (evalLocals t q R S w ls boxes a) (FmmLib.evalLocals t q R w ls boxes a) := by
  refine sim_foldlM _ (fun a lev _ => sim_foldlM _ (fun a b _ => ?_) _) _
  by_cases h : q.tgtCount b = 0
  · simp only [h, if_true]; exact sim_ok _
  · simp only [h, if_false]; exact sim_raiseIf _ _

/-- **C87 (no wrong results).** Whatever calls of the library fail: if the run returns, it returns the
potentials of the run in which no call fails. -/
theorem C87_result_or_exception (trav : Traversal) (weights : Nat → W) (pot : Nat → P)
    (h : drive t q R S w trav weights = .ok pot) :
    FmmLib.drive t q R w trav weights = .ok pot := by
  unfold drive at h
  unfold FmmLib.drive
  by_cases hd : t.dims = 2 ∨ t.dims = 3
  · rw [if_pos hd] at h ⊢
    obtain ⟨-, h⟩ := bind_ok h (sim_formMultipoles _ _)
    obtain ⟨-, h⟩ := bind_ok h (sim_coarsenMultipoles _ _ _)
    obtain ⟨-, h⟩ := bind_ok h (sim_multipoleToLocal _ _ _ _)
    obtain ⟨-, h⟩ := bind_ok h (sim_evalMultipoles _ _ _)
    obtain ⟨-, h⟩ := bind_ok h (sim_formLocals _ _ _)
    obtain ⟨-, h⟩ := bind_ok h (sim_refineLocals _ _ _)
    obtain ⟨-, h⟩ := bind_ok h (sim_evalLocals _ _ _)
    rw [← Except.ok.inj h]
    rfl
  · rw [if_neg hd] at h; cases h

/-- The sources in tree order, as the user described them. -/
def userSources (q : Particles) (w : Wrangler A D) (weights : Nat → W) (j : Nat) : Src W D :=
  { pos := w.sources j
    weight := weights (q.userSourceIds j)
    dipole := w.dipoleVec.map fun d =>
      if w.dipolesAlreadyReordered then d j else d (q.userSourceIds j) }

/-- No call fails, as far as the routine returns an error code in dimension `dims`. -/
structure Status.Silent (S : Status A W D C) (dims : Nat) : Prop where
  formmp : ∀ r s c p, S.formmp r s c p = false
  formta : ∀ r s c p, S.formta r s c p = false
  mpmp : dims = 3 → ∀ r c e r' c' p x, S.mpmp r c e r' c' p x = false
  mploc : dims = 3 → ∀ o r c e r' c' p x, S.mploc o r c e r' c' p x = false
  locloc : dims = 3 → ∀ r c e r' c' p x, S.locloc r c e r' c' p x = false
  mpeval : dims = 3 → ∀ r c e x, S.mpeval r c e x = false
  taeval : dims = 3 → ∀ r c e x, S.taeval r c e x = false
  rot : dims = 3 → ∀ o a, S.rot o a = false

theorem raiseIf_false {α : Type} {bad : Bool} (h : bad = false) (v : α) : raiseIf bad v = .ok v := by
  unfold raiseIf; rw [h]; rfl

theorem and_false_of {dims : Nat} {b : Bool} (h : dims = 3 → b = false) :
    (decide (dims = 3) && b) = false := by
  by_cases hd : dims = 3
  · rw [h hd, Bool.and_false]
  · simp [hd]

/-- **C87 (no needless failures).** If no call of the library fails, the run returns the potentials. -/
theorem C87_success (hS : S.Silent t.dims) (trav : Traversal) (weights : Nat → W) (pot : Nat → P)
    (h : FmmLib.drive t q R w trav weights = .ok pot) :
    drive t q R S w trav weights = .ok pot := by
  have e1 : ∀ src ls boxes, formMultipoles t q R S w src ls boxes =
      .ok (FmmLib.formMultipoles t q R w src ls boxes) := by
    intro src ls boxes
    refine total_foldlM _ (fun a lev _ => total_foldlM _ (fun a b _ => ?_) _) _
    by_cases h : q.srcCount b = 0
    · simp only [h, if_true]
    · simp only [h, if_false]; exact raiseIf_false (hS.formmp _ _ _ _) _
  have e2 : ∀ ls boxes a, coarsenMultipoles t R S w ls boxes a =
      .ok (FmmLib.coarsenMultipoles t R w ls boxes a) := by
    intro ls boxes a
    refine total_foldlM _ (fun a lev _ => total_foldlM _
      (fun a b _ => total_foldlM _ (fun a m _ => ?_) _) _) _
    by_cases h : t.child m b ≠ 0
    · simp only [if_pos h]
      exact raiseIf_false (and_false_of fun hd => hS.mpmp hd _ _ _ _ _ _ _) _
    · simp only [if_neg h]
  have er : rotationMatrices t S w = .ok () := by
    unfold rotationMatrices
    split
    · rfl
    · rename_i hr
      have hd : t.dims = 3 := by
        by_contra hd
        apply hr
        unfold rotmatOrder
        rw [if_neg hd]
      split
      · rfl
      · rw [if_neg]
        rw [List.any_eq_true]
        rintro ⟨a, -, h⟩
        rw [hS.rot hd] at h; cases h
  have e3 : ∀ ls boxes lists mp, multipoleToLocal t R S w ls boxes lists mp =
      .ok (FmmLib.multipoleToLocal t R w ls boxes lists mp) := by
    intro ls boxes lists mp
    unfold multipoleToLocal
    rw [er]
    refine total_foldlM _ (fun a lev _ => total_foldlM _ (fun a b _ => ?_) _) _
    refine raiseIf_false (and_false_of fun hd => ?_) _
    rw [List.any_eq_false]
    intro x _
    rw [hS.mploc hd]; simp
  have e4 : ∀ tl ll mp, evalMultipoles t q R S w tl ll mp =
      .ok (FmmLib.evalMultipoles t q R w tl ll mp) := by
    intro tl ll mp
    refine total_foldlM _ (fun a lev _ => total_foldlM _ (fun a i _ => ?_) _) _
    by_cases h : q.tgtCount ((tl.getD lev []).getD i 0) = 0
    · simp only [h, if_true]
    · simp only [h, if_false]
      refine raiseIf_false (and_false_of fun hd => ?_) _
      rw [List.any_eq_false]
      intro s _
      rw [Bool.not_eq_true, List.any_eq_false]
      intro x _
      rw [hS.mpeval hd]; simp
  have e5 : ∀ src ls boxes lists, formLocals t q R S w src ls boxes lists =
      .ok (FmmLib.formLocals t q R w src ls boxes lists) := by
    intro src ls boxes lists
    refine total_foldlM _ (fun a lev _ => total_foldlM _ (fun a b _ => ?_) _) _
    refine raiseIf_false ?_ _
    rw [List.any_eq_false]
    intro x _
    rw [hS.formta]; simp
  have e6 : ∀ ls boxes a, refineLocals t R S w ls boxes a =
      .ok (FmmLib.refineLocals t R w ls boxes a) := by
    intro ls boxes a
    refine total_foldlM _ (fun a lev _ => total_foldlM _ (fun a b _ => ?_) _) _
    exact raiseIf_false (and_false_of fun hd => hS.locloc hd _ _ _ _ _ _ _) _
  have e7 : ∀ ls boxes a, evalLocals t q R S w ls boxes a =
      .ok (FmmLib.evalLocals t q R w ls boxes a) := by
    intro ls boxes a
    refine total_foldlM _ (fun a lev _ => total_foldlM _ (fun a b _ => ?_) _) _
    by_cases h : q.tgtCount b = 0
    · simp only [h, if_true]
    · simp only [h, if_false]
      refine raiseIf_false (and_false_of fun hd => ?_) _
      rw [List.any_eq_false]
      intro x _
      rw [hS.taeval hd]; simp
  unfold FmmLib.drive at h
  unfold drive
  by_cases hd : t.dims = 2 ∨ t.dims = 3
  · rw [if_pos hd] at h ⊢
    simp only [e1, e2, e3, e4, e5, e6, e7]
    rw [← Except.ok.inj h]
    rfl
  · rw [if_neg hd] at h; cases h

/-- If the run returns, so does every stage, with the result of the run in which nothing fails. -/
theorem stages_ok {trav : Traversal} {weights : Nat → W} {pot : Nat → P}
    (h : drive t q R S w trav weights = .ok pot) :
    let src := userSources q w weights
    let mp0 := FmmLib.formMultipoles t q R w src trav.levelStartSource trav.sourceBoxes
    let mp := upward t q R w src trav
    let loc := downward t q R w src trav mp
    (∃ r, formMultipoles t q R S w src trav.levelStartSource trav.sourceBoxes = .ok r) ∧
    (∃ r, coarsenMultipoles t R S w trav.levelStartSourceParent trav.sourceParentBoxes mp0 = .ok r) ∧
    (∃ r, multipoleToLocal t R S w trav.levelStartTtp trav.ttpBoxes trav.list2 mp = .ok r) ∧
    (∃ r, evalMultipoles t q R S w trav.list3Targets trav.list3 mp = .ok r) ∧
    (∃ r, formLocals t q R S w src trav.levelStartTtp trav.ttpBoxes trav.list4 = .ok r) ∧
    (∃ a r, refineLocals t R S w trav.levelStartTtp trav.ttpBoxes a = .ok r) ∧
    (∃ r, evalLocals t q R S w trav.levelStartTarget trav.targetBoxes loc = .ok r) := by
  intro src mp0 mp loc
  unfold drive at h
  by_cases hd : t.dims = 2 ∨ t.dims = 3
  · rw [if_pos hd] at h
    obtain ⟨h1, h⟩ := bind_ok h (sim_formMultipoles _ _)
    obtain ⟨h2, h⟩ := bind_ok h (sim_coarsenMultipoles _ _ _)
    obtain ⟨h3, h⟩ := bind_ok h (sim_multipoleToLocal _ _ _ _)
    obtain ⟨h4, h⟩ := bind_ok h (sim_evalMultipoles _ _ _)
    obtain ⟨h5, h⟩ := bind_ok h (sim_formLocals _ _ _)
    obtain ⟨h6, h⟩ := bind_ok h (sim_refineLocals _ _ _)
    obtain ⟨h7, h⟩ := bind_ok h (sim_evalLocals _ _ _)
    exact ⟨⟨_, h1⟩, ⟨_, h2⟩, ⟨_, h3⟩, ⟨_, h4⟩, ⟨_, h5⟩, ⟨_, _, h6⟩, ⟨_, h7⟩⟩
  · rw [if_neg hd] at h; cases h

theorem raiseIf_true {α : Type} {bad : Bool} (h : bad = true) (v r : α) : raiseIf bad v ≠ .ok r := by
  unfold raiseIf; rw [h]; intro h'; cases h'

/-- **C87 (forming expansions).** If the routine fails for the sources of a box, for a multipole expansion
(second clause: for a local expansion of list 4), the run raises. -/
theorem C87_forming_noticed (trav : Traversal) (weights : Nat → W) (pot : Nat → P) (lev : Nat)
    (hl : lev < t.nlevels) :
    (∀ b ∈ Fmm.levelSlice trav.levelStartSource trav.sourceBoxes lev, q.srcCount b ≠ 0 →
      S.formmp (levelToRscale t w lev) (boxSrc q (userSources q w weights) b) (t.center b)
        (w.order lev) = true →
      drive t q R S w trav weights ≠ .ok pot) ∧
    (∀ i, trav.levelStartTtp.getD lev 0 ≤ i → i < trav.levelStartTtp.getD (lev + 1) 0 →
      ∀ s ∈ trav.list4.row i,
      S.formta (levelToRscale t w lev) (boxSrc q (userSources q w weights) s)
        (t.center (trav.ttpBoxes.getD i 0)) (w.order lev) = true →
      drive t q R S w trav weights ≠ .ok pot) := by
  constructor
  · intro b hb hc hf h
    obtain ⟨⟨r, h1⟩, -⟩ := stages_ok h
    refine fail_foldlM _ lev (List.mem_range.2 hl) (fun a r => ?_) _ r h1
    refine fail_foldlM _ b hb (fun a r => ?_) _ r
    simp only [if_neg hc]
    exact raiseIf_true hf _ _
  · intro i hi hi' s hs hf h
    obtain ⟨-, -, -, -, ⟨r, h1⟩, -⟩ := stages_ok h
    refine fail_foldlM _ lev (List.mem_range.2 hl) (fun a r => ?_) _ r h1
    refine fail_foldlM _ i (List.mem_range'_1.2 ⟨hi, by omega⟩) (fun a r => ?_) _ r
    exact raiseIf_true (List.any_eq_true.2 ⟨s, hs, hf⟩) _ _

/-- **C87 (translations).** In three dimensions: if the translation from a child to its parent (or from a
parent to its child) fails for all coefficients, or a translation of list 2 fails for the coefficients of the run,
the run raises. -/
theorem C87_translation_noticed (h3 : t.dims = 3) (trav : Traversal) (weights : Nat → W)
    (pot : Nat → P) :
    (∀ lev ∈ Fmm.coarsenLevels t.nlevels,
      ∀ b ∈ Fmm.levelSlice trav.levelStartSourceParent trav.sourceParentBoxes (lev - 1),
      ∀ m, m < t.nch → t.child m b ≠ 0 →
      (∀ e, S.mpmp (levelToRscale t w lev) (t.center (t.child m b)) e (levelToRscale t w (lev - 1))
        (t.center b) (w.order (lev - 1)) (radius t (lev - 1)) = true) →
      drive t q R S w trav weights ≠ .ok pot) ∧
    (∀ lev, lev < t.nlevels → 1 ≤ lev → ∀ b ∈ Fmm.levelSlice trav.levelStartTtp trav.ttpBoxes lev,
      (∀ e, S.locloc (levelToRscale t w (lev - 1)) (t.center (t.parent b)) e (levelToRscale t w lev)
        (t.center b) (w.order lev) (radius t lev) = true) →
      drive t q R S w trav weights ≠ .ok pot) ∧
    (∀ lev, lev < t.nlevels → ∀ i, trav.levelStartTtp.getD lev 0 ≤ i →
      i < trav.levelStartTtp.getD (lev + 1) 0 →
      ∀ sp ∈ (trav.list2.row i).zipIdx (trav.list2.starts.getD i 0),
      S.mploc (rotAngle t w lev sp.2) (levelToRscale t w lev) (t.center sp.1)
        (getExpn t w (upward t q R w (userSources q w weights) trav) lev sp.1) (levelToRscale t w lev)
        (t.center (trav.ttpBoxes.getD i 0)) (w.order lev) (radius t lev) = true →
      drive t q R S w trav weights ≠ .ok pot) := by
  have hd : decide (t.dims = 3) = true := by simpa using h3
  refine ⟨?_, ?_, ?_⟩
  · intro lev hl b hb m hm hc hf h
    obtain ⟨-, ⟨r, h1⟩, -⟩ := stages_ok h
    refine fail_foldlM _ lev hl (fun a r => ?_) _ r h1
    refine fail_foldlM _ b hb (fun a r => ?_) _ r
    refine fail_foldlM _ m (List.mem_range.2 hm) (fun a r => ?_) _ r
    simp only [if_pos hc]
    exact raiseIf_true (by rw [hd, hf]; rfl) _ _
  · intro lev hl hl1 b hb hf h
    obtain ⟨-, -, -, -, -, ⟨a, r, h1⟩, -⟩ := stages_ok h
    refine fail_foldlM _ lev (List.mem_filter.2 ⟨List.mem_range.2 hl, by simpa using hl1⟩)
      (fun a r => ?_) _ r h1
    refine fail_foldlM _ b hb (fun a r => ?_) _ r
    exact raiseIf_true (by rw [hd, hf]; rfl) _ _
  · intro lev hl i hi hi' sp hsp hf h
    obtain ⟨-, -, ⟨r, h1⟩, -⟩ := stages_ok h
    unfold multipoleToLocal at h1
    cases hr : rotationMatrices t S w with
    | error e => rw [hr] at h1; cases h1
    | ok u =>
      rw [hr] at h1
      refine fail_foldlM _ lev (List.mem_range.2 hl) (fun a r => ?_) _ r h1
      refine fail_foldlM _ i (List.mem_range'_1.2 ⟨hi, by omega⟩) (fun a r => ?_) _ r
      exact raiseIf_true (by rw [hd, Bool.true_and]; exact List.any_eq_true.2 ⟨sp, hsp, hf⟩) _ _

/-- **C87 (rotation matrices).** If a rotation matrix cannot be computed, the run raises. -/
theorem C87_rotation_noticed (trav : Traversal) (weights : Nat → W) (pot : Nat → P) (lists : List ℤ)
    (angles : List A) (hw : w.rotation = some (lists, angles)) (hr : rotmatOrder t w ≠ -1) (a : A)
    (ha : a ∈ angles) (hf : S.rot (rotmatOrder t w) a = true) :
    drive t q R S w trav weights ≠ .ok pot := by
  intro h
  obtain ⟨-, -, ⟨r, h1⟩, -⟩ := stages_ok h
  unfold multipoleToLocal rotationMatrices at h1
  rw [if_neg hr, hw] at h1
  simp only at h1
  rw [if_pos (List.any_eq_true.2 ⟨a, ha, hf⟩)] at h1
  cases h1

/-- **C87 (evaluation).** In three dimensions: if the evaluation of an expansion at one target of a box fails, for a
multipole expansion of list 3 or for the local expansion of the box, the run raises. -/
theorem C87_evaluation_noticed (h3 : t.dims = 3) (trav : Traversal) (weights : Nat → W)
    (pot : Nat → P) (lev : Nat) :
    let mp := upward t q R w (userSources q w weights) trav
    (lev < trav.list3.length → ∀ i, i < (trav.list3Targets.getD lev []).length →
      ∀ s ∈ (trav.list3.getD lev ⟨[], []⟩).row i,
      ∀ k, k < q.tgtCount ((trav.list3Targets.getD lev []).getD i 0) →
      S.mpeval (levelToRscale t w lev) (t.center s) (getExpn t w mp lev s)
        (w.targets (q.tgtStart ((trav.list3Targets.getD lev []).getD i 0) + k)) = true →
      drive t q R S w trav weights ≠ .ok pot) ∧
    (lev < t.nlevels → ∀ b ∈ Fmm.levelSlice trav.levelStartTarget trav.targetBoxes lev,
      ∀ k, k < q.tgtCount b →
      S.taeval (levelToRscale t w lev) (t.center b)
        (getExpn t w (downward t q R w (userSources q w weights) trav mp) lev b)
        (w.targets (q.tgtStart b + k)) = true →
      drive t q R S w trav weights ≠ .ok pot) := by
  intro mp
  have hd : decide (t.dims = 3) = true := by simpa using h3
  constructor
  · intro hl i hi s hs k hk hf h
    obtain ⟨-, -, -, ⟨r, h1⟩, -⟩ := stages_ok h
    refine fail_foldlM _ lev (List.mem_range.2 hl) (fun a r => ?_) _ r h1
    refine fail_foldlM _ i (List.mem_range.2 hi) (fun a r => ?_) _ r
    simp only [if_neg (show q.tgtCount ((trav.list3Targets.getD lev []).getD i 0) ≠ 0 by omega)]
    refine raiseIf_true ?_ _ _
    rw [hd, Bool.true_and]
    exact List.any_eq_true.2 ⟨s, hs, List.any_eq_true.2
      ⟨_, List.mem_map.2 ⟨k, List.mem_range.2 hk, rfl⟩, hf⟩⟩
  · intro hl b hb k hk hf h
    obtain ⟨-, -, -, -, -, -, ⟨r, h1⟩⟩ := stages_ok h
    refine fail_foldlM _ lev (List.mem_range.2 hl) (fun a r => ?_) _ r h1
    refine fail_foldlM _ b hb (fun a r => ?_) _ r
    simp only [if_neg (show q.tgtCount b ≠ 0 by omega)]
    refine raiseIf_true ?_ _ _
    rw [hd, Bool.true_and]
    exact List.any_eq_true.2 ⟨_, List.mem_map.2 ⟨k, List.mem_range.2 hk, rfl⟩, hf⟩

namespace Ex

/-- Octree in which the first and the last child of the root and the first child of the former are refined:
33 boxes, 29 leaves, 4 levels, with entries on lists 1 to 4. -/
def oct : BoxTree where
  dims := 3
  nboxes := 33
  nlevels := 4
  rootExtent := 8
  parent b := if b < 9 then 0 else if b < 17 then 1 else if b < 25 then 8 else 9
  child m b := if b = 0 then m + 1 else if b = 1 then m + 9 else if b = 8 then m + 17
    else if b = 9 then m + 25 else 0
  level b := if b = 0 then 0 else if b < 9 then 1 else if b < 25 then 2 else 3
  center b i :=
    if b = 0 then 4
    else if b < 9 then 4 + mortonSign 3 (b - 1) i * 2
    else if b < 25 then
      4 + mortonSign 3 (if b < 17 then 0 else 7) i * 2 + mortonSign 3 ((b - 1) % 8) i * 1
    else 1 + mortonSign 3 ((b - 1) % 8) i * (1 / 2)
  flags b := if b = 0 ∨ b = 1 ∨ b = 8 ∨ b = 9 then 12 else 19
  srcCountCumul b := if b = 0 then 29 else if b = 1 then 15 else if b = 8 ∨ b = 9 then 8 else 1
  tgtMin _ _ := 0
  tgtMax _ _ := 8
  levelStart l := [0, 1, 9, 25, 33].getD l 0

def octInput : TravInput := { _root_.Boxtree.Ex.exInput with tree := oct }

def octParticles : Particles where
  nsources := 29
  ntargets := 29
  srcStart b := if b < 8 then b - 2 else b - 4
  srcCount b := if b = 0 ∨ b = 1 ∨ b = 8 ∨ b = 9 then 0 else 1
  tgtStart b := if b < 8 then b - 2 else b - 4
  tgtCount b := if b = 0 ∨ b = 1 ∨ b = 8 ∨ b = 9 then 0 else 1
  userSourceIds j := 28 - j
  sortedTargetIds i := 28 - i

/-- Orders 1 to 4 on the four levels, with data for the rotations. -/
def octWrangler : Wrangler ℚ ℚ where
  kernel := .laplace
  rscaleFactor := 1
  order l := l + 1
  sources j i := oct.center (if j < 6 then j + 2 else j + 4) i
  targets j i := oct.center (if j < 6 then j + 2 else j + 4) i
  dipoleVec := none
  dipolesAlreadyReordered := false
  rotation := some (List.replicate 126 0, [1, 2])
  cutoff := 10 ^ 8

/-- A library in which nothing fails. -/
def quiet : Status ℚ ℚ ℚ ℚ where
  formmp _ _ _ _ := false
  mpmp _ _ _ _ _ _ _ := false
  mploc _ _ _ _ _ _ _ _ := false
  formta _ _ _ _ := false
  locloc _ _ _ _ _ _ _ := false
  mpeval _ _ _ _ := false
  taeval _ _ _ _ := false
  rot _ _ := false

theorem quiet_silent (d : Nat) : quiet.Silent d := by
  constructor <;> intros <;> rfl

/-- `C87_success` and `C87_result_or_exception`: the run on the octree with this library returns. -/
example (weights : Nat → ℚ) : ∃ trav pot, buildTraversal octInput = .ok trav ∧
    drive oct octParticles Boxtree.FmmLib.Ex.linLib quiet octWrangler trav weights = .ok pot :=
  ⟨_, _, rfl, C87_success (quiet_silent _) _ _ _ rfl⟩

/-- Points are compared by their coordinates. -/
def same (x y : Nat → ℚ) : Bool := x 0 = y 0 ∧ x 1 = y 1 ∧ x 2 = y 2

/-- The hypotheses of the four theorems about failures hold on the octree for libraries in which the calls for one
single box (or target, or angle) fail. -/
example (weights : Nat → ℚ) : ∃ trav, buildTraversal octInput = .ok trav ∧
    ∀ S ∈ [{ quiet with formmp := fun _ _ c _ => same c (oct.center 13) },
      { quiet with formta := fun _ _ c _ => same c (oct.center 13) },
      { quiet with mpmp := fun _ c _ _ _ _ _ => same c (oct.center 28) },
      { quiet with locloc := fun _ _ _ _ c _ _ => same c (oct.center 13) },
      { quiet with mploc := fun _ _ _ _ _ c _ _ => same c (oct.center 13) },
      { quiet with rot := fun _ a => a = 2 },
      { quiet with mpeval := fun _ c _ _ => same c (oct.center 13) },
      { quiet with taeval := fun _ _ _ x => same x (oct.center 13) }],
    ∀ pot, drive oct octParticles Boxtree.FmmLib.Ex.linLib S octWrangler trav weights ≠ .ok pot := by
  obtain ⟨trav, h, h1, h2, h3, h4, h5, h6, h7, h8, h9, h10, h11, h12⟩ :
      ∃ trav, buildTraversal octInput = .ok trav ∧
      13 ∈ Fmm.levelSlice trav.levelStartSource trav.sourceBoxes 2 ∧
      trav.levelStartTtp.getD 2 0 ≤ 13 ∧ 13 < trav.levelStartTtp.getD 3 0 ∧ 2 ∈ trav.list4.row 13 ∧
      trav.ttpBoxes.getD 13 0 = 13 ∧
      9 ∈ Fmm.levelSlice trav.levelStartSourceParent trav.sourceParentBoxes 2 ∧
      13 ∈ Fmm.levelSlice trav.levelStartTtp trav.ttpBoxes 2 ∧
      (∃ p, p ∈ (trav.list2.row 13).zipIdx (trav.list2.starts.getD 13 0) ∧ p.1 = 17) ∧
      2 < trav.list3.length ∧
      (trav.list3Targets.getD 2 [] = [2, 3, 4, 5, 6, 7]) ∧
      13 ∈ (trav.list3.getD 2 ⟨[], []⟩).row 0 ∧
      13 ∈ Fmm.levelSlice trav.levelStartTarget trav.targetBoxes 2 := by
    refine ⟨_, rfl, ?_⟩
    refine ⟨by decide +kernel, by decide +kernel, by decide +kernel, by decide +kernel,
      by decide +kernel, by decide +kernel, by decide +kernel, ⟨(17, 32), ?_⟩, by decide +kernel,
      by decide +kernel, by decide +kernel, by decide +kernel⟩
    decide +kernel
  refine ⟨trav, h, ?_⟩
  obtain ⟨p, hp, -⟩ := h8
  have hl : 2 < oct.nlevels := by decide
  have hr : rotmatOrder oct octWrangler ≠ -1 := by
    intro h
    unfold rotmatOrder at h
    rw [if_pos (show oct.dims = 3 from rfl)] at h
    change (match (((List.range 4).map octWrangler.order).mergeSort fun a b => decide (b ≤ a)).find?
      (fun o => decide (memEstimate o 2 < 10 ^ 8)) with | some o => (o : ℤ) | none => -1) = -1 at h
    split at h
    · exact absurd h (by simp)
    · rename_i hf
      have := List.find?_eq_none.1 hf 4 (by rw [List.mem_mergeSort]; decide)
      exact this (by decide +kernel)
  have hx : octWrangler.targets (octParticles.tgtStart 13 + 0) = oct.center 13 := rfl
  intro S hS pot
  simp only [List.mem_cons, List.not_mem_nil, or_false] at hS
  rcases hS with rfl | rfl | rfl | rfl | rfl | rfl | rfl | rfl
  · exact (C87_forming_noticed trav weights pot 2 hl).1 13 h1 (by decide) (by simp [same])
  · refine (C87_forming_noticed trav weights pot 2 hl).2 13 h2 h3 2 h4 ?_
    rw [h5]; simp [same]
  · exact (C87_translation_noticed rfl trav weights pot).1 3 (by decide) 9 h6 3 (by decide) (by decide)
      (fun e => by simp [same, oct])
  · exact (C87_translation_noticed rfl trav weights pot).2.1 2 hl (by decide) 13 h7
      (fun e => by simp [same])
  · refine (C87_translation_noticed rfl trav weights pot).2.2 2 hl 13 h2 h3 p hp ?_
    rw [h5]; simp [same]
  · exact C87_rotation_noticed trav weights pot _ _ rfl hr 2 (by simp) (by simp)
  · refine (C87_evaluation_noticed rfl trav weights pot 2).1 h9 0 (by rw [h10]; decide) 13 h11 0
      (by rw [h10]; decide) (by simp [same])
  · refine (C87_evaluation_noticed rfl trav weights pot 2).2 hl 13 h12 0 (by decide) ?_
    rw [hx]; simp [same]

end Ex

end Boxtree.FmmLib.Err
