import Verif.Model.Kernels32
import Verif.Lemmas.AreaF
import Verif.Lemmas.Traversal
import Verif.Lemmas.Splits
import Verif.Props.DeepLevels
import Verif.Props.Morton32

/-! With at most 30 levels the 32-bit kernels are the exact ones. -/

namespace Boxtree
open BoxTree Area

section
variable {t : BoxTree}

theorem rad32_eq (hL : t.nlevels ≤ 30) {l : Nat} (hl : l < t.nlevels) : t.rad32 l = t.rad l :=
  C51_radius_exact_partial t l (by omega)

theorem adjNbhd32_eq (hL : t.nlevels ≤ 30) (a b : Nat → ℚ) (n : ℚ) {la lb : Nat} (ha : la < t.nlevels)
    (hb : lb < t.nlevels) : t.adjNbhd32 a la n b lb = t.adjNbhd a la n b lb := by
  unfold adjNbhd32 adjNbhd
  rw [rad32_eq hL ha, rad32_eq hL hb]

theorem sepBigger32_eq (hL : t.nlevels ≤ 30) (a b : Nat → ℚ) (s e : ℚ) {la lb : Nat}
    (ha : la < t.nlevels) (hb : lb < t.nlevels) :
    t.meetsSepBigger32 a la b lb s e = t.meetsSepBigger a la b lb s e := by
  unfold meetsSepBigger32 meetsSepBigger
  rw [rad32_eq hL ha, rad32_eq hL hb]

end

/-- The same call with other tests. -/
abbrev TravInput.tst (inp : TravInput) (T : Tests) : TravInput := { inp with tests := T }

/-- Two ways to decide the tests that agree on what the kernels ask. -/
structure SameTests (inp : TravInput) (T T' : Tests) : Prop where
  adj : ∀ {a b : Nat} (n : Nat) {la lb : Nat}, a < inp.tree.nboxes → b < inp.tree.nboxes → la < inp.tree.nlevels → lb < inp.tree.nlevels →
    (inp.tst T).params.tests.adj inp.tree a la n b lb
      = (inp.tst T').params.tests.adj inp.tree a la n b lb
  sepB : ∀ {a b la lb : Nat}, a < inp.tree.nboxes → b < inp.tree.nboxes → la < inp.tree.nlevels → lb < inp.tree.nlevels →
    (inp.tst T).params.tests.sepBigger inp.tree inp.stickOut inp.eps a la b lb
      = (inp.tst T').params.tests.sepBigger inp.tree inp.stickOut inp.eps a la b lb
  sepS : ∀ {a b : Nat}, a < inp.tree.nboxes → b < inp.tree.nboxes →
    meetsSepSmaller inp.tree (inp.tst T).params a b = meetsSepSmaller inp.tree (inp.tst T').params a b

section
variable {inp : TravInput} {T T' : Tests} (hw : inp.tree.WF) (hT : SameTests inp T T')
include hw hT

theorem slnws_same {b : Nat} (hb : b < inp.tree.nboxes) : slnwsKernel inp.tree (inp.tst T).params b
    = slnwsKernel inp.tree (inp.tst T').params b := by
  unfold slnwsKernel
  split
  · rfl
  · refine walk_congr hw _ _ hw.nboxes_pos fun j c hc _ _ => ?_
    unfold slnwsVisit
    dsimp only
    have h := hT.adj inp.nAway hb hc (hw.level_lt b hb) (hw.level_lt c hc)
    change (if ((inp.tst T).params.tests.adj inp.tree b (inp.tree.level b) inp.nAway c
      (inp.tree.level c)) = true then _ else _) = _
    rw [h]
    rfl

theorem list1_same {b : Nat} (hb : b < inp.tree.nboxes) : list1Kernel inp.tree (inp.tst T).params b
    = list1Kernel inp.tree (inp.tst T').params b := by
  unfold list1Kernel
  congr 1
  refine walk_congr hw _ _ hw.nboxes_pos fun j c hc _ _ => ?_
  unfold list1Visit
  rw [hT.adj 1 hb hc (hw.level_lt b hb) (hw.level_lt c hc)]

theorem list2_same {S : Nat → List Nat} (hS : ∀ b, ∀ x ∈ S b, x < inp.tree.nboxes) {b : Nat}
    (hb : b < inp.tree.nboxes) : list2Kernel inp.tree (inp.tst T).params S b
    = list2Kernel inp.tree (inp.tst T').params S b := by
  unfold list2Kernel
  dsimp only
  split
  · rfl
  · apply List.flatMap_congr
    intro x hx
    apply List.flatMap_congr
    intro m hm
    split
    · rfl
    · have h := hT.adj inp.nAway hb (hw.child_lt m (List.mem_range.1 hm) x (hS _ x hx))
        (hw.level_lt b hb) (hw.level_lt _ (hw.child_lt m (List.mem_range.1 hm) x (hS _ x hx)))
      change (if (!(inp.tst T).params.tests.adj inp.tree b (inp.tree.level b) inp.nAway _ _) = true
        then _ else _) = _
      rw [h]
      rfl

theorem list3_same {S : Nat → List Nat} (hS : ∀ b, ∀ x ∈ S b, x < inp.tree.nboxes) (l : Int) {b : Nat}
    (hb : b < inp.tree.nboxes) : list3Kernel inp.tree (inp.tst T).params S l b
    = list3Kernel inp.tree (inp.tst T').params S l b := by
  unfold list3Kernel
  apply List.flatMap_congr
  intro x hx
  split
  · rfl
  · refine walk_congr hw _ _ (hS _ x hx) fun j c hc _ _ => ?_
    unfold list3Visit
    dsimp only
    rw [hT.adj 1 hb hc (hw.level_lt b hb) (hw.level_lt c hc), hT.sepS hb hc]
    rfl

theorem list4Body_same {b wl : Nat} (hb : b < inp.tree.nboxes) (hwl : wl ≤ inp.tree.level b) {x : Nat}
    (hx : x < inp.tree.nboxes) :
    list4Body inp.tree (inp.tst T).params b wl x
      = list4Body inp.tree (inp.tst T').params b wl x := by
  have h1 := hw.level_lt b hb
  have h2 : wl < inp.tree.nlevels := by omega
  have h3 : inp.tree.level b - 1 < inp.tree.nlevels := by omega
  unfold list4Body
  dsimp only
  have hp := hw.parent_lt b hb
  rw [hT.adj 1 hb hx h1 h2, hT.adj 1 hp hx h3 h2,
    show (inp.tst T).params.stickOut = inp.stickOut from rfl, show (inp.tst T).params.eps = inp.eps from rfl,
    hT.sepB hb hx h1 h2, hT.sepB hp hx h3 h2]
  rfl

theorem list4_same {S : Nat → List Nat} (hS : ∀ b, ∀ x ∈ S b, x < inp.tree.nboxes) {b : Nat}
    (hb : b < inp.tree.nboxes) :
    list4Kernel inp.tree (inp.tst T).params S b
      = list4Kernel inp.tree (inp.tst T').params S b := by
  have key : ∀ wl cur, wl ≤ inp.tree.level b → list4Loop inp.tree (inp.tst T).params S b wl cur
      = list4Loop inp.tree (inp.tst T').params S b wl cur := by
    intro wl
    induction wl with
    | zero => intro _ _; rfl
    | succ wl ih =>
      intro cur h
      unfold list4Loop
      rw [ih _ (by omega)]
      congr 1
      apply List.flatMap_congr
      intro x hx
      exact list4Body_same hw hT hb h (hS _ x hx)
  unfold list4Kernel
  rw [key _ _ (Nat.sub_le _ _), key _ _ (le_refl _)]
  rfl

theorem buildTraversal_same :
    buildTraversal (inp.tst T) = buildTraversal (inp.tst T') := by
  have hs : (List.range inp.tree.nboxes).map (slnwsKernel inp.tree (inp.tst T).params)
      = (List.range inp.tree.nboxes).map
        (slnwsKernel inp.tree (inp.tst T').params) :=
    List.map_congr_left fun b hb => slnws_same hw hT (List.mem_range.1 hb)
  have hrow : ∀ b, ∀ x ∈ (buildLists ((List.range inp.tree.nboxes).map
        (slnwsKernel inp.tree (inp.tst T').params))).row b,
      x < inp.tree.nboxes := by
    intro b x hx
    have h1 := List.mem_of_mem_drop (List.mem_of_mem_take hx)
    obtain ⟨r, hr, hxr⟩ := List.mem_flatten.1 h1
    obtain ⟨c, _, rfl⟩ := List.mem_map.1 hr
    exact slnws_lt hw hxr
  have htt : ∀ b ∈ selTtpBoxes inp.tree, b < inp.tree.nboxes :=
    fun b hb => List.mem_range.1 (List.mem_filter.1 hb).1
  have htb : ∀ b ∈ (if inp.sourcesAreTargets then selSourceBoxes inp.tree inp.srcMask
      else selTargetBoxes inp.tree), b < inp.tree.nboxes := by
    intro b hb
    split at hb <;> exact List.mem_range.1 (List.mem_filter.1 hb).1
  unfold buildTraversal
  dsimp only
  rw [show (inp.tst T).tree = inp.tree from rfl, show (inp.tst T).check = inp.check from rfl,
    show (inp.tst T').check = inp.check from rfl,
    show (inp.tst T).sourcesAreTargets = inp.sourcesAreTargets from rfl,
    show (inp.tst T).srcMask = inp.srcMask from rfl,
    show (inp.tst T).srcParentMask = inp.srcParentMask from rfl,
    show (inp.tst T).targetsHaveExtent = inp.targetsHaveExtent from rfl, hs]
  generalize (buildLists ((List.range inp.tree.nboxes).map
    (slnwsKernel inp.tree (inp.tst T').params))) = R at hrow ⊢
  generalize (if inp.sourcesAreTargets then selSourceBoxes inp.tree inp.srcMask
      else selTargetBoxes inp.tree) = B at htb ⊢
  have e1 := List.map_congr_left fun b hb => list1_same hw hT (htb b hb)
  have e2 := List.map_congr_left fun b hb => list2_same hw hT hrow (htt b hb)
  have e3 : ∀ l : Nat, B.map (fun b => sepPart (list3Kernel inp.tree (inp.tst T).params R.row (l : Int) b))
      = B.map fun b => sepPart (list3Kernel inp.tree
        (inp.tst T').params R.row (l : Int) b) :=
    fun l => List.map_congr_left fun b hb => by rw [list3_same hw hT hrow (l : Int) (htb b hb)]
  have e4 : B.map (fun b => closePart (list3Kernel inp.tree (inp.tst T).params R.row (-1) b))
      = B.map fun b => closePart (list3Kernel inp.tree
        (inp.tst T').params R.row (-1) b) :=
    List.map_congr_left fun b hb => by rw [list3_same hw hT hrow (-1) (htb b hb)]
  have e5 : (selTtpBoxes inp.tree).map
        (fun b => sepPart (list4Kernel inp.tree (inp.tst T).params R.row b))
      = (selTtpBoxes inp.tree).map fun b => sepPart (list4Kernel inp.tree
        (inp.tst T').params R.row b) :=
    List.map_congr_left fun b hb => by rw [list4_same hw hT hrow (htt b hb)]
  have e6 : (selTtpBoxes inp.tree).map
        (fun b => closePart (list4Kernel inp.tree (inp.tst T).params R.row b))
      = (selTtpBoxes inp.tree).map fun b => closePart (list4Kernel inp.tree
        (inp.tst T').params R.row b) :=
    List.map_congr_left fun b hb => by rw [list4_same hw hT hrow (htt b hb)]
  simp only [e1, e2, e3, e4, e5, e6]

end

section
variable {inp : TravInput} (hw : inp.tree.WF) (hL : inp.tree.nlevels ≤ 30)
include hw hL


omit hw in
theorem adj32 (a b n : Nat) {la lb : Nat} (ha : la < inp.tree.nlevels) (hb : lb < inp.tree.nlevels) :
    inp.with32.params.tests.adj inp.tree a la n b lb
      = ({ inp with tests := .exact } : TravInput).params.tests.adj inp.tree a la n b lb :=
  adjNbhd32_eq hL _ _ _ ha hb

omit hw in
theorem sepB32 (a b : Nat) {la lb : Nat} (ha : la < inp.tree.nlevels) (hb : lb < inp.tree.nlevels) :
    inp.with32.params.tests.sepBigger inp.tree inp.stickOut inp.eps a la b lb
      = ({ inp with tests := .exact } : TravInput).params.tests.sepBigger inp.tree inp.stickOut inp.eps
        a la b lb :=
  sepBigger32_eq hL _ _ _ _ ha hb

theorem sepS32 {a b : Nat} (ha : a < inp.tree.nboxes) (hb : b < inp.tree.nboxes) :
    meetsSepSmaller inp.tree inp.with32.params a b
      = meetsSepSmaller inp.tree ({ inp with tests := .exact } : TravInput).params a b := by
  have h1 := rad32_eq hL (hw.level_lt a ha)
  have h2 := rad32_eq hL (hw.level_lt b hb)
  unfold meetsSepSmaller
  show (if (!inp.targetsHaveExtent) = true then true else
      (Device.exact32 inp.tree inp.tree.center inp.params.crit inp.stickOut inp.eps).sepSmaller a b)
    = if (!inp.targetsHaveExtent) = true then true else
      match inp.params.crit with
      | .staticLinf => critStaticLinf inp.tree ({ inp with tests := .exact } : TravInput).params a b
      | .preciseLinf => critPreciseLinf inp.tree ({ inp with tests := .exact } : TravInput).params a b
      | .staticL2 => critStaticL2 inp.tree ({ inp with tests := .exact } : TravInput).params a b
  split
  · rfl
  · unfold Device.exact32
    cases inp.params.crit
    · show staticLinf32 _ _ _ _ _ _ = _
      unfold staticLinf32
      rw [h1, h2]
      rfl
    · show preciseLinf32 _ _ _ _ _ = _
      unfold preciseLinf32
      rw [h2]
      rfl
    · show staticL232 _ _ _ _ _ _ = _
      unfold staticL232
      rw [h1, h2]
      rfl

theorem buildTraversal32 :
    buildTraversal inp.with32 = buildTraversal ({ inp with tests := .exact } : TravInput) :=
  buildTraversal_same (inp := inp) (T' := .exact) hw
    ⟨fun n _ _ _ _ => adj32 hL _ _ n, fun _ _ => sepB32 hL _ _, sepS32 hw hL⟩

end

/-! ### what the lists never contain, whatever the tests answer -/

section
variable {t : BoxTree} {p : TravParams}

theorem slnws_struct (hw : t.WF) {b x : Nat} (h : x ∈ slnwsKernel t p b) :
    x < t.nboxes ∧ x ≠ b ∧ t.level x = t.level b := by
  unfold slnwsKernel at h
  split at h
  · simp at h
  · obtain ⟨k, c, hc, he, hk⟩ := mem_walk_level hw x hw.nboxes_pos h
    rw [hw.level_root] at hk
    unfold slnwsVisit at he
    dsimp only at he
    split at he
    · split at he
      · rename_i h2
        simp only [List.mem_singleton] at he
        subst he
        exact ⟨hc, h2.2, by omega⟩
      · simp at he
    · simp at he

variable (hw : t.WF) {S : Nat → List Nat} (hS : ∀ b, b < t.nboxes → S b = slnwsKernel t p b)
include hw hS

theorem list2_struct {a c : Nat} (ha : a < t.nboxes) (h : c ∈ list2Kernel t p S a) :
    c < t.nboxes ∧ c ≠ a ∧ t.level c = t.level a := by
  unfold list2Kernel at h
  dsimp only at h
  split at h
  · simp at h
  · rename_i hpa
    have ha0 : a ≠ 0 := fun h0 => hpa (by rw [h0]; exact hw.parent_root)
    have hpl := hw.parent_lt a ha
    simp only [List.mem_flatMap, List.mem_range] at h
    obtain ⟨x, hx, m, hm, hc⟩ := h
    have hpn : t.parent a < t.nboxes := by omega
    rw [hS _ hpn] at hx
    obtain ⟨hx1, hx2, hx3⟩ := slnws_struct hw hx
    split at hc
    · simp at hc
    · rename_i hc0
      split at hc
      · simp only [List.mem_singleton] at hc
        subst hc
        have h1 := hw.level_child hm hx1 hc0
        obtain ⟨m', hm', hc'⟩ := hw.parent_child a ha ha0
        have h2 := hw.level_child hm' hpn (by rw [hc']; exact ha0)
        rw [hc'] at h2
        refine ⟨hw.child_lt m hm x hx1, fun hca => hx2 ?_, by omega⟩
        rw [← hca, hw.child_parent m hm x hx1 hc0]
      · simp at hc

theorem list3_struct {b : Nat} (hb : b < t.nboxes) {l : Int} {o : Out}
    (h : o ∈ list3Kernel t p S l b) : ∃ c, (o = .sep c ∨ o = .close c) ∧ t.level b < t.level c := by
  unfold list3Kernel at h
  simp only [List.mem_flatMap] at h
  obtain ⟨x, hx, h⟩ := h
  rw [hS _ hb] at hx
  obtain ⟨hx1, _, hx3⟩ := slnws_struct hw hx
  split at h
  · simp at h
  · obtain ⟨k, c, _, he, hk⟩ := mem_walk_level hw o hx1 h
    refine ⟨c, ?_, by omega⟩
    unfold list3Visit at he
    dsimp only at he
    split at he
    · split at he
      · simp at he
      · split at he
        · split at he <;> simp at he
          exact Or.inl he
        · split at he
          · split at he <;> simp at he
            exact Or.inr he
          · simp at he
    · simp at he

theorem list4Loop_struct {a : Nat} : ∀ (wl cur : Nat), cur < t.nboxes → t.level cur = wl →
    (wl = t.level a → cur = a) → wl ≤ t.level a → ∀ {o : Out}, o ∈ list4Loop t p S a wl cur →
    ∃ c, (o = .sep c ∨ o = .close c) ∧ c ≠ a ∧ t.level c ≤ t.level a := by
  intro wl
  induction wl with
  | zero => intro cur _ _ _ _ o h; simp [list4Loop] at h
  | succ wl ih =>
    intro cur hc hl hca hle o h
    unfold list4Loop at h
    rcases List.mem_append.1 h with h | h
    · obtain ⟨x, hx, h⟩ := List.mem_flatMap.1 h
      rw [hS _ hc] at hx
      obtain ⟨_, hx2, hx3⟩ := slnws_struct hw hx
      refine ⟨x, ?_, ?_, by omega⟩
      · unfold list4Body at h
        dsimp only at h
        split at h
        · split at h
          · simp at h
          · split at h
            · split at h <;> simp at h
              exact Or.inr h
            · split at h
              · split at h <;> simp at h
                exact Or.inl h
              · simp at h
                exact Or.inl h
        · simp at h
      · intro hxa
        have h1 : wl + 1 = t.level a := by rw [← hxa, hx3, hl]
        exact hx2 (by rw [hxa, hca h1])
    · have h0 : cur ≠ 0 := fun h0 => by rw [h0, hw.level_root] at hl; omega
      have hpl := hw.parent_lt cur hc
      have hpn : t.parent cur < t.nboxes := by omega
      obtain ⟨m', hm', hc'⟩ := hw.parent_child cur hc h0
      have h2 := hw.level_child hm' hpn (by rw [hc']; exact h0)
      rw [hc'] at h2
      exact ih (t.parent cur) hpn (by omega) (by omega) (by omega) h

theorem list4_struct {a : Nat} (ha : a < t.nboxes) {o : Out} (h : o ∈ list4Kernel t p S a) :
    ∃ c, (o = .sep c ∨ o = .close c) ∧ c ≠ a ∧ t.level c ≤ t.level a := by
  unfold list4Kernel at h
  split at h
  · simp at h
  · rename_i hl0
    split at h
    · have h0 : a ≠ 0 := fun h0 => hl0 (by rw [h0]; exact hw.level_root)
      have hpl := hw.parent_lt a ha
      have hpn : t.parent a < t.nboxes := by omega
      obtain ⟨m', hm', hc'⟩ := hw.parent_child a ha h0
      have h2 := hw.level_child hm' hpn (by rw [hc']; exact h0)
      rw [hc'] at h2
      exact list4Loop_struct hw hS _ _ hpn (by omega) (by omega) (by omega) h
    · exact list4Loop_struct hw hS _ _ ha rfl (fun _ => rfl) (le_refl _) h

end

/-! ### area queries -/

namespace Area
variable {t : BoxTree}

theorem queryMorton32_eq (bmin x : Nat → ℚ) {l : Nat} (hl : l ≤ 30) :
    queryMorton32 t bmin x l = queryMorton t bmin x l := by
  unfold queryMorton32 queryMorton
  rw [Build.shift32_small hl]

variable (hw : t.WF) (hL : t.nlevels ≤ 30)
include hw hL

theorem guidingLoop32 (bmin x : Nat → ℚ) (qr : ℚ) : ∀ (fuel b : Nat), b < t.nboxes →
    guidingLoopBy t t.rad32 (queryMorton32 t bmin x) qr fuel (t.level b) b
      = guidingLoop t bmin x qr fuel (t.level b) b := by
  intro fuel
  induction fuel with
  | zero => intro b _; rfl
  | succ fuel ih =>
    intro b hb
    have hl := hw.level_lt b hb
    unfold guidingLoop guidingLoopBy
    rw [rad32_eq hL hl, queryMorton32_eq bmin x (by omega)]
    split
    · rfl
    · dsimp only
      split
      · rename_i hne
        have hm := queryMorton_lt t bmin x (t.level b)
        rw [← hw.level_child hm hb hne]
        exact ih _ (hw.child_lt _ hm b hb)
      · rfl

theorem guidingBox32_eq (bmin : Nat → ℚ) (ball : Ball) : guidingBox32 t bmin ball = guidingBox t bmin ball := by
  have h0 := hw.level_lt 0 hw.nboxes_pos
  rw [hw.level_root] at h0
  have h := guidingLoop32 hw hL bmin (clamp t bmin ball.center) (queryRadius t bmin ball)
    (t.nlevels + 1) 0 hw.nboxes_pos
  rw [hw.level_root] at h
  unfold guidingBox32 guidingBox
  dsimp only
  rw [rad32_eq hL h0, h]

theorem areaPeer32 (ball : Ball) {q : Nat} (hq : q < t.nboxes) :
    areaPeer t ball q (ballOverlaps32 t) = areaPeer t ball q := by
  have key : ∀ c, c < t.nboxes → ballOverlaps32 t ball c = ballOverlaps t ball c := by
    intro c hc
    unfold ballOverlaps32 ballOverlaps
    rw [rad32_eq hL (hw.level_lt c hc)]
  unfold areaPeer
  beta_reduce
  rw [key q hq]
  split
  · rfl
  · refine walk_congr hw _ _ hq fun j c hc _ _ => ?_
    unfold areaVisit
    beta_reduce
    rw [key c hc]

theorem peerLists32 : peerLists t (adjacent32 t) = peerLists t := by
  unfold peerLists
  congr 1
  apply List.map_congr_left
  intro b hb
  refine peerKernel_congr hw _ (fun a c ha hc => ?_) (List.mem_range.1 hb)
  unfold adjacent32
  rw [adjNbhd32_eq hL _ _ _ (hw.level_lt a ha) (hw.level_lt c hc)]
  exact Iff.trans (by rfl) (adjOver_iff t a c)

theorem areaQuery32_eq (bmin : Nat → ℚ) (balls : List Ball) (peers : Option BuiltList)
    (hp : ∀ P, peers = some P → ∀ q ∈ P.lists, q < t.nboxes) :
    areaQuery32 t bmin balls peers = areaQuery t bmin balls peers := by
  unfold areaQuery32 areaQuery
  rw [peerLists32 hw hL]
  have hq : ∀ q ∈ (peers.getD (peerLists t)).lists, q < t.nboxes := by
    cases peers with
    | some P => exact hp P rfl
    | none =>
      intro q h
      obtain ⟨r, hr, hqr⟩ := List.mem_flatten.1 h
      obtain ⟨c, hc, rfl⟩ := List.mem_map.1 hr
      exact peers_lt hw (List.mem_range.1 hc) hqr
  generalize peers.getD (peerLists t) = P at hq
  dsimp only
  split
  · rfl
  · congr 2
    apply List.map_congr_left
    intro ball _
    unfold areaWalk
    rw [guidingBox32_eq hw hL]
    apply List.flatMap_congr
    intro q hqm
    exact areaPeer32 hw hL ball (hq q (List.mem_of_mem_drop (List.mem_of_mem_take hqm)))

end Area
end Boxtree
