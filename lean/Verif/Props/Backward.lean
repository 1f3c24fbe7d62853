import Verif.Spec.Backward
import Verif.Lemmas.Backward
import Verif.Props.Rounding
import Verif.Props.Coarsest

/-!
# C77: tree building with rounding is backward stable

The tree that is built for points with rounding is the one that would be built without rounding for
points moved by a few rounding errors.
-/

namespace Boxtree.Build

section
variable {inp : Input} {fl rt : ℚ → ℚ} {u : ℚ}

/-- The points whose exact Morton numbers are computed. -/
def Input.pointsF (inp : Input) (fl : ℚ → ℚ) (a p : Nat) : ℚ := inp.lo a + inp.ext a * inp.fracF fl a p

theorem pointsF_move (ok : inp.NearlyPlaced u) (h : Rounds fl u) (room : inp.Room u) :
    inp.SmallMove u (inp.pointsF fl) := by
  intro a ha p hp
  have := (Input.frac_core ok h room ha hp).2.2
  unfold Input.pointsF
  rwa [show inp.lo a + inp.ext a * inp.fracF fl a p - inp.x a p
    = inp.ext a * inp.fracF fl a p - (inp.x a p - inp.lo a) by ring]

theorem pointsF_placed (ok : inp.NearlyPlaced u) (h : Rounds fl u) (room : inp.Room u) :
    (inp.atPoints (inp.pointsF fl)).Placed := by
  have key : ∀ a < inp.dims, ∀ p < inp.n, inp.lo a ≤ inp.pointsF fl a p ∧
      inp.pointsF fl a p < inp.lo a + inp.ext a := by
    intro a ha p hp
    obtain ⟨h1, h2, _⟩ := Input.frac_core ok h room ha hp
    have hE := ok.toOK.ext_pos' ha
    unfold Input.pointsF
    constructor <;> nlinarith
  exact
    { dims_pos := ok.dims_pos
      n_pos := ok.n_pos
      nsources_le := ok.nsources_le
      separate := ok.separate
      ext_pos := ok.ext_pos
      cube := ok.cube
      radius_nonneg := fun _ _ => le_refl _
      lower := fun a ha p hp => by
        show inp.lo a ≤ inp.pointsF fl a p - 0
        rw [sub_zero]; exact (key a ha p hp).1
      upper := fun a ha p hp => by
        show inp.pointsF fl a p + 0 ≤ inp.lo a + inp.ext a
        rw [add_zero]; exact (key a ha p hp).2.le
      off_upper := fun a ha p hp => (key a ha p hp).2 }

theorem pointsF_bits (ok : inp.NearlyPlaced u) (h : Rounds fl u) (room : inp.Room u)
    (hx : inp.arith = .rounded fl rt) {a p : Nat} (ha : a < inp.dims) (hp : p < inp.n) (l : Nat) :
    (inp.atPoints (inp.pointsF fl)).bits a p l = inp.bits a p l := by
  have hE := ok.toOK.ext_pos' ha
  have e : Arith.exact.scaled (inp.pointsF fl a p) (inp.lo a) (inp.ext a) l
      = inp.arith.scaled (inp.x a p) (inp.lo a) (inp.ext a) l := by
    rw [(room.scaled ok h hx).eq a ha p hp]
    show (inp.pointsF fl a p - inp.lo a) / inp.ext a * 2 ^ (1 + l) = _
    unfold Input.pointsF
    rw [add_sub_cancel_left, mul_div_cancel_left₀ _ hE.ne']
  show ⌊Arith.exact.scaled (inp.pointsF fl a p) (inp.lo a) (inp.ext a) l⌋.toNat = _
  rw [e]
  rfl

theorem pointsF_morton (ok : inp.NearlyPlaced u) (h : Rounds fl u) (room : inp.Room u)
    (hx : inp.arith = .rounded fl rt) (he : inp.haveExtent = false) {p : Nat} (hp : p < inp.n)
    (l : Nat) : (inp.atPoints (inp.pointsF fl)).morton p l = inp.morton p l := by
  have he' : (inp.atPoints (inp.pointsF fl)).haveExtent = false := he
  unfold Input.morton
  rw [he, he', Bool.false_and, Bool.false_and, if_neg (by simp), if_neg (by simp)]
  congr 2
  refine List.map_congr_left fun a ha => ?_
  rw [pointsF_bits ok h room hx (List.mem_range.1 ha) hp]
  rfl

section
variable (F : Flat) (st : Nat → Nat → ℚ)

theorem climb_stored (cond : Nat → Bool) : ∀ fuel b,
    climb { F with stored := st } cond fuel b = climb F cond fuel b := by
  intro fuel
  induction fuel with
  | zero => intro b; rfl
  | succ fuel ih =>
    intro b
    unfold climb
    simp only [ih]

theorem startBoxes_stored : startBoxes { F with stored := st } = startBoxes F :=
  funext fun _ => climb_stored F st _ _ _

theorem endBoxes_stored : endBoxes { F with stored := st } = endBoxes F :=
  funext fun _ => climb_stored F st _ _ _

theorem boxStarts_stored : boxStarts { F with stored := st } = boxStarts F := by
  funext n ns ids src
  unfold boxStarts
  rw [startBoxes_stored]

theorem boxCounts_stored : boxCounts { F with stored := st } = boxCounts F := by
  funext n ns ids src
  unfold boxCounts
  rw [endBoxes_stored]
  rfl

theorem boxNonchild_stored : boxNonchild { F with stored := st } = boxNonchild F := rfl

theorem levelCounts_stored : ∀ used, levelCounts used { F with stored := st } = levelCounts used F :=
  fun _ => rfl

end

theorem finish_alike {C C' : Cloud} {P : Params} {μ : Nat → Nat → Option Nat} {φ : ℚ → ℚ}
    {ρ : Nat → ℚ} {skip : Bool} {pad : Nat → Nat} {L : Nat} {s s' : State}
    (h1 : C'.sourcesAreTargets = C.sourcesAreTargets) (h2 : C'.nsources = C.nsources)
    (hs : Alike s s') :
    SameTree (finish P C skip (fun l => s.used l + pad l) L s)
      (finish (P.swap μ φ ρ) C' skip (fun l => s'.used l + pad l) L s') := by
  obtain ⟨_, ns, x, r, b1, b2⟩ := C'
  simp only at h1 h2
  subst h1 h2
  have key : ∀ st, prune (keeps skip (fun l => s.used l + pad l) L { s with stored := st })
        (flatten (P.swap μ φ ρ) (fun l => s.used l + pad l) L { s with stored := st })
      = { prune (keeps skip (fun l => s.used l + pad l) L s)
            (flatten P (fun l => s.used l + pad l) L s) with
          stored := (prune (keeps skip (fun l => s.used l + pad l) L { s with stored := st })
            (flatten (P.swap μ φ ρ) (fun l => s.used l + pad l) L { s with stored := st })).stored } :=
    fun _ => rfl
  rw [hs]
  unfold finish
  rw [key]
  generalize prune (keeps skip (fun l => s.used l + pad l) L s)
    (flatten P (fun l => s.used l + pad l) L s) = F
  generalize (prune _ _).stored = st
  unfold finishFlat SameTree
  simp only [boxStarts_stored, boxCounts_stored, boxNonchild_stored, levelCounts_stored]
  exact ⟨rfl, rfl⟩

end

/-- **C77.** For points: if the tree is built with rounding, then the same call without rounding
builds the same tree, with the same particles in each box in the same order, for points that differ
from the given ones by at most five rounding errors of the bounding box.  With level restriction the
boxes have to be large compared with rounding errors (`Input.Fine`). -/
theorem C77_backward_stable (inp : Input) (fl rt : ℚ → ℚ) (u : ℚ) (ok : inp.NearlyPlaced u)
    (hfl : Rounds fl u) (hx : inp.arith = .rounded fl rt) (room : inp.Room u)
    (he : inp.haveExtent = false) (t : Built) (h : inp.build = .ok t) {M : ℚ}
    (hF : inp.levelRestrict = true → inp.Fine u M t.tree.nlevels) :
    ∃ y, inp.SmallMove u y ∧ (inp.atPoints y).Placed ∧
      ∃ t', (inp.atPoints y).build = .ok t' ∧ SameTree t t' := by
  have hP := pointsF_placed ok hfl room
  refine ⟨inp.pointsF fl, pointsF_move ok hfl room, hP, ?_⟩
  unfold Input.build at h
  split at h
  · cases h
  rename_i L s hb
  cases h
  have hswap : (inp.atPoints (inp.pointsF fl)).params = inp.params.swap
      (inp.atPoints (inp.pointsF fl)).morton id
      fun a => rootCenterF id (inp.lo a) (inp.ext a) := rfl
  obtain ⟨M', hF'⟩ := Input.fine_exact hP.toOK rfl (L + 1)
  obtain ⟨r', h1, h2⟩ := buildLevels_swap (P := inp.params)
    (μ := (inp.atPoints (inp.pointsF fl)).morton) (φ := id)
    (ρ := fun a => rootCenterF id (inp.lo a) (inp.ext a))
    (fun p hp l => pointsF_morton ok hfl room hx he hp l) (Input.mortOK inp)
    (by rw [← hswap]; exact Input.mortOK _) ok.ext_pos
    (fun hr n hn hn' => ⟨(hF hr).adjOK ok.toOK hn hn', by rw [← hswap]; exact hF'.adjOK hP.toOK hn hn'⟩)
    hb
  refine ⟨finish (inp.atPoints (inp.pointsF fl)).params (inp.atPoints (inp.pointsF fl)).cloud
    inp.skipPrune (fun l => r'.used l + inp.pad l) L r', ?_, ?_⟩
  · unfold Input.build
    rw [hswap, h1]
    rfl
  · exact finish_alike rfl rfl h2

section
variable {t t' : Built}

theorem SameTree.splits (h : SameTree t t') {t2 : BoxTree} (hs : SplitsWithin t'.tree t2) :
    SplitsWithin t.tree t2 := by
  rw [h.1] at hs
  exact hs

end

namespace Ex

/-- `Ex.close` between -1 and 1 in single precision, with a particle just below zero. -/
def closeF : Input :=
  { close with x := fun _ p => [-1 / 2 ^ 30, 3 / 10, -4 / 5].getD p 0, lo := fun _ => -1, ext := fun _ => 2,
               arith := .rounded (roundTo 24) (rootTo 24) }

theorem closeF_placed : closeF.Placed where
  dims_pos := by decide
  n_pos := by decide
  nsources_le := by decide
  separate := by decide
  ext_pos := by decide +kernel
  cube := by decide +kernel
  radius_nonneg := by decide +kernel
  lower := by decide +kernel
  upper := by decide +kernel
  off_upper := by decide +kernel

theorem closeF_room : closeF.Room (1 / 2 ^ 24) := by unfold Input.Room; decide +kernel

theorem closeF_fine : closeF.Fine (1 / 2 ^ 24) 3 4 :=
  ⟨roundTo_rounds (by decide), by decide +kernel, by decide +kernel⟩

theorem closeF_weights : closeF.WeightsOK := ⟨by decide, by decide, by decide⟩

end Ex

/-- The rounded call builds a tree with seven boxes on four levels, and the hypotheses of C77 are met. -/
example : Ex.closeF.NearlyPlaced (1 / 2 ^ 24) ∧ Rounds (roundTo 24) (1 / 2 ^ 24) ∧
    Ex.closeF.arith = .rounded (roundTo 24) (rootTo 24) ∧ Ex.closeF.Room (1 / 2 ^ 24) ∧
    Ex.closeF.haveExtent = false ∧ Ex.closeF.levelRestrict = true ∧ Ex.closeF.WeightsOK ∧
    Ex.closeF.adaptive = true ∧ ∃ t, Ex.closeF.build = .ok t ∧ t.tree.nboxes = 7 ∧
      Ex.closeF.Fine (1 / 2 ^ 24) 3 t.tree.nlevels := by
  refine ⟨Ex.closeF_placed.nearly (by norm_num), roundTo_rounds (by decide), rfl, Ex.closeF_room, rfl, rfl,
    Ex.closeF_weights, rfl, ?_⟩
  obtain ⟨t, h, h1, h2⟩ := Ex.look_true (e := Ex.closeF.build)
    (f := fun t => t.tree.nboxes = 7 ∧ t.tree.nlevels = 4) (by decide +kernel)
  exact ⟨t, h, h1, by rw [h2]; exact Ex.closeF_fine⟩

/-- **C77**, why the points are moved: for the given points themselves the call without rounding builds
another tree. -/
theorem C77_other_tree : ∃ inp : Input, inp.NearlyPlaced (1 / 2 ^ 24) ∧
    inp.arith = .rounded (roundTo 24) (rootTo 24) ∧ inp.Room (1 / 2 ^ 24) ∧ inp.haveExtent = false ∧
    ∃ t t', inp.build = .ok t ∧ (inp.atPoints inp.x).build = .ok t' ∧ ¬ SameTree t t' := by
  refine ⟨Ex.closeF, Ex.closeF_placed.nearly (by norm_num), rfl, Ex.closeF_room, rfl, ?_⟩
  obtain ⟨t, h, h1⟩ := Ex.look_true (e := Ex.closeF.build)
    (f := fun t => t.tree.nboxes = 7) (by decide +kernel)
  obtain ⟨t', h', h1'⟩ := Ex.look_true (e := (Ex.closeF.atPoints Ex.closeF.x).build)
    (f := fun t => t.tree.nboxes = 5) (by decide +kernel)
  refine ⟨t, t', h, h', fun hs => ?_⟩
  have : t'.tree.nboxes = t.tree.nboxes := by rw [hs.1]
  omega

/-- **C77** for the size of the tree: with rounding, the tree of an adaptive build is the coarsest one
for some points that differ from the given ones by at most five rounding errors: it splits
no box that is not split in every admissible tree for these points, and none of these has fewer
boxes. -/
theorem C77_coarsest_nearby (inp : Input) (fl rt : ℚ → ℚ) (u : ℚ) (ok : inp.NearlyPlaced u)
    (hfl : Rounds fl u) (hx : inp.arith = .rounded fl rt) (room : inp.Room u) (hw : inp.WeightsOK)
    (ha : inp.adaptive = true) (he : inp.haveExtent = false) (t : Built) (h : inp.build = .ok t)
    {M : ℚ} (hF : inp.levelRestrict = true → inp.Fine u M t.tree.nlevels) :
    ∃ y, inp.SmallMove u y ∧ (inp.skipPrune = true → Admissible (inp.atPoints y) t.tree) ∧
      ∀ t2 : BoxTree, Admissible (inp.atPoints y) t2 →
        SplitsWithin t.tree t2 ∧ t.tree.nboxes ≤ t2.nboxes := by
  obtain ⟨y, h1, h2, t', h3, h4⟩ := C77_backward_stable inp fl rt u ok hfl hx room he t h hF
  have hw' : (inp.atPoints y).WeightsOK := { hw with }
  refine ⟨y, h1, fun hs => ?_, fun t2 h5 => ⟨?_, ?_⟩⟩
  · have := C76_admissible _ h2 rfl hw' ha he hs t' h3
    rw [h4.1] at this
    exact ⟨{ this.wf with }, this.2, this.3, this.4, this.5, this.6, this.7⟩
  · exact h4.splits (C76_coarsest _ h2 rfl hw' ha he t' h3 t2 h5)
  · have := (C76_fewest_boxes _ h2 rfl hw' ha he t' h3 t2 h5).2
    rw [h4.1] at this
    exact this

end Boxtree.Build
