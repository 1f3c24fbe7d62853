import Verif.Lemmas.Morton32
import Verif.Props.Leaves
import Verif.Spec.Rounding

/-!
# C98: how deep the tree builder can separate particles
-/

namespace Boxtree.Build

theorem shift32_eq (l : Nat) : shift32 l = 2 ^ ((1 + l) % 32) := by
  unfold shift32
  rw [one_mul]
  exact Nat.mod_eq_of_lt (Nat.pow_lt_pow_right (by omega) (Nat.mod_lt _ (by omega)))

theorem shift32_small {l : Nat} (h : l ≤ 30) : (shift32 l : ℚ) = 2 ^ (1 + l) := by
  rw [shift32_eq, Nat.mod_eq_of_lt (by omega)]
  push_cast
  rfl

section
variable {inp : Input}

/-- Arithmetics that agree on a level give the same Morton numbers there. -/
theorem morton_agree {A B : Arith} {l : Nat} (h1 : ∀ x lo ext, A.scaled x lo ext l = B.scaled x lo ext l)
    (h2 : ∀ l2 dims x r lo ext sigma bits, A.sticks l2 dims x r lo ext sigma bits l
      = B.sticks l2 dims x r lo ext sigma bits l) (p : Nat) :
    ({ inp with arith := A } : Input).morton p l = ({ inp with arith := B } : Input).morton p l := by
  have hb : ∀ a, ({ inp with arith := A } : Input).bits a p l
      = ({ inp with arith := B } : Input).bits a p l := by
    intro a
    show (⌊A.scaled _ _ _ l⌋).toNat = (⌊B.scaled _ _ _ l⌋).toNat
    rw [h1]
  have hs : ({ inp with arith := A } : Input).stop p l = ({ inp with arith := B } : Input).stop p l := by
    show A.sticks _ _ _ _ _ _ _ (fun a => ({ inp with arith := A } : Input).bits a p l) l
      = B.sticks _ _ _ _ _ _ _ (fun a => ({ inp with arith := B } : Input).bits a p l) l
    rw [h2]
    simp only [hb]
  unfold Input.morton
  rw [hs]
  simp only [hb]
  rfl

theorem exact32_agree {l : Nat} (h : l ≤ 30) (p : Nat) :
    ({ inp with arith := .exact32 } : Input).morton p l
      = ({ inp with arith := .exact } : Input).morton p l := by
  refine morton_agree (fun x lo ext => ?_) (fun l2 dims x r lo ext sigma bits => ?_) p
  · show (x - lo) / ext * (shift32 l : ℚ) = _
    rw [shift32_small h]
    rfl
  · show (if l2 then Arith.sticksL2S shift32 dims x r lo ext sigma bits l
      else Arith.sticksInfS shift32 dims x r lo ext sigma bits l) = _
    unfold Arith.sticksL2S Arith.sticksInfS Arith.centerS Arith.stickOutRadiusS
    rw [shift32_small h]
    rfl

theorem rounded32_agree (fl rt : ℚ → ℚ) {l : Nat} (h : l ≤ 30) (p : Nat) :
    ({ inp with arith := .rounded32 fl rt } : Input).morton p l
      = ({ inp with arith := .rounded fl rt } : Input).morton p l := by
  refine morton_agree (fun x lo ext => ?_) (fun l2 dims x r lo ext sigma bits => ?_) p
  · show fl (_ * (shift32 l : ℚ)) = _
    rw [shift32_small h]
    rfl
  · show (if l2 then Arith.sticksL2FS shift32 fl rt dims x r lo ext sigma bits l
      else Arith.sticksInfFS shift32 fl dims x r lo ext sigma bits l) = _
    unfold Arith.sticksL2FS Arith.sticksInfFS Arith.centerFS Arith.stickOutRadiusFS
    rw [shift32_small h]
    rfl

/-- Builds whose Morton numbers agree on the levels of the tree. -/
theorem build_agree {A B : Arith} {M N : Nat} (hfl : A.fl = B.fl)
    (hm : ∀ p l, l ≤ 30 → ({ inp with arith := B } : Input).morton p l
      = ({ inp with arith := A } : Input).morton p l) (hM : M ≤ N) {t : Built}
    (h : ({ inp with arith := A, nlevelsMax := M } : Input).build = .ok t)
    (ht : t.tree.nlevels ≤ 31 ∨
      (t.tree.nlevels ≤ 32 ∧ inp.haveExtent = false ∧ inp.levelRestrict = false)) :
    ({ inp with arith := B, nlevelsMax := N } : Input).build = .ok t := by
  have hpar : ({ inp with arith := B, nlevelsMax := N } : Input).params
      = ({ inp with arith := A, nlevelsMax := M } : Input).params.withMort
        ({ inp with arith := B } : Input).morton N := by
    show (⟨_, _, _, _, _, _, _, _, _, _, _, B.fl, fun a => rootCenterF B.fl (inp.lo a) (inp.ext a)⟩ : Params) = _
    rw [← hfl]
    rfl
  cases hb : buildLevels ({ inp with arith := A, nlevelsMax := M } : Input).params with
  | error e => unfold Input.build at h; rw [hb] at h; cases h
  | ok r =>
    obtain ⟨L, s⟩ := r
    have h' := (Input.build_of_levels hb).symm.trans h
    have hL : t.tree.nlevels = L + 1 := by rw [← Except.ok.inj h']; rfl
    have hc := buildLevels_cong (P := ({ inp with arith := A, nlevelsMax := M } : Input).params)
      (m := ({ inp with arith := B } : Input).morton) (M := N) (D := 30) hm hM
      (L := L) (s := s) (by
        rcases ht with ht | ⟨h1, h2, h3⟩
        · exact .inl (by omega)
        · exact .inr ⟨by omega, h2, h3⟩) hb
    rw [← hpar] at hc
    rw [Input.build_of_levels hc, ← h']
    show Except.ok (finish _ _ _ _ _ _) = Except.ok (finish _ _ _ _ _ _)
    rw [hpar]
    rfl

/-- Numbers that agree in 31 binary digits agree in fewer. -/
theorem floor_mono {v w : ℚ} (h : ⌊v * 2 ^ 31⌋ = ⌊w * 2 ^ 31⌋) {e : Nat} (he : e ≤ 31) :
    ⌊v * 2 ^ e⌋ = ⌊w * 2 ^ e⌋ := by
  obtain ⟨d, hd⟩ : ∃ d, 31 = e + d := ⟨31 - e, by omega⟩
  have key : ∀ v : ℚ, ⌊v * 2 ^ e⌋ = ⌊v * 2 ^ 31⌋ / ((2 ^ d : Nat) : ℤ) := by
    intro v
    rw [← Int.floor_div_natCast, hd, pow_add]
    congr 1
    push_cast
    field_simp
  rw [key, key, h]

/-- Particles with the same scaled coordinates go the same way. -/
theorem bits_path (he : inp.haveExtent = false) {par : Nat → Nat → Nat} {p q : Nat}
    (hpq : ∀ l, ∀ a < inp.dims, inp.bits a p l = inp.bits a q l) : ∀ l k,
    PathOK inp.params par p l k → PathOK inp.params par q l k := by
  intro l
  induction l with
  | zero => intro _ _; trivial
  | succ l ih =>
    intro k hpath
    refine ⟨?_, ih _ hpath.2⟩
    rw [← hpath.1]
    show inp.morton q l = inp.morton p l
    unfold Input.morton
    rw [he, Bool.false_and, if_neg (by simp), Bool.false_and, if_neg (by simp)]
    congr 2
    apply List.map_congr_left
    intro a ha
    rw [hpq l a (List.mem_range.1 ha)]

end

/-- **C98** (partial: the property asks for trees of every depth up to the builder's limit).  If the
tree has at most 31 levels, the 32-bit shifts of the Morton numbers have no effect: a builder with
true powers of two builds this tree if and only if the one with 32-bit shifts does. -/
theorem C98_shallow_partial (inp : Input) (t : Built) (ht : t.tree.nlevels ≤ 31) :
    (({ inp with arith := .exact32 } : Input).build = .ok t ↔
      ({ inp with arith := .exact } : Input).build = .ok t) ∧
    ∀ fl rt : ℚ → ℚ, ({ inp with arith := .rounded32 fl rt } : Input).build = .ok t ↔
      ({ inp with arith := .rounded fl rt } : Input).build = .ok t :=
  ⟨⟨fun h => build_agree (inp := inp) (A := .exact32) (B := .exact) rfl
      (fun p _ hl => (exact32_agree hl p).symm) (le_refl _) h (.inl ht),
    fun h => build_agree (inp := inp) (A := .exact) (B := .exact32) rfl
      (fun p _ hl => exact32_agree hl p) (le_refl _) h (.inl ht)⟩,
  fun fl rt => ⟨fun h => build_agree (inp := inp) (A := .rounded32 fl rt) (B := .rounded fl rt) rfl
      (fun p _ hl => (rounded32_agree fl rt hl p).symm) (le_refl _) h (.inl ht),
    fun h => build_agree (inp := inp) (A := .rounded fl rt) (B := .rounded32 fl rt) rfl
      (fun p _ hl => rounded32_agree fl rt hl p) (le_refl _) h (.inl ht)⟩⟩

/-- **C98** fails for deep trees: particles in the same cell of level 31 are never separated, so that
the builder raises `MaxLevelsExceeded` if they are too heavy together, however many levels it
allows. -/
theorem C98_not_separated (inp : Input) (ok : inp.OK) (hx : inp.arith = .exact32)
    (hw : inp.WeightsOK) (ha : inp.adaptive = true) (he : inp.haveExtent = false) (ps : List Nat)
    (hn : ps.Nodup) (hlt : ∀ p ∈ ps, p < inp.n)
    (hcell : ∀ p ∈ ps, ∀ q ∈ ps, inp.SameCell 31 p q)
    (hsum : inp.maxWeight < (ps.map inp.weight).sum) :
    inp.build = .error "MaxLevelsExceeded" := by
  rcases C23_terminates inp hw (fun _ => ha) with ⟨t, ht, _⟩ | h5
  · have := group_weight ok hw ha he ht hn hlt fun p hp q hq par l k _ hpath =>
      bits_path he (fun l a hax => by
        have h := hcell p hp q hq a hax
        show (⌊inp.arith.scaled _ _ _ l⌋).toNat = (⌊inp.arith.scaled _ _ _ l⌋).toNat
        rw [hx]
        show (⌊(inp.x a p - inp.lo a) / inp.ext a * (shift32 l : ℚ)⌋).toNat
          = (⌊(inp.x a q - inp.lo a) / inp.ext a * (shift32 l : ℚ)⌋).toNat
        rw [shift32_eq]
        push_cast
        rw [floor_mono h (by omega)]) l k hpath
    omega
  · exact h5

/-- **C98** for a device with rounding: the same if the particles' rounded relative positions agree in
31 binary digits. -/
theorem C98_not_separated_rounded (inp : Input) (ok : inp.OK) (fl rt : ℚ → ℚ) (u : ℚ)
    (hr : Rounds fl u) (hx : inp.arith = .rounded32 fl rt)
    (hw : inp.WeightsOK) (ha : inp.adaptive = true) (he : inp.haveExtent = false) (ps : List Nat)
    (hn : ps.Nodup) (hlt : ∀ p ∈ ps, p < inp.n)
    (hcell : ∀ p ∈ ps, ∀ q ∈ ps, ∀ a < inp.dims,
      ⌊fl (fl (inp.x a p - inp.lo a) / fl (fl (inp.lo a + inp.ext a) - inp.lo a)) * 2 ^ 31⌋
        = ⌊fl (fl (inp.x a q - inp.lo a) / fl (fl (inp.lo a + inp.ext a) - inp.lo a)) * 2 ^ 31⌋)
    (hsum : inp.maxWeight < (ps.map inp.weight).sum) :
    inp.build = .error "MaxLevelsExceeded" := by
  rcases C23_terminates inp hw (fun _ => ha) with ⟨t, ht, _⟩ | h5
  · have := group_weight ok hw ha he ht hn hlt fun p hp q hq par l k _ hpath =>
      bits_path he (fun l a hax => by
        have h := hcell p hp q hq a hax
        show (⌊inp.arith.scaled _ _ _ l⌋).toNat = (⌊inp.arith.scaled _ _ _ l⌋).toNat
        rw [hx]
        show (⌊fl (_ * (shift32 l : ℚ))⌋).toNat = (⌊fl (_ * (shift32 l : ℚ))⌋).toNat
        rw [shift32_eq]
        push_cast
        rw [hr.scale, hr.scale, floor_mono h (by omega)]) l k hpath
    omega
  · exact h5

/-- **C98**, what the limit is: in the plain adaptive mode the builder with 32-bit shifts and any
limit of at least 33 levels does what a builder with true powers of two does with the limit 33. -/
theorem C98_limit (inp : Input) (ok : inp.Placed) (hw : inp.WeightsOK) (ha : inp.adaptive = true)
    (he : inp.haveExtent = false) (hr : inp.levelRestrict = false) (hM : 33 ≤ inp.nlevelsMax) :
    ({ inp with arith := .exact32 } : Input).build
      = ({ inp with arith := .exact, nlevelsMax := 33 } : Input).build := by
  have hw33 : ({ inp with arith := .exact, nlevelsMax := 33 } : Input).WeightsOK :=
    ⟨hw.weight, hw.limit, by show 1 ≤ 33; omega⟩
  rcases C23_terminates { inp with arith := .exact, nlevelsMax := 33 } hw33 (fun _ => ha) with
    ⟨t, ht, hl⟩ | hb
  · rw [ht]
    refine build_agree (inp := inp) (A := .exact) (B := .exact32) (M := 33) (N := inp.nlevelsMax) rfl
      (fun p _ hl => exact32_agree hl p) hM ht (.inr ⟨?_, he, hr⟩)
    have hl' : t.tree.nlevels = 1 ∨ t.tree.nlevels < 33 := hl
    omega
  · obtain ⟨ps, h1, h2, h3, h4⟩ :=
      (C23_fails_iff { inp with arith := .exact, nlevelsMax := 33 } { ok with } rfl hw33 ha he).2 hr hb
    rw [hb]
    exact C98_not_separated { inp with arith := .exact32 } { ok.toOK with } rfl
      ⟨hw.weight, hw.limit, hw.levels⟩ ha he ps h1 h2 h3 h4

namespace Ex

/-- Two particles at a distance of `2 ^ -33`, relative to the bounding box. -/
def twins : Input :=
  { plane with
    n := 2, nsources := 2, levelRestrict := false
    x := fun _ p => [1 / 4, 1 / 4 + 1 / 2 ^ 33].getD p 0 }

theorem twins_placed : twins.Placed where
  dims_pos := by decide
  n_pos := by decide
  nsources_le := by decide
  separate := by decide
  ext_pos := by decide +kernel
  cube := by decide +kernel
  radius_nonneg := by decide +kernel
  lower := by decide +kernel
  upper := by decide +kernel
  off_upper := by decide +kernel

theorem twins_weights : twins.WeightsOK := ⟨by decide, by decide, by decide⟩

end Ex

/-- **C98** fails: two particles in different cells of level 33, one allowed per box, 106 levels
allowed: with true powers of two the tree is built, with 32-bit shifts the builder raises
`MaxLevelsExceeded`. -/
theorem C98_deep_fails : ∃ inp : Input, inp.Placed ∧ inp.WeightsOK ∧ inp.adaptive = true ∧
    inp.haveExtent = false ∧ inp.levelRestrict = false ∧ inp.nlevelsMax = 106 ∧
    (∃ t, ({ inp with arith := .exact } : Input).build = .ok t) ∧
    ({ inp with arith := .exact32 } : Input).build = .error "MaxLevelsExceeded" := by
  refine ⟨Ex.twins, Ex.twins_placed, Ex.twins_weights, rfl, rfl, rfl, rfl, ?_, ?_⟩
  · rcases C23_terminates { Ex.twins with arith := .exact }
      ⟨Ex.twins_weights.weight, Ex.twins_weights.limit, Ex.twins_weights.levels⟩ (fun _ => rfl) with
      ⟨t, ht, _⟩ | hb
    · exact ⟨t, ht⟩
    · exfalso
      obtain ⟨ps, h1, h2, h3, h4⟩ := (C23_fails_iff { Ex.twins with arith := .exact }
        { Ex.twins_placed with } rfl
        ⟨Ex.twins_weights.weight, Ex.twins_weights.limit, Ex.twins_weights.levels⟩ rfl rfl).2 rfl hb
      have h2' : ∀ p ∈ ps, p < 2 := h2
      have h4' : 1 < (ps.map fun _ => 1).sum := h4
      have hsame : ∀ p ∈ ps, ∀ q ∈ ps, p = q := by
        intro p hp q hq
        have h5 := h3 p hp q hq 0 (by decide)
        have hp2 := h2' p hp
        have hq2 := h2' q hq
        have hne : ¬ ⌊((1 / 4 : ℚ) - 0) / 1 * 2 ^ (106 - 2)⌋
            = ⌊((1 / 4 + 1 / 2 ^ 33 : ℚ) - 0) / 1 * 2 ^ (106 - 2)⌋ := by decide +kernel
        rcases (by omega : p = 0 ∨ p = 1) with rfl | rfl <;>
          rcases (by omega : q = 0 ∨ q = 1) with rfl | rfl
        · rfl
        · exact absurd h5 hne
        · exact absurd h5.symm hne
        · rfl
      cases ps with
      | nil => simp at h4'
      | cons p ps =>
        cases ps with
        | nil => simp at h4'
        | cons q ps =>
          have := hsame p (by simp) q (by simp)
          simp [this] at h1
  · exact C98_not_separated { Ex.twins with arith := .exact32 } { Ex.twins_placed.toOK with } rfl
      ⟨Ex.twins_weights.weight, Ex.twins_weights.limit, Ex.twins_weights.levels⟩ rfl rfl [0, 1]
      (by decide) (by decide) (by unfold Input.SameCell; decide +kernel) (by decide)

example : Ex.look ({ Ex.plane with arith := .exact32 } : Input).build (fun t => [t.tree.nlevels]) = [3] ∧
    Ex.look Ex.plane.build (fun t => [t.tree.nlevels]) = [3] := by
  constructor <;> decide +kernel

example : 33 ≤ Ex.twins.nlevelsMax ∧ Ex.twins.Placed ∧ Ex.twins.levelRestrict = false :=
  ⟨by decide, Ex.twins_placed, rfl⟩

end Boxtree.Build
