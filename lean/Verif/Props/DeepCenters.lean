import Verif.Model.DeepCenters
import Verif.Props.DeepLevels
import Verif.Props.Morton32

/-!
# C99: centers of the boxes that the tree builder makes
-/

namespace Boxtree

/-- The true power of two. -/
def shlTrue (n : Nat) : Int := 2 ^ n

theorem shl32_small {n : Nat} (h : n ≤ 30) : shl32 n = shlTrue n := by
  unfold shlTrue
  interval_cases n <;> decide

section
variable {lo ext x : ℚ}

/-- With true powers of two the box has the particle, as long as the bits are right. -/
theorem boxCenter_true (hext : 0 < ext) (hlo : lo ≤ x) (hhi : x < lo + ext) : ∀ l, l ≤ 31 →
    boxCenter shlTrue lo ext x l
      = lo + ext * ((⌊(x - lo) / ext * 2 ^ l⌋.toNat : ℚ) + 1 / 2) / 2 ^ l := by
  have h0 : 0 ≤ (x - lo) / ext := div_nonneg (by linarith) hext.le
  have h1 : (x - lo) / ext < 1 := (div_lt_one hext).2 (by linarith)
  intro l
  induction l with
  | zero =>
    intro _
    have : ⌊(x - lo) / ext * 2 ^ 0⌋ = 0 := by
      rw [pow_zero, mul_one]
      exact Int.floor_eq_zero_iff.2 ⟨h0, h1⟩
    rw [this]
    show lo + ext / 2 = _
    simp
    ring
  | succ l ih =>
    intro hl
    rw [show boxCenter shlTrue lo ext x (l + 1) = splitCenter shlTrue ext (l + 1)
      (boxCenter shlTrue lo ext x l) (mortonBit lo ext x l) from rfl, ih (by omega)]
    have hb : mortonBit lo ext x l = ⌊(x - lo) / ext * 2 ^ (l + 1)⌋.toNat % 2 := by
      unfold mortonBit
      rw [Build.shift32_small (by omega), Nat.add_comm 1 l]
    have hhalf : ⌊(x - lo) / ext * 2 ^ l⌋.toNat = ⌊(x - lo) / ext * 2 ^ (l + 1)⌋.toNat / 2 := by
      have : (x - lo) / ext * 2 ^ l = (x - lo) / ext * 2 ^ (l + 1) / ((2 : Nat) : ℚ) := by
        rw [pow_succ]; push_cast; ring
      rw [this, Int.floor_div_natCast]
      generalize ⌊(x - lo) / ext * 2 ^ (l + 1)⌋ = z
      omega
    rw [hb, hhalf]
    generalize ⌊(x - lo) / ext * 2 ^ (l + 1)⌋.toNat = z
    unfold splitCenter splitRadius shlTrue
    push_cast
    have hp : (2 : ℚ) ^ l ≠ 0 := by positivity
    have hz : z = 2 * (z / 2) + z % 2 := (Nat.div_add_mod z 2).symm
    rcases Nat.mod_two_eq_zero_or_one z with h2 | h2
    · rw [if_neg (by omega)]
      have hzq : (z : ℚ) = 2 * ((z / 2 : Nat) : ℚ) := by
        rw [h2] at hz
        exact_mod_cast hz
      rw [hzq, show 1 + (l + 1) = l + 2 from by omega, pow_add, pow_add]
      field_simp
      ring
    · rw [if_pos h2]
      have hzq : (z : ℚ) = 2 * ((z / 2 : Nat) : ℚ) + 1 := by
        rw [h2] at hz
        exact_mod_cast hz
      rw [hzq, show 1 + (l + 1) = l + 2 from by omega, pow_add, pow_add]
      field_simp
      ring

/-- So the particle is in it. -/
theorem boxCenter_true_mem (hext : 0 < ext) (hlo : lo ≤ x) (hhi : x < lo + ext) {l : Nat}
    (hl : l ≤ 31) : boxCenter shlTrue lo ext x l - ext / 2 ^ (l + 1) ≤ x ∧
      x < boxCenter shlTrue lo ext x l + ext / 2 ^ (l + 1) := by
  have h0 : 0 ≤ (x - lo) / ext := div_nonneg (by linarith) hext.le
  have hp : (0 : ℚ) < 2 ^ l := by positivity
  rw [boxCenter_true hext hlo hhi l hl]
  have hc : ((⌊(x - lo) / ext * 2 ^ l⌋.toNat : Nat) : ℤ) = ⌊(x - lo) / ext * 2 ^ l⌋ :=
    Int.toNat_of_nonneg (Int.floor_nonneg.2 (mul_nonneg h0 hp.le))
  have h1 := Int.floor_le ((x - lo) / ext * 2 ^ l)
  have h2 := Int.lt_floor_add_one ((x - lo) / ext * 2 ^ l)
  rw [← hc] at h1 h2
  push_cast at h1 h2
  generalize ((⌊(x - lo) / ext * 2 ^ l⌋.toNat : Nat) : ℚ) = z at h1 h2 ⊢
  have e : (x - lo) / ext * 2 ^ l * (ext / 2 ^ l) = x - lo := by field_simp
  have hq : 0 < ext / 2 ^ l := by positivity
  have h3 := mul_le_mul_of_nonneg_right h1 hq.le
  have h4 := mul_lt_mul_of_pos_right h2 hq
  rw [e] at h3 h4
  have e2 : ext / 2 ^ (l + 1) = ext / 2 ^ l / 2 := by rw [pow_succ]; field_simp
  have e3 : ext * (z + 1 / 2) / 2 ^ l = (z + 1 / 2) * (ext / 2 ^ l) := by ring
  rw [e2, e3]
  constructor <;> nlinarith

theorem boxCenter_32 (lo ext x : ℚ) : ∀ l, l ≤ 29 →
    boxCenter shl32 lo ext x l = boxCenter shlTrue lo ext x l := by
  intro l
  induction l with
  | zero => intro _; rfl
  | succ l ih =>
    intro hl
    show splitCenter shl32 ext (l + 1) (boxCenter shl32 lo ext x l) _
      = splitCenter shlTrue ext (l + 1) (boxCenter shlTrue lo ext x l) _
    rw [ih (by omega)]
    unfold splitCenter splitRadius
    rw [shl32_small (by omega)]

end

/-- **C99** (partial: the property asks for every level).  Up to level 29 a particle lies in the box
around the center that the tree builder stores for the box with the particle. -/
theorem C99_center_has_particle_partial (lo ext x : ℚ) (hext : 0 < ext) (hlo : lo ≤ x)
    (hhi : x < lo + ext) (l : Nat) (hl : l ≤ 29) :
    boxCenter shl32 lo ext x l - ext / 2 ^ (l + 1) ≤ x ∧
      x < boxCenter shl32 lo ext x l + ext / 2 ^ (l + 1) := by
  rw [boxCenter_32 lo ext x l hl]
  exact boxCenter_true_mem hext hlo hhi (by omega)

/-- **C99** fails for the centers on level 30: no particle lies in the box around the stored center of
the box that it is put into, because the children of a box have each other's centers. -/
theorem C99_center_level30 (lo ext x : ℚ) (hext : 0 < ext) (hlo : lo ≤ x) (hhi : x < lo + ext) :
    ¬ (boxCenter shl32 lo ext x 30 - ext / 2 ^ 31 ≤ x ∧ x < boxCenter shl32 lo ext x 30 + ext / 2 ^ 31) := by
  have ht := boxCenter_true_mem hext hlo hhi (l := 30) (by omega)
  have e1 : boxCenter shl32 lo ext x 30 = splitCenter shl32 ext 30 (boxCenter shlTrue lo ext x 29)
      (mortonBit lo ext x 29) := by
    rw [← boxCenter_32 lo ext x 29 (by omega)]
    rfl
  have e2 : boxCenter shlTrue lo ext x 30 = splitCenter shlTrue ext 30 (boxCenter shlTrue lo ext x 29)
      (mortonBit lo ext x 29) := rfl
  rw [e2] at ht
  rw [e1]
  generalize boxCenter shlTrue lo ext x 29 = c at ht ⊢
  have r1 : splitRadius shl32 ext 30 = - (ext / 2 ^ 31) := by
    unfold splitRadius
    rw [show shl32 (1 + 30) = -2 ^ 31 by decide]
    push_cast
    ring
  have r2 : splitRadius shlTrue ext 30 = ext / 2 ^ 31 := by
    unfold splitRadius shlTrue
    push_cast
    ring
  unfold splitCenter at ht ⊢
  rw [r1]
  rw [r2] at ht
  have : 0 < ext / 2 ^ 31 := by positivity
  intro h
  rw [show 30 + 1 = 31 from rfl] at ht
  split at ht <;> rename_i hb
  · rw [if_pos hb] at h; linarith [h.1, h.2, ht.1, ht.2]
  · rw [if_neg hb] at h; linarith [h.1, h.2, ht.1, ht.2]

/-- **C99** fails for the centers on level 31: they are as far from the particle as the bounding box
is wide (up to two boxes of level 30). -/
theorem C99_center_level31 (lo ext x : ℚ) (hext : 0 < ext) (hlo : lo ≤ x) (hhi : x < lo + ext) :
    ext - 2 * (ext / 2 ^ 30) < |boxCenter shl32 lo ext x 31 - x| := by
  have ht := boxCenter_true_mem hext hlo hhi (l := 29) (by omega)
  rw [← boxCenter_32 lo ext x 29 (by omega)] at ht
  have e1 : boxCenter shl32 lo ext x 31 = splitCenter shl32 ext 31 (splitCenter shl32 ext 30
      (boxCenter shl32 lo ext x 29) (mortonBit lo ext x 29)) (mortonBit lo ext x 30) := rfl
  rw [e1]
  generalize boxCenter shl32 lo ext x 29 = c at ht ⊢
  have r1 : splitRadius shl32 ext 30 = - (ext / 2 ^ 30 / 2) := by
    unfold splitRadius
    rw [show shl32 (1 + 30) = -2 ^ 31 by decide]
    push_cast
    ring
  have r2 : splitRadius shl32 ext 31 = ext := by
    unfold splitRadius
    rw [show shl32 (1 + 31) = 1 by decide]
    push_cast
    ring
  unfold splitCenter
  rw [r1, r2]
  rw [show 29 + 1 = 30 from rfl] at ht
  have hq : 0 < ext / 2 ^ 30 := by positivity
  generalize ext / 2 ^ 30 = q at ht hq ⊢
  rw [lt_abs]
  split
  · left; split <;> linarith [ht.1, ht.2]
  · right; split <;> linarith [ht.1, ht.2]

namespace Build

/-- As `group_weight`, for particles that go the same way as far as the tree goes. -/
theorem group_weight_levels {inp : Input} (ok : inp.OK) (hw : inp.WeightsOK) (ha : inp.adaptive = true)
    (he : inp.haveExtent = false) {t : Built} (h : inp.build = .ok t) {ps : List Nat}
    (hn : ps.Nodup) (hlt : ∀ p ∈ ps, p < inp.n)
    (hsame : ∀ p ∈ ps, ∀ q ∈ ps, ∀ (par : Nat → Nat → Nat) (l k : Nat), l < t.tree.nlevels →
      PathOK inp.params par p l k → PathOK inp.params par q l k) :
    (ps.map inp.weight).sum ≤ inp.maxWeight := by
  cases ps with
  | nil => simp
  | cons p ps =>
    obtain ⟨L, s, hf⟩ := Input.build_fin ok (.inr he) h
    obtain ⟨rfl, hf, hlev⟩ := hf
    have hp := hlt p (by simp)
    obtain ⟨i, hi, hip⟩ := perm_surj hf.inv.ids_lt hf.inv.ids_inj (x := p) hp
    have hu := (hf.inv.box_used hi).1
    have hpath := hf.inv.path i hi
    rw [hip] at hpath
    have hlen := hf.inv.used_level hu
    have hL := levels_bound hw.levels hlev
    have hL' : L = 0 ∨ L + 1 < inp.nlevelsMax := hL
    have hc : s.hasCh (s.box i).1 (s.box i).2 = false := by
      by_contra hne
      exact Input.morton_moves he _ _ (hf.inv.stay i hi (by simpa using hne))
    have h1 := buildLevels_leafOK (hc := s.hasCh) (o := s.oversize) hw.wok ha hw.levels hlev hf.inv _ _
      hu hc (by omega)
    exact le_trans (list_load (P := inp.params) (par := s.parent) (l := (s.box i).1)
      (k := (s.box i).2) hn fun q hq => ⟨hlt q hq,
        hsame p (by simp) q hq _ _ _ (show (s.box i).1 < L + 1 by omega) hpath,
        Input.morton_moves he _ _⟩) h1

/-- Particles with the same bits down to level `d` go the same way there. -/
theorem bits_path_upto {inp : Input} (he : inp.haveExtent = false) {par : Nat → Nat → Nat} {p q d : Nat}
    (hpq : ∀ l < d, ∀ a < inp.dims, inp.bits a p l = inp.bits a q l) : ∀ l k, l ≤ d →
    PathOK inp.params par p l k → PathOK inp.params par q l k := by
  intro l
  induction l with
  | zero => intro _ _ _; trivial
  | succ l ih =>
    intro k hl hpath
    refine ⟨?_, ih _ (by omega) hpath.2⟩
    rw [← hpath.1]
    show inp.morton q l = inp.morton p l
    unfold Input.morton
    rw [he, Bool.false_and, if_neg (by simp), Bool.false_and, if_neg (by simp)]
    congr 2
    apply List.map_congr_left
    intro a ha
    rw [hpq l (by omega) a (List.mem_range.1 ha)]

namespace Ex

/-- Two particles at a distance of `2 ^ -31`, relative to the bounding box. -/
def siblings : Input :=
  { plane with
    n := 2, nsources := 2, levelRestrict := false, arith := .exact32
    x := fun _ p => [1 / 4, 1 / 4 + 1 / 2 ^ 31].getD p 0 }

theorem siblings_placed : siblings.Placed where
  dims_pos := by decide
  n_pos := by decide
  nsources_le := by decide
  separate := by decide
  ext_pos := by decide +kernel
  cube := by decide +kernel
  radius_nonneg := by decide +kernel
  lower := by decide +kernel
  upper := by decide +kernel
  off_upper := by decide +kernel

theorem siblings_weights : siblings.WeightsOK := ⟨by decide, by decide, by decide⟩

end Ex

/-- **C99**, the levels on which the centers are wrong exist: two particles at a distance of `2 ^ -31`
of the bounding box, one allowed per box, give a tree of 32 levels. -/
theorem C99_deep_tree : Ex.siblings.arith = .exact32 ∧ Ex.siblings.nlevelsMax = 106 ∧
    ∃ t, Ex.siblings.build = .ok t ∧ t.tree.nlevels = 32 := by
  have hlim : Ex.siblings.build = ({ Ex.siblings with arith := .exact, nlevelsMax := 33 } : Input).build :=
    C98_limit Ex.siblings Ex.siblings_placed Ex.siblings_weights rfl rfl rfl (by decide)
  have hw33 : ({ Ex.siblings with arith := .exact, nlevelsMax := 33 } : Input).WeightsOK :=
    ⟨Ex.siblings_weights.weight, Ex.siblings_weights.limit, by decide⟩
  refine ⟨rfl, rfl, ?_⟩
  rcases C23_terminates { Ex.siblings with arith := .exact, nlevelsMax := 33 } hw33 (fun _ => rfl) with
    ⟨t, ht, hl⟩ | hb
  · have ht' := hlim.trans ht
    refine ⟨t, ht', ?_⟩
    have hl' : t.tree.nlevels = 1 ∨ t.tree.nlevels < 33 := hl
    by_contra hne
    have h5 := group_weight_levels Ex.siblings_placed.toOK Ex.siblings_weights rfl rfl ht'
      (ps := [0, 1]) (by decide) (by decide) fun p hp q hq par l k hl2 hpath => by
        refine bits_path_upto (d := 30) rfl (fun l hl3 a hax => ?_) l k (by omega) hpath
        have key : ∀ p ∈ [0, 1], ∀ q ∈ [0, 1], ∀ l < 30, ∀ a < 2,
            Ex.siblings.bits a p l = Ex.siblings.bits a q l := by decide +kernel
        exact key p hp q hq l hl3 a hax
    exact absurd h5 (by decide)
  · exfalso
    obtain ⟨ps, h1, h2, h3, h4⟩ := (C23_fails_iff { Ex.siblings with arith := .exact, nlevelsMax := 33 }
      { Ex.siblings_placed with } rfl hw33 rfl rfl).2 rfl hb
    have h2' : ∀ p ∈ ps, p < 2 := h2
    have h4' : 1 < (ps.map fun _ => 1).sum := h4
    have hne : ¬ ⌊((1 / 4 : ℚ) - 0) / 1 * 2 ^ (33 - 2)⌋
        = ⌊((1 / 4 + 1 / 2 ^ 31 : ℚ) - 0) / 1 * 2 ^ (33 - 2)⌋ := by decide +kernel
    have hsame : ∀ p ∈ ps, ∀ q ∈ ps, p = q := by
      intro p hp q hq
      have h5 := h3 p hp q hq 0 (by decide)
      have hp2 := h2' p hp
      have hq2 := h2' q hq
      rcases (by omega : p = 0 ∨ p = 1) with rfl | rfl <;>
        rcases (by omega : q = 0 ∨ q = 1) with rfl | rfl
      · rfl
      · exact absurd h5 hne
      · exact absurd h5.symm hne
      · rfl
    cases ps with
    | nil => simp at h4'
    | cons p ps =>
      cases ps with
      | nil => simp at h4'
      | cons q ps =>
        have := hsame p (by simp) q (by simp)
        simp [this] at h1

end Build

example : (0 : ℚ) < 1 ∧ (0 : ℚ) ≤ 1 / 3 ∧ (1 / 3 : ℚ) < 0 + 1 := by norm_num

/-- A particle at 1/3 on level 2. -/
example : boxCenter shl32 0 1 (1 / 3) 2 = 3 / 8 := by decide +kernel

end Boxtree
