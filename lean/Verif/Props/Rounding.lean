import Verif.Lemmas.RoundedL2
import Verif.Props.BuildCall

/-!
# C64: tree building with rounding

The Morton numbers and the stick-out test are computed with rounding after each operation
(`Arith.rounded`).  What does not depend on where particles are — order and ranges of the particles
(C19, C20), leaf weights of point particles (C22), flags, source and target counts (C25–C27), the
structure of the tree (C52) and potentials (C53, C56, C61, C63) — is stated for every `Input`, hence
for every way of rounding.  Here is what becomes of C21.  The bounding box is the
rounded one; the cubes of the statements are exact subdivisions of it, and C70 bounds the error of the
stored centers.
-/

namespace Boxtree.Build

section
variable {inp : Input} {L : Nat} {s : State} {fl rt : ℚ → ℚ} {u : ℚ}

theorem near_inside {len : Nat → Nat} {skip : Bool} (ok : inp.NearlyPlaced u) (h : Rounds fl u)
    (room : inp.Room u) (hx : inp.arith = .rounded fl rt) (hf : FinOK inp.params skip len L s)
    {p l k : Nat} (hp : p < inp.n) (hk : Kept skip s l k)
    (hpath : PathOK inp.params s.parent p l k) {y : Nat → ℚ} (hy : ∀ a, y a = inp.x a p) :
    NearBox (finish inp.params inp.cloud skip len L s).tree
      (fun a => 5 * u * (|inp.lo a| + inp.ext a)) (nid skip len L s l k) y := by
  intro a ha
  have hS := room.scaled ok h hx
  have h1 := hS.in_cell ha hp ok.toOK l
  rw [← hS.path_center ha hp ok.toOK hf.inv l k hk.1 hpath] at h1
  have h2 := (Input.frac_core ok h room ha hp).2.2
  rw [abs_le] at h2
  have hc : (finish inp.params inp.cloud skip len L s).tree.center (nid skip len L s l k) a
      = s.center l k a := congrFun (hf.fin_center hk) a
  have hl : (finish inp.params inp.cloud skip len L s).tree.level (nid skip len L s l k) = l :=
    hf.fin_level hk
  rw [hc, hl, hy]
  show s.center l k a - inp.ext 0 / 2 ^ (l + 1) - _ ≤ _ ∧ _ < s.center l k a + inp.ext 0 / 2 ^ (l + 1) + _
  constructor <;> linarith [h1.1, h1.2, h2.1, h2.2]

theorem near_sticks {len : Nat → Nat} {skip : Bool} (ok : inp.NearlyPlaced u) (h : Rounds fl u)
    (hrt : RoundsRoot rt u) (room : inp.Room u) (hx : inp.arith = .rounded fl rt)
    (hdu : (inp.dims + 6) * u ≤ 1 / 8) {B : ℚ} (hB : ∀ a < inp.dims, |inp.lo a| + inp.ext a ≤ B)
    (hf : FinOK inp.params skip len L s)
    (he : inp.haveExtent = true) (hs : 0 ≤ inp.stickOut)
    {p l k : Nat} (hp : p < inp.n) (hk : Kept skip s l k)
    (hpath : PathOK inp.params s.parent p l k) {y : Nat → ℚ} (hy : ∀ a, y a = inp.x a p)
    {r : ℚ} (hr : r ≤ inp.radius p) :
    if inp.l2 then NearL2 (finish inp.params inp.cloud skip len L s).tree inp.stickOut
        ((inp.dims + 22) * u * (1 + inp.stickOut) * B) (nid skip len L s l k) y r
      else NearInf (finish inp.params inp.cloud skip len L s).tree inp.stickOut
        (fun a => 20 * u * (1 + inp.stickOut) * (|inp.lo a| + inp.ext a))
        (nid skip len L s l k) y r := by
  have hc : ∀ a, (finish inp.params inp.cloud skip len L s).tree.center (nid skip len L s l k) a
      = s.center l k a := fun a => congrFun (hf.fin_center hk) a
  have hl : (finish inp.params inp.cloud skip len L s).tree.level (nid skip len L s l k) = l :=
    hf.fin_level hk
  cases hl2 : inp.l2 with
  | true =>
    rw [if_pos rfl]
    have h1 := ok.path_l2F h hrt room hx he hl2 hs hdu hB hf.inv hp hk.1 hpath
    have h2 : (r : ℝ) ≤ (inp.radius p : ℝ) := by exact_mod_cast hr
    unfold NearL2
    simp only [hc, hl, hy]
    exact le_trans (add_le_add (le_refl _) h2) h1
  | false =>
    rw [if_neg (by simp)]
    intro a ha
    have h1 := ok.path_infF h room hx he hl2 hs hf.inv hp hk.1 hpath ha
    rw [hc, hl, hy]
    refine ⟨le_trans h1.1 (by linarith), le_trans (by linarith) h1.2⟩

end

/-- Particles in the bounding box are there up to rounding errors. -/
theorem Input.Placed.nearly {inp : Input} (ok : inp.Placed) {u : ℚ} (hu : 0 ≤ u) :
    inp.NearlyPlaced u := by
  have key : ∀ a < inp.dims, 0 ≤ u * (|inp.lo a| + inp.ext a) := fun a ha =>
    mul_nonneg hu (add_nonneg (abs_nonneg _) (ok.toOK.ext_pos' ha).le)
  refine { toOK := ok.toOK, center := fun a ha p hp => ?_, lower := fun a ha p hp => ?_,
           upper := fun a ha p hp => ?_ }
  · linarith [ok.lower a ha p hp, ok.radius_nonneg p hp]
  · linarith [ok.lower a ha p hp, key a ha]
  · linarith [ok.upper a ha p hp, key a ha]

/-- **C64.** With rounding, every source and target in the subtree of a box lies in the cube of the
box up to five rounding errors of the bounding box, on every level.  Partial: the particles have to
stay away from the upper faces of the bounding box by as much (`Input.Room`); otherwise they can
end up on the other side (`C64_automatic_box_wraps`, `C64_given_box_wraps`). -/
theorem C64_particles_in_box_partial (inp : Input) (fl rt : ℚ → ℚ) (u : ℚ) (ok : inp.NearlyPlaced u)
    (hfl : Rounds fl u) (hx : inp.arith = .rounded fl rt) (room : inp.Room u)
    (t : Built) (h : inp.build = .ok t) (b : Nat) (hb : b < t.tree.nboxes) :
    (∀ i ∈ span t.particles.srcStart t.particles.srcCumul b,
      NearBox t.tree (fun a => 5 * u * (|inp.lo a| + inp.ext a)) b fun a => t.sources a i) ∧
    (∀ i ∈ span t.particles.tgtStart t.particles.tgtCumul b,
      NearBox t.tree (fun a => 5 * u * (|inp.lo a| + inp.ext a)) b fun a => t.targets a i) := by
  obtain ⟨L, s, hc, o, rfl, hf, _⟩ := Input.build_cases ok.toOK h
  obtain ⟨e1, e2, e3, e4⟩ := finish_hasCh inp.cloud inp.skipPrune (fun l => s.used l + inp.pad l) L s
    hc o
  constructor
  · intro i hi
    obtain ⟨p, l, k, hp, hk, rfl, hpath, e⟩ := mem_source hf hb (by rw [e1, e3]; exact hi)
    refine near_inside ok hfl room hx hf hp hk hpath fun a => ?_
    rw [← e]; rfl
  · intro i hi
    obtain ⟨p, l, k, hp, hk, rfl, hpath, e, _⟩ := mem_target hf hb (by rw [e2, e4]; exact hi)
    exact near_inside ok hfl room hx hf hp hk hpath e

/-- **C64** with extents: no source or target in the subtree of a box sticks out of it by more than
the stick-out factor times the radius of the box, up to a number of rounding errors of the bounding
box that depends on nothing but the dimension, in the norm that was asked for. -/
theorem C64_stick_out_partial (inp : Input) (fl rt : ℚ → ℚ) (u B : ℚ) (ok : inp.NearlyPlaced u)
    (hfl : Rounds fl u) (hrt : RoundsRoot rt u) (hx : inp.arith = .rounded fl rt)
    (room : inp.Room u) (hdu : (inp.dims + 6) * u ≤ 1 / 8)
    (hB : ∀ a < inp.dims, |inp.lo a| + inp.ext a ≤ B)
    (he : inp.haveExtent = true) (hs : 0 ≤ inp.stickOut) (t : Built) (h : inp.build = .ok t)
    (b : Nat) (hb : b < t.tree.nboxes) :
    (∀ i ∈ span t.particles.srcStart t.particles.srcCumul b,
      if inp.l2 then NearL2 t.tree inp.stickOut ((inp.dims + 22) * u * (1 + inp.stickOut) * B) b
        (fun a => t.sources a i) (t.sourceRadii i)
      else NearInf t.tree inp.stickOut
        (fun a => 20 * u * (1 + inp.stickOut) * (|inp.lo a| + inp.ext a)) b
        (fun a => t.sources a i) (t.sourceRadii i)) ∧
    (∀ i ∈ span t.particles.tgtStart t.particles.tgtCumul b,
      if inp.l2 then NearL2 t.tree inp.stickOut ((inp.dims + 22) * u * (1 + inp.stickOut) * B) b
        (fun a => t.targets a i) (t.targetRadii i)
      else NearInf t.tree inp.stickOut
        (fun a => 20 * u * (1 + inp.stickOut) * (|inp.lo a| + inp.ext a)) b
        (fun a => t.targets a i) (t.targetRadii i)) := by
  obtain ⟨L, s, hc, o, rfl, hf, _⟩ := Input.build_cases ok.toOK h
  obtain ⟨e1, e2, e3, e4⟩ := finish_hasCh inp.cloud inp.skipPrune (fun l => s.used l + inp.pad l) L s
    hc o
  constructor
  · intro i hi
    obtain ⟨p, l, k, hp, hk, rfl, hpath, e⟩ := mem_source hf hb (by rw [e1, e3]; exact hi)
    refine near_sticks ok hfl hrt room hx hdu hB hf he hs hp hk hpath (fun a => by rw [← e]; rfl) ?_
    show (if inp.sourcesHaveExtent then inp.radius _ else 0) ≤ _
    split
    · rw [← e]; exact le_refl _
    · exact ok.radius_nonneg p hp
  · intro i hi
    obtain ⟨p, l, k, hp, hk, rfl, hpath, e, e'⟩ := mem_target hf hb (by rw [e2, e4]; exact hi)
    refine near_sticks ok hfl hrt room hx hdu hB hf he hs hp hk hpath e ?_
    refine le_trans (le_of_eq e') ?_
    split
    · exact le_refl _
    · exact ok.radius_nonneg p hp

/-! ### Automatic bounding boxes -/

/-- The automatic bounding box leaves enough room, unless the particles are very close together
compared with their coordinates. -/
theorem Input.AutoBox.room {inp : Input} (hb : inp.AutoBox) (ok : inp.OK) {u B W : ℚ}
    (hfl : Rounds inp.arith.fl u) (hm : Monotone inp.arith.fl)
    (hx : ∀ a < inp.dims, ∀ p < inp.n, inp.arith.fl (inp.x a p) = inp.x a p)
    (hB : ∀ a < inp.dims, ∀ p < inp.n, |inp.x a p| + inp.radius p ≤ B)
    (hW : ∃ a < inp.dims, ∃ p < inp.n, ∃ q < inp.n, W ≤ inp.x a p - inp.x a q)
    (hW0 : 0 < W) (hres : 400000 * u * B ≤ W) :
    u ≤ 1 / 200000 ∧ W ≤ inp.ext 0 ∧ inp.Room u ∧
      ∀ a < inp.dims, |inp.lo a| + inp.ext a ≤ (3 + 1 / 100) * B := by
  have hu0 := hfl.nonneg_u
  have hB0 : 0 < B ∧ W ≤ 2 * B := by
    obtain ⟨a, ha, p, hp, q, hq, h1⟩ := hW
    have h2 := hB a ha p hp
    have h3 := hB a ha q hq
    have h4 := ok.radius_nonneg p hp
    have h5 := ok.radius_nonneg q hq
    have h6 := le_abs_self (inp.x a p)
    have h7 := neg_abs_le (inp.x a q)
    constructor <;> linarith
  have hu : u ≤ 1 / 200000 := by
    by_contra hc
    push Not at hc
    have := mul_lt_mul_of_pos_right hc hB0.1
    linarith [hB0.2]
  have hu' : u ≤ 1 / 40000 := by linarith
  have hround : ∀ y, |y| ≤ B → |inp.arith.fl y| ≤ (1 + 1 / 200000) * B := by
    intro y hy
    have h1 := hfl.err y
    have h2 := mul_le_mul hu hy (abs_nonneg y) (by norm_num)
    have h3 : |inp.arith.fl y| ≤ |y| + |inp.arith.fl y - y| := by
      have := abs_sub_abs_le_abs_sub (inp.arith.fl y) y
      linarith
    linarith
  have hminus : ∀ a < inp.dims, ∀ p < inp.n, |inp.x a p - inp.radius p| ≤ B := by
    intro a ha p hp
    have h1 := hB a ha p hp
    have h2 := ok.radius_nonneg p hp
    have := abs_le.1 (le_refl |inp.x a p|)
    rw [abs_le]
    constructor <;> linarith
  have hplus : ∀ a < inp.dims, ∀ p < inp.n, |inp.x a p + inp.radius p| ≤ B := by
    intro a ha p hp
    have h1 := hB a ha p hp
    have h2 := ok.radius_nonneg p hp
    have := abs_le.1 (le_refl |inp.x a p|)
    rw [abs_le]
    constructor <;> linarith
  have hlo : ∀ a < inp.dims, |inp.lo a| ≤ (1 + 1 / 200000) * B := by
    intro a ha
    obtain ⟨p, hp, e⟩ := hb.lower a ha
    rw [e]
    exact hround _ (hminus a ha p hp)
  have hends : ∀ a < inp.dims, ∀ p < inp.n, inp.lo a ≤ inp.x a p ∧
      inp.x a p ≤ inp.arith.fl (inp.x a p + inp.radius p) := by
    intro a ha p hp
    have h0 := ok.radius_nonneg p hp
    have e := hx a ha p hp
    constructor
    · calc _ ≤ _ := hb.least a ha p hp
        _ ≤ inp.arith.fl (inp.x a p) := hm (by linarith)
        _ = _ := e
    · calc _ = inp.arith.fl (inp.x a p) := e.symm
        _ ≤ _ := hm (by linarith)
  have hext : ∀ a < inp.dims, inp.ext a ≤ (2 + 1 / 1000) * B := by
    intro a ha
    obtain ⟨a', ha', p, hp, e⟩ := hb.attained
    rw [ok.cube a ha, ← ok.cube a' ha', ← e]
    obtain ⟨h1, h2⟩ := hends a' ha' p hp
    refine (stretch_ge hfl hu' (by linarith)).trans ?_
    have h3 := (abs_le.1 (hround _ (hplus a' ha' p hp))).2
    have h4 := (abs_le.1 (hlo a' ha')).1
    linarith [hB0.1]
  have hwide : ∀ a < inp.dims, ∀ p < inp.n,
      (1 + 8 / 10 ^ 5) * (inp.x a p - inp.lo a) ≤ inp.ext 0 := by
    intro a ha p hp
    obtain ⟨h1, h2⟩ := hends a ha p hp
    have h3 := (stretch_le hfl hu' (show 0 ≤ inp.arith.fl (inp.x a p + inp.radius p) - inp.lo a by
      linarith)).trans (hb.upper a ha p hp)
    rw [ok.cube a ha] at h3
    refine le_trans ?_ h3
    exact mul_le_mul (by linarith) (by linarith) (by linarith)
      (mul_nonneg (by norm_num) (by linarith))
  have hW1 : (1 + 8 / 10 ^ 5) * W ≤ inp.ext 0 := by
    obtain ⟨a, ha, p, hp, q, hq, h1⟩ := hW
    have h2 := hwide a ha p hp
    have h3 := (hends a ha q hq).1
    linarith
  have hsum : ∀ a < inp.dims, |inp.lo a| + inp.ext a ≤ (3 + 1 / 100) * B := by
    intro a ha
    have h1 := hlo a ha
    have h2 := hext a ha
    linarith [hB0.1]
  refine ⟨hu, by linarith, fun a ha p hp => ?_, hsum⟩
  have h1 := mul_le_mul_of_nonneg_left (hsum a ha) hu0
  have h2 := hwide a ha p hp
  have h4 : inp.ext a = inp.ext 0 := ok.cube a ha
  rw [h4] at h1 ⊢
  have h5 := ok.ext_pos
  linarith

theorem Call.InputOf.room {c : Call} {ns nt : Nat} {dtype : String} {inp : Input}
    (hin : c.InputOf ns nt dtype inp) (hd : c.Documented ns nt dtype) (ok : inp.OK) {u B W : ℚ}
    (hfl : Rounds c.arith.fl u) (hbox : c.bbox = none)
    (hB : ∀ a < c.args.particles.length, ∀ p < ns + nt, |c.coord ns a p| + c.rad ns p ≤ B)
    (hW : ∃ a < c.args.particles.length, ∃ p < ns + nt, ∃ q < ns + nt,
      W ≤ c.coord ns a p - c.coord ns a q)
    (hW0 : 0 < W) (hres : 400000 * u * B ≤ W) :
    u ≤ 1 / 200000 ∧ W ≤ inp.ext 0 ∧ inp.Room u ∧
      ∀ a < inp.dims, |inp.lo a| + inp.ext a ≤ (3 + 1 / 100) * B :=
  (hin.automatic hbox).room ok (B := B) (W := W) (u := u)
    (by rw [hin.arith]; exact hfl) (by rw [hin.arith]; exact hd.arith.mono)
    (fun a ha p hp => by
      rw [hin.dims] at ha; rw [hin.n] at hp
      rw [hin.arith, hin.coord]
      exact hd.coords a ha p hp)
    (fun a ha p hp => by
      rw [hin.dims] at ha; rw [hin.n] at hp
      rw [hin.coord, hin.rad]; exact hB a ha p hp)
    (by
      obtain ⟨a, ha, p, hp, q, hq, h2⟩ := hW
      refine ⟨a, by rw [hin.dims]; exact ha, p, by rw [hin.n]; exact hp, q,
        by rw [hin.n]; exact hq, ?_⟩
      rw [hin.coord, hin.coord]; exact h2) hW0 hres

/-- **C64** for a documented call without a given bounding box: if no coordinate exceeds `B` and
two particles are `W ≥ 400000 u B` apart along some axis, then every source and target lies in the
cubes of its boxes up to `16 u B`.  In double precision (`u = 2 ^ (-53)`) particles may be
`2.2e10` times closer to each other than to the origin, in single precision 40 times. -/
theorem C64_call_partial (c : Call) (ns nt : Nat) (dtype : String) (hd : c.Documented ns nt dtype)
    (hw : c.SomeWeight) (fl rt : ℚ → ℚ) (u B W : ℚ) (hfl : Rounds fl u)
    (hx : c.arith = .rounded fl rt) (hbox : c.bbox = none)
    (hB : ∀ a < c.args.particles.length, ∀ p < ns + nt, |c.coord ns a p| + c.rad ns p ≤ B)
    (hW : ∃ a < c.args.particles.length, ∃ p < ns + nt, ∃ q < ns + nt,
      W ≤ c.coord ns a p - c.coord ns a q)
    (hW0 : 0 < W) (hres : 400000 * u * B ≤ W)
    (t : Built) (h : c.run = .ok t) (b : Nat) (hb : b < t.tree.nboxes) :
    (∀ i ∈ span t.particles.srcStart t.particles.srcCumul b,
      NearBox t.tree (fun _ => 16 * u * B) b fun a => t.sources a i) ∧
    (∀ i ∈ span t.particles.tgtStart t.particles.tgtCumul b,
      NearBox t.tree (fun _ => 16 * u * B) b fun a => t.targets a i) := by
  obtain ⟨inp, h1, ok, _, hin⟩ := C56_documented_call c ns nt dtype hd hw
  rw [h1] at h
  have hu := hfl.nonneg_u
  have hcfl : c.arith.fl = fl := by rw [hx]; rfl
  obtain ⟨hu', _, room, hsum⟩ := hin.room hd ok (by rw [hcfl]; exact hfl) hbox hB hW hW0 hres
  have placed := (C56_particles_placed c ns nt dtype hd inp ok hin u (by linarith)
    (by rw [hcfl]; exact hfl)).1
  obtain ⟨r1, r2⟩ := C64_particles_in_box_partial inp fl rt u placed hfl (hin.arith.trans hx) room
    t h b hb
  have hdims : t.tree.dims = inp.dims := by
    obtain ⟨L, s, hc, o, rfl, _⟩ := Input.build_cases ok h
    rfl
  have hle : ∀ a < t.tree.dims, 5 * u * (|inp.lo a| + inp.ext a) ≤ 16 * u * B := by
    intro a ha
    rw [hdims] at ha
    have h2 := mul_le_mul_of_nonneg_left (hsum a ha) hu
    have h3 := mul_le_mul_of_nonneg_left
      (le_trans (add_nonneg (abs_nonneg (inp.lo a)) (ok.ext_pos' ha).le) (hsum a ha)) hu
    norm_num at h2 h3
    linarith
  constructor
  · intro i hi a ha
    have h2 := r1 i hi a ha
    have h3 := hle a ha
    exact ⟨by linarith [h2.1], by linarith [h2.2]⟩
  · intro i hi a ha
    have h2 := r2 i hi a ha
    have h3 := hle a ha
    exact ⟨by linarith [h2.1], by linarith [h2.2]⟩

/-! ### Examples -/

namespace Ex

/-- `Ex.line` in single precision. -/
def lineF (l2 : Bool) : Input :=
  { line with arith := .rounded (roundTo 24) (rootTo 24), l2 := l2 }

theorem lineF_placed (l2 : Bool) : (lineF l2).Placed where
  dims_pos := line_ok.dims_pos
  n_pos := line_ok.n_pos
  nsources_le := line_ok.nsources_le
  separate := line_ok.separate
  ext_pos := line_ok.ext_pos
  cube := line_ok.cube
  radius_nonneg := line_ok.radius_nonneg
  lower := line_placed.lower
  upper := line_placed.upper
  off_upper := line_placed.off_upper

theorem lineF_ok (l2 : Bool) : (lineF l2).OK := (lineF_placed l2).toOK

/-- `Ex.call` in double precision. -/
def callF : Call := { call with arith := .rounded (roundTo 53) (rootTo 53) }

theorem callF_documented : callF.Documented 3 0 "float64" where
  shapes := call_documented.shapes
  limit := call_documented.limit
  dtype := call_documented.dtype
  arith := Arith.sound_roundTo (p := 53) (by decide) rfl
  coords := by decide +kernel
  radius_nonneg := by decide +kernel
  box := Or.inr ⟨0, by decide, 0, by decide, 1, by decide, by decide +kernel⟩

/-- Particles on a line, in single precision, without a bounding box. -/
def wrapCall (xs : List ℚ) (m : ℚ) : Call where
  args :=
    { particles := [⟨"float32", xs.length⟩]
      kind := "adaptive"
      maxParticlesInBox := some m
      targets := none
      sourceRadii := none
      targetRadii := none
      stickOutFactor := none
      refineWeights := none
      maxLeafRefineWeight := none
      extentNorm := none }
  src := fun _ p => xs.getD p 0
  tgt := fun _ _ => 0
  srcRadius := fun _ => 0
  tgtRadius := fun _ => 0
  bbox := none
  skipPrune := false
  pad := fun _ => 0
  arith := .rounded (roundTo 24) (rootTo 24)

end Ex

example (l2 : Bool) : (Ex.lineF l2).NearlyPlaced (1 / 2 ^ 24) ∧ Rounds (roundTo 24) (1 / 2 ^ 24) ∧
    RoundsRoot (rootTo 24) (1 / 2 ^ 24) ∧ (Ex.lineF l2).Room (1 / 2 ^ 24) ∧
    ((Ex.lineF l2).dims + 6) * (1 / 2 ^ 24 : ℚ) ≤ 1 / 8 ∧ (Ex.lineF l2).haveExtent = true ∧
    roundTo 24 ((Ex.lineF l2).x 0 1) ≠ (Ex.lineF l2).x 0 1 ∧
    Ex.look (Ex.lineF l2).build (fun t => (List.range t.tree.nboxes).map t.tree.parent)
      = [0, 0, 0, 2, 2] := by
  refine ⟨(Ex.lineF_placed l2).nearly (by norm_num), roundTo_rounds (by decide), rootTo_rounds 24, ?_, ?_, ?_⟩
  · cases l2 <;> (unfold Input.Room; decide +kernel)
  · cases l2 <;> decide +kernel
  · cases l2 <;> decide +kernel

example : Ex.callF.Documented 3 0 "float64" ∧ Ex.callF.SomeWeight ∧
    Rounds (roundTo 53) (1 / 2 ^ 53) ∧ Ex.callF.bbox = none ∧
    (∀ a < Ex.callF.args.particles.length, ∀ p < 3 + 0,
      |Ex.callF.coord 3 a p| + Ex.callF.rad 3 p ≤ 4) ∧
    (3 ≤ Ex.callF.coord 3 0 2 - Ex.callF.coord 3 0 0 ∧ 400000 * (1 / 2 ^ 53) * 4 ≤ (3 : ℚ)) ∧
    Ex.look Ex.callF.run (fun t => (List.range t.tree.nboxes).map t.tree.parent)
      = [0, 0, 0, 0] := by
  refine ⟨Ex.callF_documented, Or.inl (by decide), roundTo_rounds (by decide), rfl, ?_⟩
  decide +kernel

theorem exists_of_look {r : Except String Built} {P : Built → Prop} [DecidablePred P]
    (h : Ex.look r (fun t => [decide (P t)]) = [true]) : ∃ t, r = .ok t ∧ P t := by
  unfold Ex.look at h
  split at h
  · exact ⟨_, rfl, by simpa using h⟩
  · cases h

/-- **C64**, what is missing for automatic bounding boxes: three numbers in single precision, at
8192, 8192.5 and 8193.  The upper end of the bounding box is rounded to 8193, the scaled coordinate
of the last particle is 1, and it ends up in box 1, of which it is more than one box size away. -/
theorem C64_automatic_box_wraps : ∃ c : Call, c.Documented 3 0 "float32" ∧ c.SomeWeight ∧
    c.bbox = none ∧ c.arith = .rounded (roundTo 24) (rootTo 24) ∧
    (∀ p < 3, roundTo 24 (c.src 0 p) = c.src 0 p) ∧
    ∃ t, c.run = .ok t ∧ t.tree.level 1 = 1 ∧
      ∃ i ∈ span t.particles.srcStart t.particles.srcCumul 1,
        t.tree.center 1 0 + 2 * t.tree.rad 1 < t.sources 0 i := by
  refine ⟨Ex.wrapCall [8192, 8192 + 1 / 2, 8193] 2, ?_, Or.inl (by decide), rfl, rfl,
    by decide +kernel, ?_⟩
  · exact
      { shapes :=
          { kind := Or.inl rfl
            norm := Or.inl rfl
            particles := ⟨by decide, by decide⟩
            targets := rfl
            radii := by decide
            sourceRadii := Or.inl rfl
            targetRadii := Or.inl rfl
            nonempty := by decide }
        limit := Or.inl ⟨2, rfl, rfl, rfl, by norm_num⟩
        dtype := Or.inr rfl
        arith := Arith.sound_roundTo (p := 24) (by decide) rfl
        coords := by decide +kernel
        radius_nonneg := by decide +kernel
        box := Or.inr ⟨0, by decide, 0, by decide, 1, by decide, by decide +kernel⟩ }
  · refine exists_of_look ?_ (P := fun t => t.tree.level 1 = 1 ∧
      ∃ i ∈ span t.particles.srcStart t.particles.srcCumul 1,
        t.tree.center 1 0 + 2 * t.tree.rad 1 < t.sources 0 i)
    decide +kernel

/-- **C64**, what is missing for automatic bounding boxes: two different points can be impossible
to separate. -/
theorem C64_automatic_box_fails : ∃ c : Call, c.Documented 2 0 "float32" ∧ c.SomeWeight ∧
    c.bbox = none ∧ c.arith = .rounded (roundTo 24) (rootTo 24) ∧
    (∀ p < 2, roundTo 24 (c.src 0 p) = c.src 0 p) ∧ c.src 0 0 ≠ c.src 0 1 ∧
    c.args.maxParticlesInBox = some 1 ∧ c.run = .error "MaxLevelsExceeded" := by
  have hd : (Ex.wrapCall [8192, 8193] 1).Documented 2 0 "float32" :=
      { shapes :=
          { kind := Or.inl rfl
            norm := Or.inl rfl
            particles := ⟨by decide, by decide⟩
            targets := rfl
            radii := by decide
            sourceRadii := Or.inl rfl
            targetRadii := Or.inl rfl
            nonempty := by decide }
        limit := Or.inl ⟨1, rfl, rfl, rfl, by norm_num⟩
        dtype := Or.inr rfl
        arith := Arith.sound_roundTo (p := 24) (by decide) rfl
        coords := by decide +kernel
        radius_nonneg := by decide +kernel
        box := Or.inr ⟨0, by decide, 0, by decide, 1, by decide, by decide +kernel⟩ }
  refine ⟨Ex.wrapCall [8192, 8193] 1, hd, Or.inl (by decide), rfl, rfl,
    by decide +kernel, by decide +kernel, rfl, ?_⟩
  · obtain ⟨inp, h1, ok, hsm, hin⟩ := C56_documented_call _ 2 0 "float32" hd (Or.inl (by decide))
    rw [h1]
    have hn : inp.n = 2 := hin.n
    have hdims : inp.dims = 1 := hin.dims
    have hx0 : inp.x 0 0 = 8192 := hin.source 0 0 (by decide)
    have hx1 : inp.x 0 1 = 8193 := hin.source 0 1 (by decide)
    have hr0 : inp.radius 0 = 0 := hin.sourceRadius 0 (by decide)
    have hr1 : inp.radius 1 = 0 := hin.sourceRadius 1 (by decide)
    have hauto := hin.automatic rfl
    have hafl : inp.arith.fl = roundTo 24 := by rw [hin.arith]; rfl
    have hlo : inp.lo 0 = 8192 := by
      obtain ⟨p, hp, h⟩ := hauto.lower 0 (by omega)
      have h2 := hauto.least 0 (by omega) 0 (by omega)
      rw [hafl, hx0, hr0] at h2
      rw [hafl] at h
      have e0 : roundTo 24 (8192 - 0) = 8192 := by decide +kernel
      have e1 : roundTo 24 (8193 - 0) = 8193 := by decide +kernel
      obtain rfl | rfl : p = 0 ∨ p = 1 := by omega
      · rw [h, hx0, hr0, e0]
      · rw [hx1, hr1, e1] at h; rw [e0] at h2; linarith
    have hext : inp.ext 0 = roundTo 24 (1 + 1 / 10 ^ 4) := by
      obtain ⟨a, ha, p, hp, h⟩ := hauto.attained
      obtain rfl : a = 0 := by omega
      have h2 := hauto.upper 0 (by omega) 1 (by omega)
      rw [hafl, hx1, hr1, hlo] at h2
      rw [hafl] at h
      have e1 : roundTo 24 (roundTo 24 (roundTo 24 (8193 + 0) - 8192) * roundTo 24 (1 + 1 / 10 ^ 4))
        = roundTo 24 (1 + 1 / 10 ^ 4) := by decide +kernel
      have e0 : roundTo 24 (roundTo 24 (roundTo 24 (8192 + 0) - 8192) * roundTo 24 (1 + 1 / 10 ^ 4))
        = 0 := by decide +kernel
      have e2 : (0 : ℚ) < roundTo 24 (1 + 1 / 10 ^ 4) := by decide +kernel
      rw [e1] at h2
      obtain rfl | rfl : p = 0 ∨ p = 1 := by omega
      · rw [hx0, hr0, hlo, e0] at h; linarith
      · rw [hx1, hr1, hlo, e1] at h; exact h.symm
    have hw := hsm ⟨fun m hm => by cases hm; norm_num, fun m hm => by cases hm⟩
    have hlev : inp.nlevelsMax = 48 := hin.levels
    have hmax := hin.maxParticles 1 rfl
    have hm : ∀ p < 2, ∀ l < 48, inp.morton p l = some 0 := by
      intro p hp l hl
      unfold Input.morton
      rw [Input.haveExtent, show inp.sourcesHaveExtent = false from hin.sourcesHaveExtent,
        show inp.targetsHaveExtent = false from hin.targetsHaveExtent, Bool.or_false,
        Bool.false_and, if_neg (by simp), hdims]
      unfold Input.bits
      rw [show inp.arith = .rounded (roundTo 24) (rootTo 24) from hin.arith]
      have key : ∀ x ∈ [(8192 : ℚ), 8193], ∀ l < 48,
          ⌊(Arith.rounded (roundTo 24) (rootTo 24)).scaled x 8192 (roundTo 24 (1 + 1 / 10 ^ 4)) l⌋.toNat % 2
            = 0 := by decide +kernel
      have hxm : inp.x 0 p ∈ [(8192 : ℚ), 8193] := by
        obtain rfl | rfl : p = 0 ∨ p = 1 := by omega
        · rw [hx0]; simp
        · rw [hx1]; simp
      have h2 := key _ hxm l hl
      rw [← hlo, ← hext] at h2
      simpa using h2
    have hae : inp.adaptive = true := by
      by_contra hne
      have := hin.adaptive.1 (by simpa using hne)
      revert this
      decide
    have hhe : inp.haveExtent = false := by
      rw [Input.haveExtent, show inp.sourcesHaveExtent = false from hin.sourcesHaveExtent,
        show inp.targetsHaveExtent = false from hin.targetsHaveExtent]
      rfl
    rcases C23_terminates inp hw (fun _ => hae) with ⟨t, ht, _⟩ | h5
    · exfalso
      have hps : ∀ q ∈ [0, 1], q < 2 := by decide
      have := group_weight ok hw hae hhe ht (ps := [0, 1]) (by decide)
        (fun q hq => by rw [hn]; exact hps q hq) fun p hp q hq par l k hl hpath => by
          rw [hlev] at hl
          have : ∀ l ≤ 46, ∀ k, PathOK inp.params par p l k → PathOK inp.params par q l k := by
            intro l
            induction l with
            | zero => intro _ _ _; trivial
            | succ l ih =>
              intro hl k h
              refine ⟨?_, ih (by omega) _ h.2⟩
              rw [← h.1]
              show inp.morton q l = inp.morton p l
              rw [hm q (hps q hq) l (by omega), hm p (hps p hp) l (by omega)]
          exact this l hl k hpath
      have h2 := hmax.2 0 (by decide)
      have h3 := hmax.2 1 (by decide)
      have h4 : inp.maxWeight = 1 := by rw [hmax.1]; decide +kernel
      rw [List.map_cons, List.map_cons, List.map_nil, h2, h3, h4] at this
      simp at this
    · exact h5

/-- **C64**, what is missing for given bounding boxes: double precision, the box from -1 to 1.  The
greatest number below 1 ends up in the lower half. -/
theorem C64_given_box_wraps : ∃ c : Call, c.Documented 3 0 "float64" ∧ c.SomeWeight ∧
    c.bbox = some [(-1, 1)] ∧ c.arith = .rounded (roundTo 53) (rootTo 53) ∧
    (∀ p < 3, roundTo 53 (c.src 0 p) = c.src 0 p) ∧
    ∃ t, c.run = .ok t ∧ t.tree.level 1 = 1 ∧
      ∃ i ∈ span t.particles.srcStart t.particles.srcCumul 1,
        t.tree.center 1 0 + 2 * t.tree.rad 1 < t.sources 0 i := by
  refine ⟨{ Ex.wrapCall [-1 / 2, 1 / 2, 1 - 1 / 2 ^ 53] 2 with
      args := { (Ex.wrapCall [-1 / 2, 1 / 2, 1 - 1 / 2 ^ 53] 2).args with
        particles := [⟨"float64", 3⟩] }
      bbox := some [(-1, 1)]
      arith := .rounded (roundTo 53) (rootTo 53) }, ?_, Or.inl (by decide), rfl, rfl,
    by decide +kernel, ?_⟩
  · exact
      { shapes :=
          { kind := Or.inl rfl
            norm := Or.inl rfl
            particles := ⟨by decide, by decide⟩
            targets := rfl
            radii := by decide
            sourceRadii := Or.inl rfl
            targetRadii := Or.inl rfl
            nonempty := by decide }
        limit := Or.inl ⟨2, rfl, rfl, rfl, by norm_num⟩
        dtype := Or.inl rfl
        arith := Arith.sound_roundTo (p := 53) (by decide) rfl
        coords := by decide +kernel
        radius_nonneg := by decide +kernel
        box := by
          show _ ∧ _
          decide +kernel }
  · refine exists_of_look ?_ (P := fun t => t.tree.level 1 = 1 ∧
      ∃ i ∈ span t.particles.srcStart t.particles.srcCumul 1,
        t.tree.center 1 0 + 2 * t.tree.rad 1 < t.sources 0 i)
    decide +kernel

end Boxtree.Build
