import Verif.Spec.BuildCall
import Verif.Props.RootBox
import Verif.Props.Leaves
import Verif.Props.BuiltTree

/-!
# C56: documented calls of the tree builder

The statements about built trees (C19–C27, C52, C53, C55) have the hypothesis `Input.OK`.  Here it is
derived from the documented conditions on the arguments.
-/

namespace Boxtree.Build

/-- Exact arithmetic is sound. -/
theorem Arith.sound_exact {A : Arith} (h : A.fl = id) : A.Sound where
  rounds := ⟨0, by norm_num, by rw [h]; exact Rounds.exact⟩
  mono := by rw [h]; exact monotone_id

/-- Rounding to nearest with at least 16 bits is sound. -/
theorem Arith.sound_roundTo {A : Arith} {p : Nat} (hp : 16 ≤ p) (h : A.fl = roundTo p) : A.Sound where
  rounds := ⟨1 / 2 ^ p, by
    have : (2 : ℚ) ^ 16 ≤ 2 ^ p := pow_le_pow_right₀ (by norm_num) hp
    rw [div_le_div_iff₀ (by positivity) (by norm_num)]
    norm_num at this
    linarith, by rw [h]; exact roundTo_rounds (by omega)⟩
  mono := by rw [h]; exact roundTo_mono (by omega)

theorem Arith.sound_roundEven {A : Arith} {p : Nat} (hp : 16 ≤ p) (h : A.fl = roundEven p) :
    A.Sound where
  rounds := ⟨1 / 2 ^ p, by
    have : (2 : ℚ) ^ 16 ≤ 2 ^ p := pow_le_pow_right₀ (by norm_num) hp
    rw [div_le_div_iff₀ (by positivity) (by norm_num)]
    norm_num at this
    linarith, by rw [h]; exact roundEven_rounds (by omega)⟩
  mono := by rw [h]; exact roundEven_mono (by omega)

theorem rootBox_given {fl : ℚ → ℚ} {d n : Nat} {x : Nat → Nat → ℚ} {r : Nat → ℚ}
    {b : List (ℚ × ℚ)} {root : Root} (h : rootBox fl d n x r (some b) = .ok root) :
    root.lo = fun a => fl (b.getD a 0).1 := by
  unfold rootBox at h
  dsimp only at h
  split at h
  · simp at h
  split at h
  · simp at h
  split at h
  · simp at h
  simp only [Except.ok.injEq] at h
  subst h
  rfl

theorem floor_guess {m : ℚ} (hm : 0 < m) {w : List ℤ} (hw : ∀ x ∈ w, 0 ≤ x ∧ (x : ℚ) ≤ m) (d : Nat) :
    boxesGuess d w m ≤ 0 ↔ ∀ x ∈ w, x = 0 := by
  have hsum : (∀ x ∈ w, x = 0) ↔ w.sum ≤ 0 := by
    clear hm
    induction w with
    | nil => simp
    | cons a l ih =>
      have h1 := hw a (by simp)
      have h2 := ih fun x hx => hw x (by simp [hx])
      have h3 : 0 ≤ l.sum := List.sum_nonneg fun x hx => (hw x (by simp [hx])).1
      simp only [List.mem_cons, forall_eq_or_imp, List.sum_cons, h2]
      constructor
      · rintro ⟨h4, h5⟩; omega
      · intro h4; exact ⟨by omega, by omega⟩
  rw [hsum]
  unfold boxesGuess
  have h2 : (0 : ℤ) < 2 ^ d := by positivity
  constructor
  · intro h
    by_contra h3
    push Not at h3
    have h4 : 0 < ⌊(m + w.sum - 1) / m⌋ := by
      rw [Int.lt_iff_add_one_le, zero_add, Int.le_floor, le_div_iff₀ hm]
      have : (1 : ℚ) ≤ w.sum := by exact_mod_cast h3
      rw [Int.cast_one]
      linarith
    have := mul_pos h2 h4
    omega
  · intro h
    have h4 : ⌊(m + w.sum - 1) / m⌋ < 1 := by
      rw [Int.floor_lt, div_lt_iff₀ hm]
      have : ((w.sum : ℤ) : ℚ) ≤ 0 := by exact_mod_cast h
      rw [Int.cast_one]
      linarith
    exact mul_nonpos_of_nonneg_of_nonpos h2.le (by omega)

/-- What the checks pass on for documented arguments. -/
theorem check_documented {a : Args} {ns nt : Nat} {dtype : String} (h : a.Shapes ns nt dtype)
    (hl : a.Limit (ns + nt)) :
    ∃ k, check a = .ok k ∧ k.nsources = ns ∧ k.ntargets = nt ∧ k.coordDtype = dtype ∧
      k.refineWeights.length = ns + nt ∧ 0 < k.maxLeafRefineWeight ∧
      (∀ x ∈ k.refineWeights, 0 ≤ x ∧ (x : ℚ) ≤ k.maxLeafRefineWeight) ∧
      ((a.maxParticlesInBox = some k.maxLeafRefineWeight ∧
          k.refineWeights = List.replicate (ns + nt) 1) ∨
        (a.maxParticlesInBox = none ∧ a.maxLeafRefineWeight = some k.maxLeafRefineWeight ∧
          a.refineWeights = some ("int32", k.refineWeights))) := by
  obtain ⟨k, h1, h2, h3, h4, h5⟩ := C50_documented_accepted a ns nt dtype h hl
  refine ⟨k, h1, h2, h3, h4, ?_⟩
  rcases hl with ⟨m, hm, hw, hml, h1m⟩ | ⟨w, m, hm, hw, hml, hlen, hpos, hall⟩
  · rcases h5 with ⟨h5, h6⟩ | ⟨h5, h6⟩
    · rw [hm] at h5
      cases h5
      refine ⟨by rw [h6]; simp, by linarith, ?_, Or.inl ⟨hm, h6⟩⟩
      intro x hx
      rw [h6] at hx
      rw [List.eq_of_mem_replicate hx]
      exact ⟨by norm_num, by push_cast; exact h1m⟩
    · rw [hml] at h5; cases h5
  · rcases h5 with ⟨h5, h6⟩ | ⟨h5, h6⟩
    · rw [hm] at h5; cases h5
    · rw [hml] at h5
      rw [hw] at h6
      cases h5
      simp only [Option.some.injEq, Prod.mk.injEq, true_and] at h6
      subst h6
      exact ⟨hlen, hpos, hall, Or.inr ⟨hm, hml, hw⟩⟩

theorem levelsMax_ok {dtype : String} (h : dtype = "float64" ∨ dtype = "float32") :
    ∃ l, levelsMax dtype = .ok l ∧ 1 ≤ l := by
  rcases h with rfl | rfl
  · exact ⟨106, rfl, by omega⟩
  · exact ⟨48, rfl, by omega⟩

/-- A documented call gets to the allocation of the arrays, with an input that meets `Input.OK`. -/
theorem documented_call_by (c : Call) (ns nt : Nat) (dtype : String)
    (hd : c.Documented ns nt dtype) (hw : c.SomeWeight) :
    ∃ inp : Input, (∀ guess body, (∀ g, guess = some g → 0 < g) →
        ∃ g, 1 ≤ g ∧ c.runBy guess body = body g inp) ∧
      inp.OK ∧ (c.SmallLimit → inp.WeightsOK) ∧ c.InputOf ns nt dtype inp := by
  obtain ⟨k, h1, h2, h3, h4, h5, h6, h7, h8⟩ := check_documented hd.shapes hd.limit
  obtain ⟨levels, h9, h10⟩ := levelsMax_ok hd.dtype
  have hg : ¬ boxesGuess c.args.particles.length k.refineWeights k.maxLeafRefineWeight ≤ 0 := by
    rw [floor_guess h6 h7]
    intro h0
    rcases h8 with ⟨_, h8⟩ | ⟨h8, _, h8'⟩
    · have := hd.shapes.nonempty
      have h11 := h0 1 (by rw [h8]; simp; omega)
      cases h11
    · rcases hw with hw | ⟨dt, w, hw, x, hx, hx0⟩
      · exact hw h8
      · rw [h8'] at hw
        simp only [Option.some.injEq, Prod.mk.injEq] at hw
        exact hx0 (h0 x (by rw [hw.2]; exact hx))
  have hdims : 0 < c.args.particles.length :=
    List.length_pos_iff.2 hd.shapes.particles.1
  have hn := hd.shapes.nonempty
  have hns : c.args.targets.isNone = true → nt = 0 := by
    intro h
    have := hd.shapes.targets
    rw [Option.isNone_iff_eq_none] at h
    rw [h] at this
    exact this
  have hroot : ∃ root, rootBox c.arith.fl (c.args.particles.length - 1) (ns + nt - 1) (c.coord ns) (c.rad ns)
      c.bbox = .ok root ∧ (c.input k root levels).OK := by
    have hsep : (c.input k ⟨fun _ => 0, 0⟩ levels).sourcesAreTargets = true →
        (c.input k ⟨fun _ => 0, 0⟩ levels).haveExtent = false := by
      intro h
      have h11 := hd.shapes.radii
      have h12 : c.args.targets = none := Option.isNone_iff_eq_none.1 h
      unfold Input.haveExtent
      show (c.args.sourceRadii.isSome || c.args.targetRadii.isSome) = false
      by_contra h13
      refine (h11 ?_).1 h12
      rw [Bool.not_eq_false, Bool.or_eq_true, Option.isSome_iff_ne_none,
        Option.isSome_iff_ne_none] at h13
      exact h13
    have hbox := hd.box
    obtain ⟨u, _, hfl⟩ := hd.arith.rounds
    have hm := hd.arith.mono
    cases hb : c.bbox with
    | none =>
      rw [hb] at hbox
      obtain ⟨root, r1, _, _, _, r5⟩ := rootBox_auto hfl hm (c.args.particles.length - 1) (ns + nt - 1)
        (c.coord ns) (c.rad ns)
      have hends : ∀ a < c.args.particles.length, ∀ i < ns + nt,
          c.arith.fl (c.coord ns a i - c.rad ns i) ≤ c.coord ns a i ∧
          c.coord ns a i ≤ c.arith.fl (c.coord ns a i + c.rad ns i) := by
        intro a ha i hi
        have h0 := hd.radius_nonneg i hi
        have e := hd.coords a ha i hi
        constructor
        · calc _ ≤ c.arith.fl (c.coord ns a i) := hm (by linarith)
            _ = _ := e
        · calc _ = c.arith.fl (c.coord ns a i) := e.symm
            _ ≤ _ := hm (by linarith)
      have hpos : 0 < root.ext := by
        apply r5
        rcases hbox with ⟨a, ha, i, hi, hr⟩ | ⟨a, ha, i, hi, j, hj, hr⟩
        · exact ⟨a, by omega, i, by omega, i, by omega,
            lt_of_le_of_ne ((hends a ha i hi).1.trans (hends a ha i hi).2) hr⟩
        · rcases lt_or_gt_of_ne hr with h | h
          · exact ⟨a, by omega, i, by omega, j, by omega,
              (hends a ha i hi).1.trans_lt (h.trans_le (hends a ha j hj).2)⟩
          · exact ⟨a, by omega, j, by omega, i, by omega,
              (hends a ha j hj).1.trans_lt (h.trans_le (hends a ha i hi).2)⟩
      refine ⟨root, r1, ?_⟩
      have hext : ∀ a, (c.input k root levels).ext a = root.ext := by
        intro a
        show (match c.bbox with | none => root.ext | some b => _) = _
        rw [hb]
      exact
        { dims_pos := hdims
          n_pos := by show 0 < k.nsources + k.ntargets; omega
          nsources_le := by show k.nsources ≤ k.nsources + k.ntargets; omega
          separate := hsep
          ext_pos := by rw [hext]; exact hpos
          cube := fun a _ => by rw [hext, hext]
          radius_nonneg := fun p hp => by
            show 0 ≤ c.rad k.nsources p
            rw [h2]
            exact hd.radius_nonneg p (by have : p < k.nsources + k.ntargets := hp; omega) }
    | some b =>
      rw [hb] at hbox
      obtain ⟨b1, b2⟩ := hbox
      obtain ⟨root, r1⟩ := (C50_given_bbox c.arith.fl (c.args.particles.length - 1) (ns + nt - 1)
        (c.coord ns) (c.rad ns) b).2 ⟨by omega,
          fun a ha => by
            obtain ⟨q1, q2, _, q3, _⟩ := b2 a (by omega)
            rw [q1, q2]; exact q3,
          fun a ha i hi => by
            obtain ⟨_, _, _, _, _, q⟩ := b2 a (by omega)
            exact ⟨hm (q i (by omega)).1, hm (q i (by omega)).2.1⟩,
          fun a ha => by
            obtain ⟨q1, q2, _, _, q4, _⟩ := b2 a (by omega)
            obtain ⟨p1, p2, _⟩ := b2 0 hdims
            rw [q1, q2, p1, p2, q4, sub_self, hfl.zero, abs_zero]
            exact hfl.pos (by norm_num)⟩
      refine ⟨root, r1, ?_⟩
      have hext : ∀ a < c.args.particles.length,
          (c.input k root levels).ext a = c.arith.fl ((b.getD a 0).2 - (b.getD a 0).1) := by
        intro a ha
        show (match c.bbox with | none => root.ext | some b => _) = _
        rw [hb]
        obtain ⟨q1, q2, _⟩ := b2 a ha
        dsimp only
        rw [q1, q2]
      exact
        { dims_pos := hdims
          n_pos := by show 0 < k.nsources + k.ntargets; omega
          nsources_le := by show k.nsources ≤ k.nsources + k.ntargets; omega
          separate := hsep
          ext_pos := by
            rw [hext 0 hdims]
            exact hfl.pos (by linarith [(b2 0 hdims).2.2.2.1])
          cube := fun a ha => by rw [hext a ha, hext 0 hdims]; exact (b2 a ha).2.2.2.2.1
          radius_nonneg := fun p hp => by
            show 0 ≤ c.rad k.nsources p
            rw [h2]
            exact hd.radius_nonneg p (by have : p < k.nsources + k.ntargets := hp; omega) }
  obtain ⟨root, r1, r2⟩ := hroot
  refine ⟨c.input k root levels, ?_, r2, ?_, ?_⟩
  · intro guess body hguess
    have hg' : ¬ guess.getD (boxesGuess c.args.particles.length k.refineWeights
        k.maxLeafRefineWeight) ≤ 0 := by
      cases guess with
      | none => exact hg
      | some g => have := hguess g rfl; simp; omega
    refine ⟨(guess.getD (boxesGuess c.args.particles.length k.refineWeights
      k.maxLeafRefineWeight)).toNat, by omega, ?_⟩
    unfold Call.runBy
    rw [h1]
    show (do
      let root ← rootBox c.arith.fl (c.args.particles.length - 1) (k.nsources + k.ntargets - 1)
        (c.coord k.nsources) (c.rad k.nsources) c.bbox
      _) = _
    rw [h2, h3, r1]
    show (if _ then _ else _) = _
    rw [if_neg hg', h4, h9]
    rfl
  · intro hs
    have hlim : k.maxLeafRefineWeight < 2 ^ 31 - 1 := by
      rcases h8 with ⟨h8, _⟩ | ⟨_, h8, _⟩
      · exact hs.1 _ h8
      · exact hs.2 _ h8
    refine ⟨?_, ?_, h10⟩
    · intro p hp
      show (k.refineWeights.getD p 0).toNat ≤ _
      have hp' : p < k.refineWeights.length := by
        have : p < k.nsources + k.ntargets := hp
        omega
      rw [List.getD_eq_getElem _ _ hp']
      obtain ⟨h11, h12⟩ := h7 _ (List.getElem_mem hp')
      have h13 : (k.refineWeights[p] : ℚ) < 2 ^ 31 - 1 := lt_of_le_of_lt h12 hlim
      have h14 : k.refineWeights[p] < 2 ^ 31 - 1 := by exact_mod_cast h13
      omega
    · show ⌊k.maxLeafRefineWeight⌋.toNat < 2 ^ 31 - 1
      have h11 : ⌊k.maxLeafRefineWeight⌋ < 2 ^ 31 - 1 := by
        rw [Int.floor_lt]
        norm_num at hlim ⊢
        exact hlim
      omega
  · have hn' : k.nsources + k.ntargets = ns + nt := by omega
    exact
      { dims := rfl
        n := hn'
        nsources := h2
        sourcesAreTargets := rfl
        source := fun a i hi => by
          show c.coord k.nsources a i = _
          unfold Call.coord
          rw [if_pos (by omega)]
        target := fun a j => by
          show c.coord k.nsources a (ns + j) = _
          unfold Call.coord
          rw [if_neg (by omega), h2, Nat.add_sub_cancel_left]
        sourceRadius := fun i hi => by
          show c.rad k.nsources i = _
          unfold Call.rad
          rw [if_pos (by omega)]
        targetRadius := fun j => by
          show c.rad k.nsources (ns + j) = _
          unfold Call.rad
          rw [if_neg (by omega), h2, Nat.add_sub_cancel_left]
        sourcesHaveExtent := rfl
        targetsHaveExtent := rfl
        norm := fun he => by
          show decide (k.extentNorm = some "l2") = true ↔ _
          rw [decide_eq_true_iff, (check_extent h1 he).1]
          rcases hd.shapes.norm with e | e | e <;> rw [e] <;> simp
        stickOut := fun he => (check_extent h1 he).2
        levelRestrict := decide_eq_true_iff
        adaptive := by
          show decide (c.args.kind ≠ "non-adaptive") = false ↔ _
          simp
        maxParticles := fun m hm => by
          rcases h8 with ⟨e1, e2⟩ | ⟨e1, _⟩
          · rw [hm] at e1
            cases e1
            refine ⟨rfl, fun p hp => ?_⟩
            show (k.refineWeights.getD p 0).toNat = 1
            rw [e2, List.getD_eq_getElem _ _ (by simpa using hp), List.getElem_replicate]
            rfl
          · rw [e1] at hm; cases hm
        weights := fun dt w m hm hwt hml => by
          rcases h8 with ⟨e1, _⟩ | ⟨_, e2, e3⟩
          · rw [hm] at e1; cases e1
          · rw [hml] at e2
            cases e2
            rw [hwt] at e3
            simp only [Option.some.injEq, Prod.mk.injEq] at e3
            refine ⟨rfl, fun p hp => ?_⟩
            show (((k.refineWeights.getD p 0).toNat : Nat) : ℤ) = _
            rw [e3.2]
            have hp' : p < k.refineWeights.length := by omega
            rw [List.getD_eq_getElem _ _ hp']
            exact Int.toNat_of_nonneg (h7 _ (List.getElem_mem hp')).1
        levels := by
          show levels = _
          rcases hd.dtype with rfl | rfl
          · exact (Except.ok.inj h9).symm
          · exact (Except.ok.inj h9).symm
        prune := rfl
        arith := rfl
        automatic := fun hb => by
          rw [hb] at r1
          have hext : ∀ a, (c.input k root levels).ext a = root.ext := by
            intro a
            show (match c.bbox with | none => root.ext | some b => _) = _
            rw [hb]
          obtain ⟨u, _, hfl⟩ := hd.arith.rounds
          obtain ⟨root', r1', q1, q2, q3, _⟩ := rootBox_auto hfl hd.arith.mono
            (c.args.particles.length - 1) (ns + nt - 1) (c.coord ns) (c.rad ns)
          obtain rfl : root = root' := Except.ok.inj (r1.symm.trans r1')
          have e : c.coord k.nsources = c.coord ns := by rw [h2]
          have e' : c.rad k.nsources = c.rad ns := by rw [h2]
          refine ⟨fun a ha p hp => ?_, fun a ha => ?_, fun a ha p hp => ?_, ?_⟩
          · have ha' : a < c.args.particles.length := ha
            have hp' : p < k.nsources + k.ntargets := hp
            show root.lo a ≤ c.arith.fl (c.coord k.nsources a p - c.rad k.nsources p)
            rw [e, e']
            exact (q1 a (by omega)).1 p (by omega)
          · have ha' : a < c.args.particles.length := ha
            obtain ⟨i, hi, h⟩ := (q1 a (by omega)).2
            refine ⟨i, ?_, ?_⟩
            · show i < k.nsources + k.ntargets; omega
            · show root.lo a = c.arith.fl (c.coord k.nsources a i - c.rad k.nsources i)
              rw [e, e']; exact h
          · have ha' : a < c.args.particles.length := ha
            have hp' : p < k.nsources + k.ntargets := hp
            rw [hext]
            show c.arith.fl (c.arith.fl (c.arith.fl (c.coord k.nsources a p + c.rad k.nsources p)
              - root.lo a) * _) ≤ _
            rw [e, e']
            exact q2 a (by omega) p (by omega)
          · obtain ⟨a, ha, i, hi, h⟩ := q3
            refine ⟨a, ?_, i, ?_, ?_⟩
            · show a < c.args.particles.length; omega
            · show i < k.nsources + k.ntargets; omega
            · rw [hext]
              show c.arith.fl (c.arith.fl (c.arith.fl (c.coord k.nsources a i + c.rad k.nsources i)
                - root.lo a) * _) = _
              rw [e, e']
              exact h
        given := fun b hb a ha => by
          rw [hb] at r1
          have hlo := rootBox_given r1
          have hbox := hd.box
          rw [hb] at hbox
          obtain ⟨q1, q2, _⟩ := hbox.2 a ha
          show root.lo a = _ ∧ (match c.bbox with | none => root.ext | some b => _) = _
          rw [hb, hlo]
          dsimp only
          rw [q1, q2]
          exact ⟨rfl, rfl⟩ }

/-- Particles of a call. -/
theorem Call.InputOf.coord {c : Call} {ns nt : Nat} {dtype : String} {inp : Input}
    (hin : c.InputOf ns nt dtype inp) (a p : Nat) : inp.x a p = c.coord ns a p := by
  unfold Call.coord
  split
  · rename_i h; exact hin.source a p h
  · have := hin.target a (p - ns)
    rwa [Nat.add_sub_cancel' (by omega)] at this

theorem Call.InputOf.rad {c : Call} {ns nt : Nat} {dtype : String} {inp : Input}
    (hin : c.InputOf ns nt dtype inp) (p : Nat) : inp.radius p = c.rad ns p := by
  unfold Call.rad
  split
  · rename_i h; exact hin.sourceRadius p h
  · have := hin.targetRadius (p - ns)
    rwa [Nat.add_sub_cancel' (by omega)] at this

/-- **C56**, the particles of a documented call are in the root box: their centers in the half-open
cube, and the particles with their radii up to two rounding errors. -/
theorem C56_particles_placed (c : Call) (ns nt : Nat) (dtype : String) (hd : c.Documented ns nt dtype)
    (inp : Input) (ok : inp.OK) (hin : c.InputOf ns nt dtype inp) (u : ℚ) (hu : u ≤ 1 / 40000)
    (hfl : Rounds c.arith.fl u) :
    inp.NearlyPlaced u ∧ ∀ a < inp.dims, ∀ p < inp.n, inp.x a p < inp.lo a + inp.ext a := by
  have hm := hd.arith.mono
  have hu0 := hfl.nonneg_u
  have hcoord : ∀ a < inp.dims, ∀ p < inp.n, c.arith.fl (inp.x a p) = inp.x a p := by
    intro a ha p hp
    rw [hin.coord]
    exact hd.coords a (by rw [← hin.dims]; exact ha) p (by rw [← hin.n]; exact hp)
  cases hb : c.bbox with
  | none =>
    have hauto := hin.automatic hb
    have key : ∀ a < inp.dims, ∀ p < inp.n, inp.lo a ≤ inp.x a p ∧
        inp.lo a ≤ c.arith.fl (inp.x a p - inp.radius p) ∧
        inp.x a p ≤ c.arith.fl (inp.x a p + inp.radius p) ∧
        c.arith.fl (inp.x a p - inp.radius p) ≤ inp.x a p ∧
        (1 + 1 / 60000) * (c.arith.fl (inp.x a p + inp.radius p) - inp.lo a) ≤ inp.ext a ∧
        c.arith.fl (inp.x a p + inp.radius p) ≤ inp.lo a + inp.ext a := by
      intro a ha p hp
      have h0 := ok.radius_nonneg p hp
      have e := hcoord a ha p hp
      have g1 := hauto.least a ha p hp
      have g2 := hauto.upper a ha p hp
      rw [hin.arith] at g1 g2
      have e1 : c.arith.fl (inp.x a p - inp.radius p) ≤ inp.x a p := by
        calc _ ≤ c.arith.fl (inp.x a p) := hm (by linarith)
          _ = _ := e
      have e2 : inp.x a p ≤ c.arith.fl (inp.x a p + inp.radius p) := by
        calc _ = c.arith.fl (inp.x a p) := e.symm
          _ ≤ _ := hm (by linarith)
      have hy : 0 ≤ c.arith.fl (inp.x a p + inp.radius p) - inp.lo a := by linarith
      have g3 := (stretch_le hfl hu hy).trans g2
      have g4 : (1 + 1 / 60000) * (c.arith.fl (inp.x a p + inp.radius p) - inp.lo a) ≤
          (1 + 1 / 10 ^ 4) * (1 - 3 * u) * (c.arith.fl (inp.x a p + inp.radius p) - inp.lo a) :=
        mul_le_mul_of_nonneg_right (by linarith) hy
      exact ⟨by linarith, g1, e2, e1, by linarith, by linarith⟩
    refine ⟨{ toOK := ok, center := fun a ha p hp => (key a ha p hp).1, lower := fun a ha p hp => ?_,
              upper := fun a ha p hp => ?_ }, fun a ha p hp => ?_⟩
    · obtain ⟨k1, k2, k3, k4, k5, k6⟩ := key a ha p hp
      have := abs_le.1 (hfl.within (y := inp.x a p - inp.radius p) (lo := inp.lo a)
        (ext := inp.ext a) k2 (by linarith))
      linarith
    · obtain ⟨k1, k2, k3, k4, k5, k6⟩ := key a ha p hp
      have := abs_le.1 (hfl.within (y := inp.x a p + inp.radius p) (lo := inp.lo a)
        (ext := inp.ext a) (by linarith) k6)
      linarith
    · obtain ⟨k1, k2, k3, k4, k5, k6⟩ := key a ha p hp
      have hE := ok.ext_pos' ha
      by_contra hc
      push Not at hc
      linarith
  | some b =>
    have hg := hin.given b hb
    have hbox := hd.box
    rw [hb] at hbox
    have key : ∀ a < inp.dims, ∀ p < inp.n, inp.lo a ≤ inp.x a p - inp.radius p ∧
        inp.x a p + inp.radius p ≤ inp.lo a + inp.ext a + 2 * u * inp.ext a ∧
        inp.x a p < inp.lo a + inp.ext a := by
      intro a ha p hp
      obtain ⟨_, _, _, q0, _, q⟩ := hbox.2 a (by rw [← hin.dims]; exact ha)
      rw [(hg a ha).2, (hg a ha).1, hin.coord, hin.rad]
      obtain ⟨q1, q2, q3⟩ := q p (by rw [← hin.n]; exact hp)
      have hD : 0 < (b.getD a 0).2 - (b.getD a 0).1 := by linarith
      have h := abs_le.1 (hfl.err ((b.getD a 0).2 - (b.getD a 0).1))
      rw [abs_of_pos hD] at h
      have h2 : ((b.getD a 0).2 - (b.getD a 0).1) * (1 / 2) ≤
          c.arith.fl ((b.getD a 0).2 - (b.getD a 0).1) := by
        have := mul_le_mul_of_nonneg_right hu hD.le
        linarith [h.1]
      have h3 := mul_le_mul_of_nonneg_left h2 hu0
      exact ⟨q1, by linarith [h.1], q3⟩
    refine ⟨{ toOK := ok, center := fun a ha p hp => ?_, lower := fun a ha p hp => ?_,
              upper := fun a ha p hp => ?_ }, fun a ha p hp => (key a ha p hp).2.2⟩
    · linarith [(key a ha p hp).1, ok.radius_nonneg p hp]
    · have : 0 ≤ u * (|inp.lo a| + inp.ext a) :=
        mul_nonneg hu0 (add_nonneg (abs_nonneg _) (ok.ext_pos' ha).le)
      linarith [(key a ha p hp).1]
    · have := mul_nonneg hu0 (abs_nonneg (inp.lo a))
      linarith [(key a ha p hp).2.1]

/-- **C56**, without rounding the particles with their radii are in the root box. -/
theorem C56_placed (c : Call) (ns nt : Nat) (dtype : String) (hd : c.Documented ns nt dtype)
    (hx : c.arith.fl = id) (inp : Input) (ok : inp.OK) (hin : c.InputOf ns nt dtype inp) :
    inp.Placed := by
  obtain ⟨h1, h2⟩ := C56_particles_placed c ns nt dtype hd inp ok hin 0 (by norm_num)
    (by rw [hx]; exact Rounds.exact)
  refine { toOK := ok, lower := fun a ha p hp => ?_, upper := fun a ha p hp => ?_, off_upper := h2 }
  · linarith [h1.lower a ha p hp]
  · linarith [h1.upper a ha p hp]

/-- **C56.** A documented call, with a weight that is not zero, is a run of the level loop with its
post-processing on an input that meets `Input.OK`; the input consists of the user's arguments. -/
theorem C56_documented_call (c : Call) (ns nt : Nat) (dtype : String) (hd : c.Documented ns nt dtype)
    (hw : c.SomeWeight) :
    ∃ inp : Input, c.run = inp.build ∧ inp.OK ∧ (c.SmallLimit → inp.WeightsOK) ∧
      c.InputOf ns nt dtype inp := by
  obtain ⟨inp, h1, h2⟩ := documented_call_by c ns nt dtype hd hw
  obtain ⟨_, _, h3⟩ := h1 none (fun _ inp => inp.build) (by simp)
  exact ⟨inp, h3, h2⟩

/-- **C56**, outcomes: a documented call returns a tree or raises `MaxLevelsExceeded` (see C23 for
when), or all weights are zero and it raises `AssertionError`. -/
theorem C56_outcomes (c : Call) (ns nt : Nat) (dtype : String) (hd : c.Documented ns nt dtype)
    (hs : c.SmallLimit) :
    (∃ t, c.run = .ok t) ∨ c.run = .error "MaxLevelsExceeded" ∨
      (¬ c.SomeWeight ∧ c.run = .error "AssertionError") := by
  by_cases hw : c.SomeWeight
  · obtain ⟨inp, h1, h2, h3, hin⟩ :=
      C56_documented_call c ns nt dtype hd hw
    rw [h1]
    rcases C23_terminates inp (h3 hs) (fun h => by
      by_contra h6
      rw [Bool.not_eq_true, hin.adaptive] at h6
      rw [hin.levelRestrict, h6] at h
      exact absurd h (by decide)) with ⟨t, ht, _⟩ | h6
    · exact Or.inl ⟨t, ht⟩
    · exact Or.inr (Or.inl h6)
  · refine Or.inr (Or.inr ⟨hw, ?_⟩)
    obtain ⟨k, h1, h2, h3, h4, h5, h6, h7, h8⟩ := check_documented hd.shapes hd.limit
    unfold Call.SomeWeight at hw
    push Not at hw
    have hg : boxesGuess c.args.particles.length k.refineWeights k.maxLeafRefineWeight ≤ 0 := by
      rw [floor_guess h6 h7]
      rcases h8 with ⟨h8, _⟩ | ⟨_, _, h8⟩
      · rw [hw.1] at h8; cases h8
      · exact hw.2 _ _ h8
    have hn := hd.shapes.nonempty
    have hdims : 0 < c.args.particles.length := List.length_pos_iff.2 hd.shapes.particles.1
    obtain ⟨root, r1⟩ : ∃ root, rootBox c.arith.fl (c.args.particles.length - 1) (ns + nt - 1) (c.coord ns)
        (c.rad ns) c.bbox = .ok root := by
      have hbox := hd.box
      cases hb : c.bbox with
      | none => exact ⟨_, rfl⟩
      | some b =>
        rw [hb] at hbox
        obtain ⟨b1, b2⟩ := hbox
        obtain ⟨u, _, hfl⟩ := hd.arith.rounds
        have hm := hd.arith.mono
        exact (C50_given_bbox c.arith.fl _ _ _ _ b).2 ⟨by omega,
          fun a ha => by
            obtain ⟨q1, q2, _, q3, _⟩ := b2 a (by omega)
            rw [q1, q2]; exact q3,
          fun a ha i hi => by
            obtain ⟨_, _, _, _, _, q⟩ := b2 a (by omega)
            exact ⟨hm (q i (by omega)).1, hm (q i (by omega)).2.1⟩,
          fun a ha => by
            obtain ⟨q1, q2, _, _, q4, _⟩ := b2 a (by omega)
            obtain ⟨p1, p2, _⟩ := b2 0 hdims
            rw [q1, q2, p1, p2, q4, sub_self, hfl.zero, abs_zero]
            exact hfl.pos (by norm_num)⟩
    unfold Call.run Call.runBy
    rw [h1]
    show (do
      let root ← rootBox c.arith.fl (c.args.particles.length - 1) (k.nsources + k.ntargets - 1)
        (c.coord k.nsources) (c.rad k.nsources) c.bbox
      _) = _
    rw [h2, h3, r1]
    show (if boxesGuess _ _ _ ≤ 0 then _ else _) = _
    rw [if_pos hg]

/-- **C56**, sources: the tree has the user's sources (and source radii, if given) in a permuted
order, and `user_source_ids` is that order. -/
theorem C56_sources (c : Call) (ns nt : Nat) (dtype : String) (hd : c.Documented ns nt dtype)
    (hw : c.SomeWeight) (t : Built) (h : c.run = .ok t) :
    t.particles.nsources = ns ∧ IsPerm ns t.particles.userSourceIds ∧
    ∀ i < ns, (∀ a, t.sources a i = c.src a (t.particles.userSourceIds i)) ∧
      (c.args.sourceRadii.isSome → t.sourceRadii i = c.srcRadius (t.particles.userSourceIds i)) := by
  obtain ⟨inp, h1, ok, _, hin⟩ :=
    C56_documented_call c ns nt dtype hd hw
  rw [h1] at h
  obtain ⟨q1, _, q3, _, q5, _⟩ := C19_order_is_permutation inp ok t h
  have hnt := hd.shapes.targets
  have q : t.particles.nsources = ns := by
    rw [q1, hin.sourcesAreTargets, hin.n, hin.nsources]
    cases ht : c.args.targets with
    | none => rw [ht] at hnt; simp only at hnt; simp [hnt]
    | some _ => simp
  rw [q] at q3 q5
  refine ⟨q, q3, fun i hi => ⟨fun a => ?_, fun hs => ?_⟩⟩
  · rw [(q5 i hi).1 a, hin.source a _ (q3.1 i hi)]
  · rw [(q5 i hi).2, hin.sourcesHaveExtent, if_pos hs, hin.sourceRadius _ (q3.1 i hi), if_pos hs]

/-- **C56**, targets: with separate targets, `sorted_target_ids` says where in the tree each of the
user's targets is; otherwise it says so for the particles. -/
theorem C56_targets (c : Call) (ns nt : Nat) (dtype : String) (hd : c.Documented ns nt dtype)
    (hw : c.SomeWeight) (t : Built) (h : c.run = .ok t) :
    IsPerm t.particles.ntargets t.particles.sortedTargetIds ∧
    (c.args.targets = none → t.particles.ntargets = ns ∧
      ∀ j < ns, ∀ a, t.targets a (t.particles.sortedTargetIds j) = c.src a j) ∧
    (c.args.targets ≠ none → t.particles.ntargets = nt ∧
      ∀ j < nt, (∀ a, t.targets a (t.particles.sortedTargetIds j) = c.tgt a j) ∧
        (c.args.targetRadii.isSome →
          t.targetRadii (t.particles.sortedTargetIds j) = c.tgtRadius j)) := by
  obtain ⟨inp, h1, ok, _, hin⟩ :=
    C56_documented_call c ns nt dtype hd hw
  rw [h1] at h
  obtain ⟨_, q2, _, q4, _, q6⟩ := C19_order_is_permutation inp ok t h
  have hnt := hd.shapes.targets
  have hst := hin.sourcesAreTargets
  refine ⟨q4, fun ht => ?_, fun ht => ?_⟩
  · rw [ht] at hnt hst
    simp only at hnt
    rw [hst, hin.n, hnt] at q2
    have q : t.particles.ntargets = ns := by simpa using q2
    refine ⟨q, fun j hj a => ?_⟩
    rw [(q6 j (by omega)).1 a]
    unfold Input.targetNumber
    rw [hst]
    exact hin.source a j hj
  · have hst' : inp.sourcesAreTargets = false := by
      rw [hst, Option.isNone_eq_false_iff, Option.isSome_iff_ne_none]
      exact ht
    rw [hst', hin.n, hin.nsources] at q2
    have q : t.particles.ntargets = nt := by simpa using q2
    refine ⟨q, fun j hj => ?_⟩
    have hj' := q6 j (by omega)
    unfold Input.targetNumber at hj'
    rw [hst'] at hj'
    simp only [Bool.false_eq_true, if_false, hin.nsources] at hj'
    exact ⟨fun a => by rw [hj'.1 a, hin.target], fun hs => by
      rw [hj'.2, hin.targetsHaveExtent, if_pos hs, hin.targetRadius, if_pos hs]⟩

/-- **C56**, from the arguments of the tree builder to potentials.  Partial: without
`kind="adaptive-level-restricted"` together with radii (`C20_restricted_extent_loses_particles`). -/
theorem C56_potentials_partial {M : Type} [AddCommMonoid M] (c : Call) (ns nt : Nat) (dtype : String)
    (hd : c.Documented ns nt dtype) (hw : c.SomeWeight)
    (hr : c.args.kind = "adaptive-level-restricted" →
      c.args.sourceRadii = none ∧ c.args.targetRadii = none)
    (t : Built) (h : c.run = .ok t) (tin : TravInput) (htree : tin.tree = t.tree)
    (hst : tin.sourcesAreTargets = c.args.targets.isNone) (hn : 1 ≤ tin.nAway)
    (hs : 0 ≤ tin.stickOut) (he : tin.eps ≤ 1 / 12) (hm : tin.srcMask = none)
    (hm' : tin.srcParentMask = none) (htst : tin.TestsOK) (trav : Traversal)
    (ht : buildTraversal tin = .ok trav) (weights : Nat → M) (i : Nat)
    (hi : i < t.particles.ntargets) :
    Fmm.driveFmm t.tree t.particles.toParticles trav weights i
      = ∑ j ∈ Finset.range ns, weights j := by
  have hns := (C56_sources c ns nt dtype hd hw t h).1
  obtain ⟨inp, h1, ok, _, hin⟩ :=
    C56_documented_call c ns nt dtype hd hw
  rw [h1] at h
  have hreg : inp.Regular := by
    by_cases hl : inp.levelRestrict = true
    · obtain ⟨r1, r2⟩ := hr (hin.levelRestrict.1 hl)
      right
      unfold Input.haveExtent
      rw [hin.sourcesHaveExtent, hin.targetsHaveExtent, r1, r2]
      rfl
    · left
      simpa using hl
  rw [← hns]
  exact C53_fmm_on_built_tree_partial inp ok hreg t h tin
    ⟨htree, by rw [hst, hin.sourcesAreTargets], hn, hs, he, hm, hm', htst⟩ trav ht weights i hi

namespace Ex

/-- Three sources in two dimensions that are also the targets. -/
def call : Call where
  args :=
    { particles := [⟨"float64", 3⟩, ⟨"float64", 3⟩]
      kind := "adaptive"
      maxParticlesInBox := some 1
      targets := none
      sourceRadii := none
      targetRadii := none
      stickOutFactor := none
      refineWeights := none
      maxLeafRefineWeight := none
      extentNorm := none }
  src := fun a p => [[1, 2, 4], [1, 3, 2]].getD a [] |>.getD p 0
  tgt := fun _ _ => 0
  srcRadius := fun _ => 0
  tgtRadius := fun _ => 0
  bbox := none
  skipPrune := false
  pad := fun _ => 0

theorem call_documented : call.Documented 3 0 "float64" where
  shapes :=
    { kind := Or.inl rfl
      norm := Or.inl rfl
      particles := ⟨by decide, by decide⟩
      targets := rfl
      radii := by decide
      sourceRadii := Or.inl rfl
      targetRadii := Or.inl rfl
      nonempty := by decide }
  limit := Or.inl ⟨1, rfl, rfl, rfl, le_refl _⟩
  dtype := Or.inl rfl
  arith := Arith.sound_exact rfl
  coords := fun _ _ _ _ => rfl
  radius_nonneg := by decide +kernel
  box := Or.inr ⟨0, by decide, 0, by decide, 1, by decide, by decide +kernel⟩

/-- The same with two separate targets with radii, a given bounding box and refine weights. -/
def call2 : Call where
  args :=
    { particles := [⟨"float32", 3⟩]
      kind := "non-adaptive"
      maxParticlesInBox := none
      targets := some [⟨"float32", 2⟩]
      sourceRadii := none
      targetRadii := some ("float32", [2])
      stickOutFactor := some (1 / 4)
      refineWeights := some ("int32", [1, 0, 2, 1, 1])
      maxLeafRefineWeight := some 3
      extentNorm := some "l2" }
  src := fun _ p => [1 / 8, 1 / 2, 7 / 8].getD p 0
  tgt := fun _ p => [1 / 4, 3 / 4].getD p 0
  srcRadius := fun _ => 0
  tgtRadius := fun _ => 1 / 16
  bbox := some [(0, 1)]
  skipPrune := false
  pad := fun _ => 0

theorem call2_documented : call2.Documented 3 2 "float32" where
  shapes :=
    { kind := Or.inr (Or.inr rfl)
      norm := Or.inr (Or.inr rfl)
      particles := ⟨by decide, by decide⟩
      targets := ⟨⟨by decide, by decide⟩, rfl⟩
      radii := by decide
      sourceRadii := Or.inl rfl
      targetRadii := Or.inr rfl
      nonempty := by decide }
  limit := Or.inr ⟨_, 3, rfl, rfl, rfl, rfl, by decide +kernel, by decide +kernel⟩
  dtype := Or.inr rfl
  arith := Arith.sound_exact rfl
  coords := fun _ _ _ _ => rfl
  radius_nonneg := by decide +kernel
  box := ⟨rfl, by decide +kernel⟩

end Ex

/-- Both calls return a tree. -/
example : Ex.call.SomeWeight ∧ Ex.call2.SomeWeight ∧
    Ex.look Ex.call.run (fun t => (List.range t.tree.nboxes).map t.tree.parent) = [0, 0, 0, 0] ∧
    Ex.look Ex.call.run (fun t => (List.range 3).map t.particles.userSourceIds) = [0, 1, 2] ∧
    Ex.look Ex.call2.run (fun t => (List.range t.tree.nboxes).map t.tree.parent) = [0, 0, 0] :=
  ⟨Or.inl (by decide), Or.inr ⟨_, _, rfl, 1, by decide, by decide⟩, by decide +kernel,
    by decide +kernel, by decide +kernel⟩

/-- **C56**, finding: refine weights that are all zero are documented to be accepted ("nonnegative"),
but lead to an assertion. -/
theorem C56_zero_weights_rejected : ∃ c : Call, c.Documented 1 1 "float64" ∧ c.SmallLimit ∧
    c.run = .error "AssertionError" := by
  refine ⟨{ Ex.call with
    args := { Ex.call.args with
      particles := [⟨"float64", 1⟩]
      targets := some [⟨"float64", 1⟩]
      maxParticlesInBox := none
      refineWeights := some ("int32", [0, 0])
      maxLeafRefineWeight := some 1 } }, ?_, ?_, ?_⟩
  · exact
    { shapes :=
        { kind := Or.inl rfl
          norm := Or.inl rfl
          particles := ⟨by decide, by decide⟩
          targets := ⟨⟨by decide, by decide⟩, rfl⟩
          radii := by decide
          sourceRadii := Or.inl rfl
          targetRadii := Or.inl rfl
          nonempty := by decide }
      limit := Or.inr ⟨_, 1, rfl, rfl, rfl, rfl, by decide +kernel, by decide +kernel⟩
      dtype := Or.inl rfl
      arith := Arith.sound_exact rfl
      coords := fun _ _ _ _ => rfl
      radius_nonneg := by decide +kernel
      box := Or.inr ⟨0, by decide, 0, by decide, 1, by decide, by decide +kernel⟩ }
  · constructor
    · intro m h; cases h
    · intro m h
      cases h
      norm_num
  · apply Ex.error_of_err
    decide +kernel

/-- **C56**, why the particles must not all be one point: a single particle without a bounding box gives
a root box of extent zero. -/
theorem C56_single_particle_degenerate (x : ℚ) :
    ∃ b, rootBox id 0 0 (fun _ _ => x) (fun _ => 0) none = .ok b ∧ b.ext = 0 := by
  refine ⟨_, rfl, ?_⟩
  simp [maxUpto, autoBox]

end Boxtree.Build
