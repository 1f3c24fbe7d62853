import Verif.Spec.AreaBuilt
import Verif.Lemmas.Fruitful
import Verif.Props.AreaF
import Verif.Props.Rounding
import Verif.Props.LevelEnds

/-!
# C69: area queries on the trees that the tree builder returns

The statements about area queries (C31–C34, C68) have hypotheses on the tree.  Here they are derived
from the arguments of the tree builder.
-/

namespace Boxtree.Build
open BoxTree Area

section
variable {inp : Input} {t : Built}

theorem Input.SplitsMove.regular (h : inp.SplitsMove) : inp.Regular :=
  h.elim Or.inr fun h => Or.inl h.2

/-- The flags for children of a built tree are exact. -/
theorem childFlags_built (ok : inp.OK) (hm : inp.SplitsMove ∨ inp.skipPrune = true ∧ inp.Regular)
    (h : inp.build = .ok t) : t.tree.ChildFlagsOK := by
  have hr : inp.Regular := hm.elim Input.SplitsMove.regular (·.2)
  obtain ⟨L, s, rfl, hf, hb⟩ := Input.build_fin ok hr h
  refine hf.childFlags ?_
  rcases hm with (he | ⟨ha, hl⟩) | ⟨hs, _⟩
  · exact Or.inr (Or.inl he)
  · exact Or.inr (Or.inr (buildLevels_fruitful (Input.mortOK inp) ha hl hb))
  · exact Or.inl hs

/-- The root box begins at the lower corner of the bounding box. -/
theorem built_lower (ok : inp.OK) (h : inp.build = .ok t) {a : Nat} (ha : a < inp.dims) :
    t.tree.lo 0 a = inp.lo a := by
  obtain ⟨hw, _, _, _, he, hcen⟩ := C52_built_tree_wf inp ok t h
  unfold BoxTree.lo BoxTree.rad
  rw [hcen, hw.level_root, he, ok.cube a ha]
  norm_num

/-- In a pruned tree there is a particle in every box, whatever "in" means. -/
theorem exists_particle {len : Nat → Nat} {L : Nat} {s : State}
    (hf : FinOK inp.params false len L s) {b : Nat}
    (hb : b < (finish inp.params inp.cloud false len L s).tree.nboxes) :
    ∃ p l k, p < inp.n ∧ Kept false s l k ∧ b = nid false len L s l k ∧
      PathOK inp.params s.parent p l k := by
  have hc := fin_count_pos hf hb
  have hq := hf.flatOK.within _ b rfl hb hc
  have hq' : (FinOK.fin inp.params false len L s).start b < inp.params.n := by omega
  obtain ⟨l, k, h1, h2, h3⟩ := hf.path_of_mem hb hq' (le_refl _) (by omega)
  exact ⟨_, l, k, hf.inv.ids_lt _ hq', h1, h2.symm, h3⟩

/-- In a pruned tree every leaf contains a particle below the margin. -/
theorem occupied_built (ok : inp.Placed) (hx : inp.arith = .exact) (hs : inp.skipPrune = false)
    (hr : inp.Regular) (hm : inp.BelowMargin 0) (h : inp.build = .ok t) : t.tree.LeavesOccupied := by
  obtain ⟨_, _, _, hd, he, hcen⟩ := C52_built_tree_wf inp ok.toOK t h
  have hlo := fun a ha => built_lower ok.toOK h (a := a) ha
  obtain ⟨L, s, rfl, hf, hb⟩ := Input.build_fin ok.toOK hr h
  rw [hs] at hf hlo he ⊢
  intro b hb _
  obtain ⟨p, l, k, hp, hk, rfl, hpath⟩ := exists_particle hf hb
  have hin := inside ok hx hf hp hk hpath (y := fun a => inp.x a p) fun _ => rfl
  refine ⟨fun a => inp.x a p, fun a ha => ⟨⟨(hin a ha).1, (hin a ha).2.le⟩, ?_⟩⟩
  rw [hlo a ha, he, ← ok.cube a ha]
  have h1 := hm a ha p hp
  have h2 : inp.x a p - inp.lo a ≤ inp.ext a / (1 + 1 / 10000) := by
    rw [le_div_iff₀ (by norm_num)]
    norm_num at h1 ⊢
    linarith
  linarith

/-- The bounding box is not larger than the bound on the coordinates. -/
theorem built_size (ok : inp.OK) (h : inp.build = .ok t) {M : ℚ}
    (hM : ∀ a < inp.dims, |t.tree.center 0 a| + t.tree.rootExtent ≤ M) {a : Nat}
    (ha : a < inp.dims) : |inp.lo a| + inp.ext a ≤ 3 / 2 * M := by
  obtain ⟨_, _, _, hd, he, hcen⟩ := C52_built_tree_wf inp ok t h
  have h1 := hM a ha
  rw [hcen, he, ok.cube a ha] at h1
  have h2 := ok.ext_pos
  have h3 := abs_sub_abs_le_abs_sub (inp.lo a) (inp.lo a + inp.ext 0 / 2)
  have h4 : |inp.lo a - (inp.lo a + inp.ext 0 / 2)| = inp.ext 0 / 2 := by
    rw [show inp.lo a - (inp.lo a + inp.ext 0 / 2) = -(inp.ext 0 / 2) by ring, abs_neg,
      abs_of_pos (by linarith)]
  have h5 := abs_nonneg (inp.lo a + inp.ext 0 / 2)
  rw [ok.cube a ha]
  linarith

/-- If the stretch of the bounding box is not lost by rounding, rounding errors are small. -/
theorem built_unit (ok : inp.OK) (h : inp.build = .ok t) {u M : ℚ}
    (hM : ∀ a < inp.dims, |t.tree.center 0 a| + t.tree.rootExtent ≤ M)
    (hst : 200000 * u * M ≤ t.tree.rootExtent) : u ≤ 1 / 200000 := by
  have h1 := hM 0 ok.dims_pos
  have h2 := ok.ext_pos
  rw [(C52_built_tree_wf inp ok t h).2.2.2.2.1] at hst h1
  have h3 := abs_nonneg (t.tree.center 0 0)
  by_contra hc
  push Not at hc
  have h4 := mul_lt_mul_of_pos_right hc (show 0 < M by linarith)
  linarith

/-- If the stretch of the bounding box is not lost by rounding, there is room at its upper faces. -/
theorem built_room (ok : inp.OK) (h : inp.build = .ok t) {u M : ℚ} (hu : 0 ≤ u)
    (hM : ∀ a < inp.dims, |t.tree.center 0 a| + t.tree.rootExtent ≤ M)
    (hst : 200000 * u * M ≤ t.tree.rootExtent) (hm : inp.BelowMargin u) : inp.Room u := by
  intro a ha p hp
  have hu' := built_unit ok h hM hst
  have h1 := mul_le_mul_of_nonneg_left (built_size ok h hM ha) (show 0 ≤ 5 * u by linarith)
  have h2 := hm a ha p hp
  have h3 := ok.ext_pos
  rw [(C52_built_tree_wf inp ok t h).2.2.2.2.1] at hst
  rw [ok.cube a ha] at h1 h2 ⊢
  have h4 := mul_le_mul_of_nonneg_right hu' h3.le
  norm_num at h2
  linarith

/-- In a pruned tree every leaf contains a particle below the margin, up to rounding errors. -/
theorem near_built {fl rt : ℚ → ℚ} {u M : ℚ} (ok : inp.NearlyPlaced u) (hfl : Rounds fl u)
    (hx : inp.arith = .rounded fl rt) (room : inp.Room u) (hs : inp.skipPrune = false)
    (hr : inp.Regular) (hm : inp.BelowMargin u)
    (hM : ∀ a < inp.dims, |t.tree.center 0 a| + t.tree.rootExtent ≤ M)
    (h : inp.build = .ok t) : t.tree.LeavesNear (20 * (u * M)) := by
  obtain ⟨_, _, _, hd, he, hcen⟩ := C52_built_tree_wf inp ok.toOK t h
  have hu := hfl.nonneg_u
  have hlo := fun a ha => built_lower ok.toOK h (a := a) ha
  have hsize : ∀ a < inp.dims, 5 * u * (|inp.lo a| + inp.ext a) + 4 * (u * inp.ext a) ≤
      20 * (u * M) ∧ 0 ≤ u * inp.ext a := by
    intro a ha
    have h1 := mul_le_mul_of_nonneg_left (built_size ok.toOK h hM ha) (show 0 ≤ 5 * u by linarith)
    have h2 := hM a ha
    rw [he] at h2
    have h3 := ok.ext_pos
    have h4 := abs_nonneg (t.tree.center 0 a)
    have h5 : 0 ≤ u * M := mul_nonneg hu (by linarith)
    have h6 := mul_le_mul_of_nonneg_left (show inp.ext 0 ≤ M by linarith) hu
    rw [ok.cube a ha] at h1 ⊢
    exact ⟨by linarith, mul_nonneg hu h3.le⟩
  obtain ⟨L, s, rfl, hf, hb⟩ := Input.build_fin ok.toOK hr h
  rw [hs] at hf hlo he ⊢
  intro b hb _
  obtain ⟨p, l, k, hp, hk, rfl, hpath⟩ := exists_particle hf hb
  have hin := near_inside ok hfl room hx hf hp hk hpath (y := fun a => inp.x a p) fun _ => rfl
  refine ⟨fun a => inp.x a p, fun a ha => ⟨⟨?_, ?_⟩, ?_⟩⟩
  · have := (hin a ha).1
    obtain ⟨h2, h3⟩ := hsize a ha
    unfold BoxTree.lo
    linarith
  · have := (hin a ha).2
    obtain ⟨h2, h3⟩ := hsize a ha
    unfold BoxTree.hi
    linarith
  rw [hlo a ha, he, ← ok.cube a ha]
  have h1 := hm a ha p hp
  have h2 : inp.x a p - inp.lo a ≤ (inp.ext a + 4 * (u * inp.ext a)) / (1 + 1 / 10000) := by
    rw [le_div_iff₀ (by norm_num)]
    norm_num at h1 ⊢
    linarith
  obtain ⟨h3, h6⟩ := hsize a ha
  have h4 : 0 ≤ 5 * u * (|inp.lo a| + inp.ext a) := by
    have h5 := ok.ext_pos
    rw [ok.cube a ha]
    have h6 := abs_nonneg (inp.lo a)
    exact mul_nonneg (by linarith) (by linarith)
  rw [add_div] at h2
  have h7 : 4 * (u * inp.ext a) / (1 + 1 / 10000) ≤ 4 * (u * inp.ext a) :=
    div_le_self (by linarith) (by norm_num)
  linarith

/-- Without extents only leaves own particles. -/
theorem leaf_of_own (ok : inp.OK) (he : inp.haveExtent = false) (h : inp.build = .ok t) {b : Nat}
    (hb : b < t.tree.nboxes) (hown : 0 < t.particles.srcCount b ∨ 0 < t.particles.tgtCount b) :
    t.tree.IsLeaf b := by
  obtain ⟨L, s, rfl, hf, _⟩ := Input.build_fin ok (Or.inr he) h
  have hF := hf.flatOK
  intro m _
  by_contra hne
  have hc := (hF.child_parent m b hb hne).2.2
  have h0 : fown (FinOK.fin inp.params inp.skipPrune (fun l => s.used l + inp.pad l) L s) b = 0 := by
    unfold fown
    rw [if_pos hc, fin_nonchild_zero he]
  have key : ∀ (kind : Nat → Prop) [DecidablePred kind] (st non cu : Nat → Nat),
      KindOK (FinOK.fin inp.params inp.skipPrune (fun l => s.used l + inp.pad l) L s) kind st non cu →
      non b = 0 := by
    intro kind _ st non cu hk
    rcases Nat.eq_zero_or_pos
      ((FinOK.fin inp.params inp.skipPrune (fun l => s.used l + inp.pad l) L s).count b) with hz | hz
    · exact (hk.zero b hb hz).1
    · rw [hk.non_eq b hb hz, h0]; simp
  have h1 := key _ _ _ _ (srcKind (C := inp.cloud) hf)
  have h2 := key _ _ _ _ (tgtKind (C := inp.cloud) hf)
  omega

theorem Input.AutoBox.below (h : inp.AutoBox) (ok : inp.OK) {u : ℚ} (hu : u ≤ 1 / 40000)
    (hfl : Rounds inp.arith.fl u) (hm : Monotone inp.arith.fl)
    (hx : ∀ a < inp.dims, ∀ p < inp.n, inp.arith.fl (inp.x a p) = inp.x a p) :
    inp.BelowMargin u := by
  intro a ha p hp
  have hu0 := hfl.nonneg_u
  have h0 := ok.radius_nonneg p hp
  have e := hx a ha p hp
  have g1 : inp.lo a ≤ inp.x a p := by
    calc _ ≤ _ := h.least a ha p hp
      _ ≤ inp.arith.fl (inp.x a p) := hm (by linarith)
      _ = _ := e
  have g2 : inp.x a p ≤ inp.arith.fl (inp.x a p + inp.radius p) := by
    calc _ = inp.arith.fl (inp.x a p) := e.symm
      _ ≤ _ := hm (by linarith)
  have h3 := (stretch_le hfl hu (show 0 ≤ inp.arith.fl (inp.x a p + inp.radius p) - inp.lo a by
    linarith)).trans (h.upper a ha p hp)
  have h4 := mul_le_mul_of_nonneg_left h3 (show 0 ≤ 1 + 4 * u by linarith)
  refine le_trans ?_ h4
  have h5 : 1 ≤ (1 + 4 * u) * (1 - 3 * u) := by nlinarith
  have h6 : inp.x a p - inp.lo a ≤ inp.arith.fl (inp.x a p + inp.radius p) - inp.lo a := by linarith
  calc (inp.x a p - inp.lo a) * (1 + 1 / 10 ^ 4)
      ≤ 1 * (inp.arith.fl (inp.x a p + inp.radius p) - inp.lo a) * (1 + 1 / 10 ^ 4) := by
        rw [one_mul]; exact mul_le_mul_of_nonneg_right h6 (by norm_num)
    _ ≤ (1 + 4 * u) * (1 - 3 * u) * (inp.arith.fl (inp.x a p + inp.radius p) - inp.lo a)
        * (1 + 1 / 10 ^ 4) :=
        mul_le_mul_of_nonneg_right (mul_le_mul_of_nonneg_right h5 (by linarith)) (by norm_num)
    _ = _ := by ring

end

theorem Call.InputOf.splitsMove {c : Call} {ns nt : Nat} {dtype : String} {inp : Input}
    (hin : c.InputOf ns nt dtype inp) (hm : c.SplitsMove) : inp.SplitsMove := by
  rcases hm with ⟨e1, e2⟩ | e
  · left
    unfold Input.haveExtent
    rw [hin.sourcesHaveExtent, hin.targetsHaveExtent, e1, e2]
    rfl
  · right
    constructor
    · by_contra hc
      rw [Bool.not_eq_true, hin.adaptive, e] at hc
      exact absurd hc (by decide)
    · by_contra hc
      rw [Bool.not_eq_false, hin.levelRestrict, e] at hc
      exact absurd hc (by decide)

theorem Call.InputOf.below {c : Call} {ns nt : Nat} {dtype : String} {inp : Input}
    (hin : c.InputOf ns nt dtype inp) (hd : c.Documented ns nt dtype) (ok : inp.OK)
    (hb : c.bbox = none) {u : ℚ} (hu : u ≤ 1 / 40000) (hfl : Rounds c.arith.fl u) :
    inp.BelowMargin u :=
  (hin.automatic hb).below ok hu (by rw [hin.arith]; exact hfl) (by rw [hin.arith]; exact hd.arith.mono)
    fun a ha p hp => by
      rw [hin.dims] at ha; rw [hin.n] at hp
      rw [hin.arith, hin.coord]
      exact hd.coords a ha p hp

/-- What the statements about area queries ask of a tree holds for the trees of documented calls. -/
theorem documented_area {c : Call} {ns nt : Nat} {dtype : String} (hd : c.Documented ns nt dtype)
    (hw : c.SomeWeight) (hm : c.SplitsMove) {t : Built} (h : c.run = .ok t) :
    t.tree.WF ∧ t.tree.ChildFlagsOK ∧ (c.skipPrune = false → c.arith = .exact → c.bbox = none →
      t.tree.LeavesOccupied) := by
  obtain ⟨inp, h1, ok, _, hin⟩ := C56_documented_call c ns nt dtype hd hw
  rw [h1] at h
  have hm' := hin.splitsMove hm
  refine ⟨(C52_built_tree_wf inp ok t h).1, childFlags_built ok (Or.inl hm') h, fun hs hx hb => ?_⟩
  have hfl : c.arith.fl = id := by rw [hx]; rfl
  exact occupied_built (C56_placed c ns nt dtype hd hfl inp ok hin) (hin.arith.trans hx)
    (hin.prune.trans hs) hm'.regular (hin.below hd ok hb (by norm_num)
      (by rw [hfl]; exact Rounds.exact)) h

/-- **C69**, peer lists: in every tree that a documented call returns, the peer list of every box
consists of exactly its peers, each once.  Not for particles with extents in a non-adaptive or
level-restricted tree (`C69_held_back_fails`). -/
theorem C69_peer_lists_partial (c : Call) (ns nt : Nat) (dtype : String)
    (hd : c.Documented ns nt dtype) (hw : c.SomeWeight) (hm : c.SplitsMove) (t : Built) (h : c.run = .ok t) (b : Nat)
    (hb : b < t.tree.nboxes) :
    ((peerLists t.tree).row b).Nodup ∧ ∀ q, q ∈ (peerLists t.tree).row b ↔ t.tree.IsPeer b q :=
  have ha := documented_area hd hw hm h
  C31_peer_lists ha.1 ha.2.1 b hb

/-- **C69**, area query: if the bounding box is automatic and empty boxes are removed, an area query
lists for each ball exactly the leaf boxes that meet it, each once.  Partial: not with a given bounding
box (`C32_leaf_in_margin_missed`) or with the modes of `C69_held_back_fails`. -/
theorem C69_area_query_partial (c : Call) (ns nt : Nat) (dtype : String)
    (hd : c.Documented ns nt dtype) (hw : c.SomeWeight) (hm : c.SplitsMove) (hs : c.skipPrune = false) (hx : c.arith = .exact)
    (hbox : c.bbox = none) (t : Built) (h : c.run = .ok t)
    {bmin : Nat → ℚ} (hbm : ∀ i, i < t.tree.dims → bmin i = t.tree.lo 0 i) (balls : List Ball)
    {peers : Option BuiltList} (hp : peers = none ∨ peers = some (peerLists t.tree)) :
    ∃ aq, areaQuery t.tree bmin balls peers = .ok aq ∧ aq.starts.length = balls.length + 1 ∧
      ∀ (i : Nat) (hi : i < balls.length), 0 ≤ balls[i].radius →
        (aq.row i).Nodup ∧ ∀ b, b ∈ aq.row i ↔
          b < t.tree.nboxes ∧ t.tree.IsLeaf b ∧
            t.tree.MeetsBall b balls[i].center balls[i].radius :=
  have ha := documented_area hd hw hm h
  C32_area_query ha.1 ha.2.1 (ha.2.2 hs hx hbox) hbm balls hp

/-- **C69**, particles: without extents, an area query finds for each ball all of the user's sources
and targets in it. -/
theorem C69_finds_particles_partial (c : Call) (ns nt : Nat) (dtype : String)
    (hd : c.Documented ns nt dtype) (hw : c.SomeWeight)
    (hr : c.args.sourceRadii = none ∧ c.args.targetRadii = none)
    (hs : c.skipPrune = false) (hx : c.arith = .exact)
    (hbox : c.bbox = none) (t : Built) (h : c.run = .ok t)
    {bmin : Nat → ℚ} (hbm : ∀ i, i < t.tree.dims → bmin i = t.tree.lo 0 i) (balls : List Ball)
    {peers : Option BuiltList} (hp : peers = none ∨ peers = some (peerLists t.tree))
    (aq : BuiltList) (hq : areaQuery t.tree bmin balls peers = .ok aq) (i : Nat)
    (hi : i < balls.length) :
    (∀ p < ns, (∀ a < c.args.particles.length, |c.src a p - balls[i].center a| ≤ balls[i].radius) →
      ∃ b ∈ aq.row i, ∃ j ∈ span t.particles.srcStart t.particles.srcCount b,
        t.particles.userSourceIds j = p) ∧
    (∀ q < nt, (∀ a < c.args.particles.length, |c.tgt a q - balls[i].center a| ≤ balls[i].radius) →
      ∃ b ∈ aq.row i, t.particles.sortedTargetIds q ∈
        span t.particles.tgtStart t.particles.tgtCount b) := by
  obtain ⟨aq', hq', _, hrow⟩ := C69_area_query_partial c ns nt dtype hd hw (Or.inl hr) hs hx hbox
    t h hbm balls hp
  obtain rfl : aq' = aq := by rw [hq'] at hq; exact Except.ok.inj hq
  obtain ⟨s1, s2, s3⟩ := C56_sources c ns nt dtype hd hw t h
  obtain ⟨t1, t2, t3⟩ := C56_targets c ns nt dtype hd hw t h
  have hnt := hd.shapes.targets
  obtain ⟨inp, h1, ok, _, hin⟩ := C56_documented_call c ns nt dtype hd hw
  rw [h1] at h
  have he : inp.haveExtent = false := by
    unfold Input.haveExtent
    rw [hin.sourcesHaveExtent, hin.targetsHaveExtent, hr.1, hr.2]
    rfl
  have hdim : t.tree.dims = c.args.particles.length := by
    rw [(C52_built_tree_wf inp ok t h).2.2.2.1, hin.dims]
  obtain ⟨n1, n2⟩ := C20_nested_ranges_partial inp ok (Or.inr he) t h
  have meets : ∀ b, ∀ y : Nat → ℚ, InBox t.tree b y →
      (∀ a < c.args.particles.length, |y a - balls[i].center a| ≤ balls[i].radius) →
      t.tree.MeetsBall b balls[i].center balls[i].radius := by
    intro b y hy hball
    refine ⟨y, fun a ha => ⟨⟨(hy a ha).1, (hy a ha).2.le⟩, hball a (hdim ▸ ha)⟩⟩
  have hrad : ∀ y : Nat → ℚ,
      (∀ a < c.args.particles.length, |y a - balls[i].center a| ≤ balls[i].radius) →
      0 ≤ balls[i].radius := fun y hy =>
    le_trans (abs_nonneg _) (hy 0 (List.length_pos_iff.2 hd.shapes.particles.1))
  constructor
  · intro p hp hball
    obtain ⟨j, hj, rfl⟩ := s2.2.2 p hp
    rw [s1] at n1
    obtain ⟨b, hb, hbj, _⟩ := n1.partition j hj
    have hcum : j ∈ span t.particles.srcStart t.particles.srcCumul b := by
      rw [n1.nested b hb]; exact List.mem_append_left _ hbj
    have hbox' := (C21_particles_in_box_partial inp (C56_placed c ns nt dtype hd
      (by rw [hx]; rfl) inp ok hin) (hin.arith.trans hx) t h b hb).1 j hcum
    have hleaf := leaf_of_own ok he h hb (Or.inl (by
      unfold span at hbj; rw [List.mem_range'_1] at hbj; omega))
    refine ⟨b, ((hrow i hi (hrad _ hball)).2 b).2 ⟨hb, hleaf, ?_⟩, j, hbj, rfl⟩
    exact meets b _ hbox' fun a ha => by rw [(s3 j hj).1 a]; exact hball a ha
  · intro q hq hball
    have hsep : c.args.targets ≠ none := by
      intro hc
      rw [hc] at hnt
      simp only at hnt
      omega
    obtain ⟨e1, e2⟩ := t3 hsep
    rw [e1] at t1 n2
    obtain ⟨b, hb, hbj, _⟩ := n2.partition _ (t1.1 q hq)
    have hcum : t.particles.sortedTargetIds q ∈
        span t.particles.tgtStart t.particles.tgtCumul b := by
      rw [n2.nested b hb]; exact List.mem_append_left _ hbj
    have hbox' := (C21_particles_in_box_partial inp (C56_placed c ns nt dtype hd
      (by rw [hx]; rfl) inp ok hin) (hin.arith.trans hx) t h b hb).2 _ hcum
    have hleaf := leaf_of_own ok he h hb (Or.inr (by
      unfold span at hbj; rw [List.mem_range'_1] at hbj; omega))
    refine ⟨b, ((hrow i hi (hrad _ hball)).2 b).2 ⟨hb, hleaf, ?_⟩, hbj⟩
    exact meets b _ hbox' fun a ha => by rw [(e2 q hq).1 a]; exact hball a ha

/-- **C69**, lookup table: it lists for each leaf box exactly the balls that meet it, each once. -/
theorem C69_leaves_to_balls_partial (c : Call) (ns nt : Nat) (dtype : String)
    (hd : c.Documented ns nt dtype) (hw : c.SomeWeight) (hm : c.SplitsMove)
    (hs : c.skipPrune = false) (hx : c.arith = .exact) (hbox : c.bbox = none) (t : Built)
    (h : c.run = .ok t) {bmin : Nat → ℚ} (hbm : ∀ i, i < t.tree.dims → bmin i = t.tree.lo 0 i)
    (balls : List Ball) (hr : ∀ ball ∈ balls, 0 ≤ ball.radius)
    {argsort : List Nat → List Nat} (ha : IsArgsort argsort)
    {peers : Option BuiltList} (hp : peers = none ∨ peers = some (peerLists t.tree)) :
    ∃ lb, leavesToBalls t.tree argsort bmin balls peers = .ok (some lb) ∧
      lb.starts.length = t.tree.nboxes + 1 ∧
      ∀ b, b < t.tree.nboxes → (lb.row b).Nodup ∧ ∀ i, i ∈ lb.row b ↔
        ∃ h : i < balls.length, t.tree.IsLeaf b ∧
          t.tree.MeetsBall b balls[i].center balls[i].radius :=
  have hb := documented_area hd hw hm h
  C33_leaves_to_balls hb.1 hb.2.1 (hb.2.2 hs hx hbox) hbm balls hr ha hp

/-- **C69**, space invader: for each leaf box, whatever the order of the atomic updates, the result
is the greatest center distance of a ball that meets it. -/
theorem C69_space_invader_partial (c : Call) (ns nt : Nat) (dtype : String)
    (hd : c.Documented ns nt dtype) (hw : c.SomeWeight) (hm : c.SplitsMove)
    (hs : c.skipPrune = false) (hx : c.arith = .exact) (hbox : c.bbox = none) (t : Built)
    (h : c.run = .ok t) {bmin : Nat → ℚ} (hbm : ∀ i, i < t.tree.dims → bmin i = t.tree.lo 0 i)
    (balls : List Ball) (hr : ∀ ball ∈ balls, 0 ≤ ball.radius) {asInt : ℚ → ℤ} (h0 : asInt 0 = 0)
    (hmono : ∀ x y, 0 ≤ x → x ≤ y → asInt x ≤ asInt y) (schedule : List (Nat × ℤ))
    (hsch : schedule.Perm
      (balls.flatMap (invaderUpdates t.tree asInt bmin (peerLists t.tree)))) :
    (spaceInvader t.tree schedule).length = t.tree.nboxes ∧
    ∀ b, b < t.tree.nboxes → ∃ D, IsGreatest (InvaderDists t.tree balls b) D ∧
      (spaceInvader t.tree schedule).getD b 0 = asInt D :=
  have hb := documented_area hd hw hm h
  C34_space_invader hb.1 hb.2.1 (hb.2.2 hs hx hbox) hbm balls hr h0 hmono schedule hsch

/-- The same for a call in floating point arithmetic. -/
theorem documented_area_rounded {c : Call} {ns nt : Nat} {dtype : String}
    (hd : c.Documented ns nt dtype) (hw : c.SomeWeight) (hm : c.SplitsMove)
    (hs : c.skipPrune = false) {fl rt hf : ℚ → ℚ} {c0 bmin : Nat → ℚ} {u M : ℚ}
    (hx : c.arith = .rounded fl rt) (hbox : c.bbox = none) {t : Built} (h : c.run = .ok t)
    (hA : RoundedArea t.tree fl hf c0 bmin u M) :
    t.tree.ChildFlagsOK ∧ t.tree.LeavesNear (20 * (u * M)) := by
  refine ⟨(documented_area hd hw hm h).2.1, ?_⟩
  obtain ⟨inp, h1, ok, _, hin⟩ := C56_documented_call c ns nt dtype hd hw
  rw [h1] at h
  have hm' := hin.splitsMove hm
  have hM : ∀ a < inp.dims, |t.tree.center 0 a| + t.tree.rootExtent ≤ M := fun a ha =>
    hA.fine.size a ((C52_built_tree_wf inp ok t h).2.2.2.1 ▸ ha)
  have hu : u ≤ 1 / 40000 :=
    (built_unit ok h hM hA.stretch).trans (by norm_num)
  have hfl : Rounds c.arith.fl u := by rw [hx]; exact hA.rounds
  have hbelow := hin.below hd ok hbox hu hfl
  exact near_built (C56_particles_placed c ns nt dtype hd inp ok hin u hu hfl).1 hA.rounds
    (hin.arith.trans hx) (built_room ok h hA.rounds.nonneg_u hM hA.stretch hbelow)
    (hin.prune.trans hs) hm'.regular hbelow hM h

/-- **C69**, area query in floating point arithmetic: when the tree builder and the area query both
round, an area query lists for each ball, each once, only leaf boxes that meet a ball with a slightly
larger radius, and all leaf boxes that meet a ball with a slightly smaller radius. -/
theorem C69_area_query_rounded_partial (c : Call) (ns nt : Nat) (dtype : String)
    (hd : c.Documented ns nt dtype) (hw : c.SomeWeight) (hm : c.SplitsMove)
    (hs : c.skipPrune = false) (fl rt hf : ℚ → ℚ) (c0 bmin : Nat → ℚ) (u M : ℚ)
    (hx : c.arith = .rounded fl rt) (hbox : c.bbox = none) (t : Built) (h : c.run = .ok t)
    (hA : RoundedArea t.tree fl hf c0 bmin u M) (balls : List Ball) {peers : Option BuiltList}
    (hp : peers = none ∨ peers = some (peerLists t.tree (adjacentF t.tree fl c0))) :
    ∃ aq, areaQuery t.tree bmin balls peers (guidingBoxF t.tree fl hf bmin)
        (ballOverlapsF t.tree fl c0) (adjacentF t.tree fl c0) = .ok aq ∧
      aq.starts.length = balls.length + 1 ∧
      ∀ (i : Nat) (hi : i < balls.length), 0 ≤ balls[i].radius →
        (aq.row i).Nodup ∧
        (∀ b ∈ aq.row i, b < t.tree.nboxes ∧ t.tree.IsLeaf b ∧ t.tree.MeetsBall b balls[i].center
          (balls[i].radius + ballTol t.tree u M balls[i].radius)) ∧
        ∀ b, b < t.tree.nboxes → t.tree.IsLeaf b → t.tree.MeetsBall b balls[i].center
          (balls[i].radius - ballTol t.tree u M balls[i].radius) → b ∈ aq.row i :=
  have hb := documented_area_rounded hd hw hm hs hx hbox h hA
  C68_area_query hA hb.1 hb.2 balls hp

/-- **C69**, lookup table in floating point arithmetic. -/
theorem C69_leaves_to_balls_rounded_partial (c : Call) (ns nt : Nat) (dtype : String)
    (hd : c.Documented ns nt dtype) (hw : c.SomeWeight) (hm : c.SplitsMove)
    (hs : c.skipPrune = false) (fl rt hf : ℚ → ℚ) (c0 bmin : Nat → ℚ) (u M : ℚ)
    (hx : c.arith = .rounded fl rt) (hbox : c.bbox = none) (t : Built) (h : c.run = .ok t)
    (hA : RoundedArea t.tree fl hf c0 bmin u M) (balls : List Ball)
    (hr : ∀ ball ∈ balls, 0 ≤ ball.radius) {argsort : List Nat → List Nat} (ha : IsArgsort argsort)
    {peers : Option BuiltList}
    (hp : peers = none ∨ peers = some (peerLists t.tree (adjacentF t.tree fl c0))) :
    ∃ lb, leavesToBalls t.tree argsort bmin balls peers (guidingBoxF t.tree fl hf bmin)
        (ballOverlapsF t.tree fl c0) (adjacentF t.tree fl c0) = .ok (some lb) ∧
      lb.starts.length = t.tree.nboxes + 1 ∧
      ∀ b, b < t.tree.nboxes → (lb.row b).Nodup ∧
        (∀ i ∈ lb.row b, ∃ h : i < balls.length, t.tree.IsLeaf b ∧ t.tree.MeetsBall b
          balls[i].center (balls[i].radius + ballTol t.tree u M balls[i].radius)) ∧
        ∀ (i : Nat) (hi : i < balls.length), t.tree.IsLeaf b → t.tree.MeetsBall b balls[i].center
          (balls[i].radius - ballTol t.tree u M balls[i].radius) → i ∈ lb.row b :=
  have hb := documented_area_rounded hd hw hm hs hx hbox h hA
  C68_leaves_to_balls hA hb.1 hb.2 balls hr ha hp

/-- **C69**, space invader query in floating point arithmetic. -/
theorem C69_space_invader_rounded_partial (c : Call) (ns nt : Nat) (dtype : String)
    (hd : c.Documented ns nt dtype) (hw : c.SomeWeight) (hm : c.SplitsMove)
    (hs : c.skipPrune = false) (fl rt hf : ℚ → ℚ) (c0 bmin : Nat → ℚ) (u M : ℚ)
    (hx : c.arith = .rounded fl rt) (hbox : c.bbox = none) (t : Built) (h : c.run = .ok t)
    (hA : RoundedArea t.tree fl hf c0 bmin u M) (balls : List Ball)
    (hr : ∀ ball ∈ balls, 0 ≤ ball.radius) {asInt : ℚ → ℤ} (h0 : asInt 0 = 0)
    (hmono : ∀ x y, 0 ≤ x → x ≤ y → asInt x ≤ asInt y) (schedule : List (Nat × ℤ))
    (hsch : schedule.Perm (balls.flatMap fun ball => invaderUpdates t.tree asInt bmin
      (peerLists t.tree (adjacentF t.tree fl c0)) ball (guidingBoxF t.tree fl hf bmin)
      (ballOverlapsF t.tree fl c0)
      (fun ball leaf => t.tree.linfF fl ball.center (t.tree.storedCenter fl c0 leaf)))) :
    (spaceInvader t.tree schedule).length = t.tree.nboxes ∧
    ∀ b, b < t.tree.nboxes → ∃ D, (spaceInvader t.tree schedule).getD b 0 = asInt D ∧
      (∀ ball ∈ balls, t.tree.IsLeaf b →
        t.tree.MeetsBall b ball.center (ball.radius - ballTol t.tree u M ball.radius) →
        ∀ i, i < t.tree.dims →
          |ball.center i - t.tree.center b i| - ballTol t.tree u M ball.radius ≤ D) ∧
      (D = 0 ∨ t.tree.IsLeaf b ∧ ∃ ball ∈ balls,
        t.tree.MeetsBall b ball.center (ball.radius + ballTol t.tree u M ball.radius) ∧
        ∃ i, i < t.tree.dims ∧
          |D - (|ball.center i - t.tree.center b i|)| ≤ ballTol t.tree u M ball.radius) :=
  have hb := documented_area_rounded hd hw hm hs hx hbox h hA
  C68_space_invader hA hb.1 hb.2 balls hr h0 hmono schedule hsch

/-! ### the hypotheses can be met, and the one on the mode is needed -/

namespace Ex

/-- All hypotheses on the call hold together, and it returns a tree. -/
example : call.SplitsMove ∧ call.skipPrune = false ∧ call.arith = .exact ∧ call.bbox = none ∧
    look call.run (fun t => [(areaQuery t.tree (fun _ => 1) [⟨fun _ => 2, 1 / 2⟩, ⟨fun _ => 9, 1⟩,
      ⟨fun _ => 3, 2⟩] none).toOption.map fun aq => (List.range 3).map aq.row])
      = [some [[1], [], [1, 2, 3]]] :=
  ⟨Or.inl ⟨rfl, rfl⟩, rfl, rfl, rfl, by decide +kernel⟩

/-- Three sources on a line, in single precision. -/
def lineCall : Call where
  args := { call.args with particles := [⟨"float32", 3⟩] }
  src := fun _ p => [0, 2, 8387769 / 1048576].getD p 0
  tgt := fun _ _ => 0
  srcRadius := fun _ => 0
  tgtRadius := fun _ => 0
  bbox := none
  skipPrune := false
  pad := fun _ => 0
  arith := .rounded (roundEven 24) (rootTo 24)

theorem lineCall_documented : lineCall.Documented 3 0 "float32" where
  shapes :=
    { kind := Or.inl rfl
      norm := Or.inl rfl
      particles := ⟨by decide, by decide⟩
      targets := rfl
      radii := by decide
      sourceRadii := Or.inl rfl
      targetRadii := Or.inl rfl
      nonempty := by decide }
  limit := Or.inl ⟨1, rfl, rfl, rfl, le_refl _⟩
  dtype := Or.inr rfl
  arith := Arith.sound_roundEven (p := 24) (by decide) rfl
  coords := by decide +kernel
  radius_nonneg := by decide +kernel
  box := Or.inr ⟨0, by decide, 0, by decide, 1, by decide, by decide +kernel⟩

theorem halves24' (l : Nat) : roundEven 24 (8 / 2 ^ l) = 8 / 2 ^ l := by
  have := _root_.Boxtree.Ex.halves24 (l + 1)
  rw [pow_succ, show (16 : ℚ) / (2 ^ l * 2) = 8 / 2 ^ l by field_simp; norm_num] at this
  exact this

/-- The hypotheses in floating point arithmetic hold together. -/
theorem lineCall_area : ∃ t, lineCall.run = .ok t ∧ RoundedArea t.tree (roundEven 24) (roundEven 53)
    (fun _ => rootCenterF (roundEven 24) 0 8) (fun _ => 0) (1 / 2 ^ 24) 12 := by
  have h : look lineCall.run (fun t => [decide (t.tree.dims = 1 ∧ t.tree.nlevels = 3 ∧
      t.tree.rootExtent = 8 ∧ t.tree.center 0 0 = 4)]) = [true] := by decide +kernel
  unfold look at h
  split at h
  · rename_i t ht
    simp only [List.cons.injEq, and_true, decide_eq_true_eq] at h
    obtain ⟨h1, h2, h3, h4⟩ := h
    have hw := (documented_area lineCall_documented (Or.inl (by decide)) (Or.inl ⟨rfl, rfl⟩) ht).1
    have hz : ∀ a < t.tree.dims, a = 0 := fun a ha => by omega
    refine ⟨t, ht, ?_⟩
    exact
      { rounds := roundEven_rounds (by norm_num)
        host := _root_.Boxtree.Ex.roundEven_coarser
        wf := hw
        dims := by omega
        fine :=
          { size := fun a ha => by
              rw [hz a ha, h4, h3]; norm_num
            root := fun a ha => by
              rw [hz a ha, h4]
              have : |rootCenterF (roundEven 24) 0 8 - 4| ≤ 5 * (1 / 2 ^ 24) * 12 := by
                decide +kernel
              exact this
            fine := by
              unfold BoxTree.rad
              rw [h2, h3]
              norm_num }
        bmin := fun i hi => by
          unfold BoxTree.lo BoxTree.rad
          rw [hz i hi, h4, hw.level_root, h3]
          norm_num
        halves := fun l => by rw [h3]; exact halves24' l
        stretch := by rw [h3]; norm_num }
  · cases h

example : ∃ t aq, lineCall.run = .ok t ∧ areaQuery t.tree (fun _ => 0) [⟨fun _ => 1, 1 / 2⟩] none
    (guidingBoxF t.tree (roundEven 24) (roundEven 53) (fun _ => 0))
    (ballOverlapsF t.tree (roundEven 24) fun _ => rootCenterF (roundEven 24) 0 8)
    (adjacentF t.tree (roundEven 24) fun _ => rootCenterF (roundEven 24) 0 8) = .ok aq := by
  obtain ⟨t, ht, hA⟩ := lineCall_area
  obtain ⟨aq, h1, _⟩ := C69_area_query_rounded_partial lineCall 3 0 _ lineCall_documented
    (Or.inl (by decide)) (Or.inl ⟨rfl, rfl⟩) rfl _ _ _ _ _ _ _ rfl rfl t ht hA
    [⟨fun _ => 1, 1 / 2⟩] (Or.inl rfl)
  exact ⟨t, aq, ht, h1⟩

/-- A source and a target that are too large for any child of the root, in a non-adaptive tree. -/
def heldCall : Call where
  args :=
    { particles := [⟨"float64", 1⟩]
      kind := "non-adaptive"
      maxParticlesInBox := some 1
      targets := some [⟨"float64", 1⟩]
      sourceRadii := some ("float64", [1])
      targetRadii := some ("float64", [1])
      stickOutFactor := some (1 / 4)
      refineWeights := none
      maxLeafRefineWeight := none
      extentNorm := some "linf" }
  src := fun _ _ => 1 / 2
  tgt := fun _ _ => 3 / 5
  srcRadius := fun _ => 2 / 5
  tgtRadius := fun _ => 2 / 5
  bbox := none
  skipPrune := false
  pad := fun _ => 0

theorem heldCall_documented : heldCall.Documented 1 1 "float64" where
  shapes :=
    { kind := Or.inr (Or.inr rfl)
      norm := Or.inr (Or.inl rfl)
      particles := ⟨by decide, by decide⟩
      targets := ⟨⟨by decide, by decide⟩, rfl⟩
      radii := by decide
      sourceRadii := Or.inr rfl
      targetRadii := Or.inr rfl
      nonempty := by decide }
  limit := Or.inl ⟨1, rfl, rfl, rfl, le_refl _⟩
  dtype := Or.inl rfl
  arith := Arith.sound_exact rfl
  coords := fun _ _ _ _ => rfl
  radius_nonneg := by decide +kernel
  box := Or.inl ⟨0, by decide, by decide +kernel⟩

end Ex

/-- Finding **hh**: a non-adaptive tree of particles with extents can consist of one box without
children that is marked as having children.  An area query does not find it, although all particles
are in it. -/
theorem C69_held_back_fails : ∃ c : Call, c.Documented 1 1 "float64" ∧ c.SomeWeight ∧
    c.skipPrune = false ∧ c.arith = .exact ∧ c.bbox = none ∧ ∃ t, c.run = .ok t ∧
    t.tree.nboxes = 1 ∧ t.tree.IsLeaf 0 ∧ t.tree.hasSourceChild 0 = true ∧
    t.tree.MeetsBall 0 (fun _ => 1 / 2) 1 ∧
    (areaQuery t.tree (fun _ => 1 / 10) [⟨fun _ => 1 / 2, 1⟩] none).toOption.map (·.row 0)
      = some [] := by
  refine ⟨Ex.heldCall, Ex.heldCall_documented, Or.inl (by decide), rfl, rfl, rfl, ?_⟩
  have h : Ex.look Ex.heldCall.run (fun t => [decide (t.tree.nboxes = 1 ∧ t.tree.nch = 2 ∧
      t.tree.child 0 0 = 0 ∧ t.tree.child 1 0 = 0 ∧ t.tree.hasSourceChild 0 = true ∧
      t.tree.dims = 1 ∧
      (t.tree.lo 0 0 ≤ 1 / 2 ∧ 1 / 2 ≤ t.tree.hi 0 0) ∧
      (areaQuery t.tree (fun _ => 1 / 10) [⟨fun _ => 1 / 2, 1⟩] none).toOption.map (·.row 0)
        = some [])]) = [true] := by decide +kernel
  unfold Ex.look at h
  split at h
  · rename_i t ht
    simp only [List.cons.injEq, and_true, decide_eq_true_eq] at h
    obtain ⟨h1, h2, h3, h4, h5, h7, h8, h9⟩ := h
    refine ⟨t, ht, h1, ?_, h5, ⟨fun _ => 1 / 2, fun i hi => ?_⟩, h9⟩
    · intro m hm
      rw [h2] at hm
      interval_cases m
      · exact h3
      · exact h4
    · rw [h7] at hi
      obtain rfl : i = 0 := by omega
      exact ⟨h8, by norm_num⟩
  · cases h

end Boxtree.Build
