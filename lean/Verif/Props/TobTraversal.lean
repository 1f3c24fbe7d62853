import Verif.Lemmas.TobTraversal
import Verif.Props.TreeOfBoxes
import Verif.Props.ExactlyOnce

/-!
# C92: interaction lists of refined trees of boxes
-/

namespace Boxtree
open Tob

theorem Tob.level_lt_nlevels (t : Tob) (b : Nat) (hb : b < t.nboxes) : t.level b < t.nlevels := by
  have key : ∀ (l : List Nat) (a x : Nat), x ≤ a ∨ x ∈ l → x ≤ l.foldl max a := by
    intro l
    induction l with
    | nil => intro a x h; simpa using h
    | cons c l ih =>
      intro a x h
      rw [List.foldl_cons]
      apply ih
      rcases h with h | h
      · left; omega
      · rcases List.mem_cons.1 h with rfl | h
        · left; omega
        · right; exact h
  unfold Tob.nlevels
  have := key ((List.range t.nboxes).map t.level) 0 (t.level b)
    (Or.inr (List.mem_map.2 ⟨b, List.mem_range.2 hb, rfl⟩))
  omega

theorem Tob.isSource_all (t : Tob) (b : Nat) : t.arrays.isSource b = true := by
  change hasFlag (t.flags b) flagIsSource = true
  unfold flags
  cases t.isLeaf b <;>
    simp [hasFlag, flagIsSource, flagIsTarget, flagIsLeaf, flagHasSourceChild, flagHasTargetChild]

theorem Tob.travInput_ok {t : Tob} (hv : t.Valid) {nAway : Nat} (hn : 1 ≤ nAway)
    (crit : Option SmallerCrit) {eps : ℚ} (he : eps ≤ 1 / 12) :
    (t.travInput nAway crit eps).OK := by
  obtain ⟨h1, h2⟩ := C14_usable_for_traversal t hv t.nlevels t.level_lt_nlevels
  refine ⟨h1, h2, hn, le_refl _, he, ?_, ?_, trivial⟩
  · intro _ b _ _
    change hasFlag (t.flags b) flagIsSource = hasFlag (t.flags b) flagIsTarget
    unfold flags
    cases t.isLeaf b <;>
      simp [hasFlag, flagIsSource, flagIsTarget, flagIsLeaf, flagHasSourceChild, flagHasTargetChild]
  · intro _ _ b _
    change hasFlag (t.flags b) flagHasSourceChild = hasFlag (t.flags b) flagHasTargetChild
    unfold flags
    cases t.isLeaf b <;>
      simp [hasFlag, flagIsSource, flagIsTarget, flagIsLeaf, flagHasSourceChild, flagHasTargetChild]

/-- The traversal of a valid tree of boxes: that of the model of the builder if the word in front of
the array is not negative, an access to foreign memory otherwise. -/
theorem Tob.traversal_eq {t : Tob} (hv : t.Valid) (nAway : Nat) (crit : Option SmallerCrit) (eps : ℚ)
    (before : ℤ) : ∃ trav, buildTraversal (t.travInput nAway crit eps) = .ok trav ∧
    t.traversal nAway crit eps before = .ok (if 0 ≤ before then
      some { trav with
        levelStartSource := [], levelStartTarget := [], levelStartSourceParent := [],
        levelStartTtp := [] } else none) := by
  have hb : ∃ trav, buildTraversal (t.travInput nAway crit eps) = .ok trav := ⟨_, rfl⟩
  obtain ⟨trav, h⟩ := hb
  refine ⟨trav, h, ?_⟩
  have F := travFields h
  have hmem : ∀ b ∈ trav.ttpBoxes, b < t.nboxes := by
    intro b hb
    rw [F.ttpBoxes] at hb
    exact List.mem_range.1 (List.mem_filter.1 hb).1
  have h0 : (0 : Nat) ∈ trav.ttpBoxes := by
    rw [F.ttpBoxes]
    refine List.mem_filter.2 ⟨List.mem_range.2 hv.root, ?_⟩
    change hasFlag (t.flags 0) (flagHasTargetChild ||| flagIsTarget) = true
    unfold flags
    cases t.isLeaf 0 <;>
      simp [hasFlag, flagIsSource, flagIsTarget, flagIsLeaf, flagHasSourceChild, flagHasTargetChild]
  have hlen : ((List.range t.nboxes).map (slnwsKernel t.arrays
      (t.travInput nAway crit eps).params)).length = t.nboxes := by simp
  have hs : trav.slnws = buildLists ((List.range t.nboxes).map (slnwsKernel t.arrays
      (t.travInput nAway crit eps).params)) := F.slnws
  have hroot := t.list2Raw_root (t.travInput nAway crit eps).params before
    ((List.range t.nboxes).map (slnwsKernel t.arrays (t.travInput nAway crit eps).params))
    hv.parent_root
  rw [← hs] at hroot
  unfold Tob.traversal
  simp only
  rw [h]
  simp only [bind, Except.bind, pure, Except.pure]
  split_ifs with hbef
  · rw [if_pos hbef] at hroot
    have hrows : trav.ttpBoxes.mapM (t.list2Raw (t.travInput nAway crit eps).params before
        trav.slnws) = some (trav.ttpBoxes.map (list2Kernel t.arrays
          (t.travInput nAway crit eps).params trav.slnws.row)) := by
      apply mapM_some
      intro b hb
      by_cases hb0 : b = 0
      · subst hb0; exact hroot
      · obtain ⟨p, hp, hpb, hl, _⟩ := hv.parent_alive b (hmem b hb) hb0
        have hne : p ≠ b := by rintro rfl; omega
        rw [hs]
        exact t.list2Raw_child _ _ _ b p hpb hne (by rw [hlen]; exact hp)
    rw [hrows]
    simp only [Option.bind]
    have h2 : buildLists (trav.ttpBoxes.map (list2Kernel t.arrays
        (t.travInput nAway crit eps).params trav.slnws.row)) = trav.list2 := F.list2.symm
    rw [h2]
  · rw [if_neg hbef] at hroot
    rw [mapM_none _ _ 0 h0 hroot]
    rfl

/-- **C92.** After any history of refinements and coarsenings, the traversal of the tree of boxes has
every box as a source and as a target box and carries the sources of every box to the targets of every
box along exactly one path through its interaction lists.  In particular, of any two points of the
given bounding box, the leaf around the second reaches the leaf around the first exactly once.
Partial: the word in device memory in front of an array must not be negative, since the kernel for
list 2 reads it (see `C92_negative_word`); depth limit and level type as in C14. -/
theorem C92_exactly_once_partial (dims bits : Nat) (lo hi : Nat → ℚ) (hd : 0 < dims)
    (hpos : lo 0 < hi 0) (hsq : ∀ i, i < dims → hi i - lo i = hi 0 - lo 0) (hbits : 2 < bits)
    (reqs : List Request) (hs : ∀ r ∈ reqs, IsArgsort r.argsort)
    (hsh : (root dims bits true lo hi).Shallow reqs) (u : Tob)
    (h : (root dims bits true lo hi).history reqs = .ok u) (nAway : Nat) (hn : 1 ≤ nAway)
    (crit : Option SmallerCrit) (eps : ℚ) (he : eps ≤ 1 / 12) (before : ℤ) (hw : 0 ≤ before) :
    ∃ trav, u.traversal nAway crit eps before = .ok (some trav) ∧
      trav.sourceBoxes = List.range u.nboxes ∧ trav.targetBoxes = List.range u.nboxes ∧
      (∀ a b, a < u.nboxes → b < u.nboxes → trav.pathCount u.arrays a b = 1) ∧
      ∀ x y : Nat → ℚ, (∀ i, i < dims → lo i ≤ x i ∧ x i < hi i) →
        (∀ i, i < dims → lo i ≤ y i ∧ y i < hi i) →
        ∃ a ∈ u.leafBoxes, ∃ b ∈ u.leafBoxes, u.InLeafCell a x ∧ u.InLeafCell b y ∧
          a ∈ trav.targetBoxes ∧ b ∈ trav.sourceBoxes ∧ trav.pathCount u.arrays a b = 1 := by
  have hv : u.Valid := ((root_inv hd hpos hbits).history hs hsh h).valid
  obtain ⟨trav, hb, ht⟩ := Tob.traversal_eq hv nAway crit eps before
  rw [if_pos hw] at ht
  have F := travFields hb
  have hall : selSourceBoxes u.arrays none = List.range u.nboxes := by
    unfold selSourceBoxes
    refine List.filter_eq_self.2 ?_
    intro b _
    rw [u.isSource_all]; rfl
  have hsb : trav.sourceBoxes = List.range u.nboxes := by
    rw [F.sourceBoxes]; exact hall
  have htb : trav.targetBoxes = List.range u.nboxes := by
    rw [F.targetBoxes]; exact hall
  have hpc : ∀ a b, a < u.nboxes → b < u.nboxes → trav.pathCount u.arrays a b = 1 := by
    intro a b ha hb'
    exact C01_exactly_once _ trav (Tob.travInput_ok hv hn crit he) hb a b
      (by rw [htb]; exact List.mem_range.2 ha) hb' (u.isSource_all b)
  refine ⟨_, ht, hsb, htb, hpc, ?_⟩
  intro x y hx hy
  obtain ⟨a, ha, hxa⟩ := (C15_leaves_tile_root dims bits lo hi hd hpos hsq hbits reqs hs hsh u h x).1.2 hx
  obtain ⟨b, hb', hyb⟩ := (C15_leaves_tile_root dims bits lo hi hd hpos hsq hbits reqs hs hsh u h y).1.2 hy
  have hal : a < u.nboxes := List.mem_range.1 (List.mem_filter.1 ha).1
  have hbl : b < u.nboxes := List.mem_range.1 (List.mem_filter.1 hb').1
  refine ⟨a, ha, b, hb', hxa, hyb, ?_, ?_, hpc a b hal hbl⟩
  · change a ∈ trav.targetBoxes
    rw [htb]; exact List.mem_range.2 hal
  · change b ∈ trav.sourceBoxes
    rw [hsb]; exact List.mem_range.2 hbl

/-- **C92** fails if the word in front of `same_level_non_well_sep_boxes_starts` is negative: after
every history, the kernel for list 2 then reads entries with negative index of
`same_level_non_well_sep_boxes_lists`, because the root of a tree of boxes has parent id -1 while the
kernel expects a root that is its own parent. -/
theorem C92_negative_word (dims bits : Nat) (lo hi : Nat → ℚ) (hd : 0 < dims)
    (hpos : lo 0 < hi 0) (hbits : 2 < bits)
    (reqs : List Request) (hs : ∀ r ∈ reqs, IsArgsort r.argsort)
    (hsh : (root dims bits true lo hi).Shallow reqs) (u : Tob)
    (h : (root dims bits true lo hi).history reqs = .ok u) (nAway : Nat)
    (crit : Option SmallerCrit) (eps : ℚ) (before : ℤ) (hw : before < 0) :
    u.traversal nAway crit eps before = .ok none := by
  have hv : u.Valid := ((root_inv hd hpos hbits).history hs hsh h).valid
  obtain ⟨trav, hb, ht⟩ := Tob.traversal_eq hv nAway crit eps before
  rw [ht, if_neg (by omega)]

/-- The hypotheses are met by the history of C14 (two dimensions, five calls), and the box has
points. -/
example : (∀ r ∈ exHistory, IsArgsort r.argsort) ∧ exRoot.Shallow exHistory ∧
    (∃ u, exRoot.history exHistory = .ok u) ∧ (∀ i, i < 2 → (16 : ℚ) - 0 = 16 - 0) ∧
    ∃ x : Nat → ℚ, ∀ i, i < 2 → (0 : ℚ) ≤ x i ∧ x i < 16 := by
  have hs : ∀ r ∈ exHistory, IsArgsort r.argsort := by
    intro r hr
    simp only [exHistory, List.mem_cons, List.not_mem_nil, or_false] at hr
    rcases hr with rfl | rfl | rfl | rfl | rfl <;> exact stableArgsort_ok
  refine ⟨hs, C14_short_histories 2 32 _ _ (by omega) (by norm_num) _ hs (by decide), ?_,
    by simp, fun _ => 5, by intro i _; norm_num⟩
  have h : (nboxesAfter exRoot exHistory).isSome = true := by decide +kernel
  unfold nboxesAfter at h
  cases hh : exRoot.history exHistory with
  | ok u => exact ⟨u, rfl⟩
  | error e => rw [hh] at h; simp at h

end Boxtree
