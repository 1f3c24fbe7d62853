import Verif.Lemmas.FmmTotal
import Verif.Props.LevelStarts

/-!
# C02: the driver delivers every source to every target
-/

namespace Boxtree
open BoxTree

theorem mem_targetBoxes_iff (inp : TravInput) (trav : Traversal) (ok : inp.OK)
    (h : buildTraversal inp = .ok trav) (hm : inp.srcMask = none) (b : Nat) :
    b ∈ trav.targetBoxes ↔ b < inp.tree.nboxes ∧ inp.tree.isTarget b = true := by
  rw [(travFields h).targetBoxes]
  split
  · rename_i hs
    rw [mem_selSource, hm]
    constructor
    · rintro ⟨h1, h2, _⟩; exact ⟨h1, by rw [← ok.srcTgt hs b h1 (by rw [hm]; rfl)]; exact h2⟩
    · rintro ⟨h1, h2⟩
      exact ⟨h1, by rw [ok.srcTgt hs b h1 (by rw [hm]; rfl)]; exact h2, rfl⟩
  · exact mem_selTarget _ _

/-- **C02.** For every tree and traversal, every assignment of weights from a commutative monoid
to the sources (in user order), and every target `i` (in user order), `drive_fmm` with the
constant-one wrangler returns the sum of all source weights at `i`. -/
theorem C02_drive_fmm_total {M : Type} [AddCommMonoid M] (inp : TravInput) (trav : Traversal)
    (ok : inp.OK) (hlev : inp.tree.LevelsOK) (h : buildTraversal inp = .ok trav)
    (hm : inp.srcMask = none) (hm' : inp.srcParentMask = none)
    (q : Particles) (hq : q.OK inp.tree) (weights : Nat → M) (i : Nat) (hi : i < q.ntargets) :
    Fmm.driveFmm inp.tree q trav weights i = ∑ j ∈ Finset.range q.nsources, weights j := by
  have F := travFields h
  have htb := mem_targetBoxes_iff inp trav ok h hm
  unfold Fmm.driveFmm
  set p := q.sortedTargetIds i with hpdef
  have hp := hq.sorted_lt i hi
  obtain ⟨tgt, h1, h2, h3, h4⟩ := hq.tgt_cover p hp
  have htgt := (htb tgt).2 ⟨h1, h2⟩
  set w := fun j => weights (q.userSourceIds j)
  rw [evaluate_total ok hlev h q w _ (Fmm.boxWeight q w) tgt p htgt]
  · rw [boxWeight_total hq]
    exact sum_perm_range q.nsources q.userSourceIds hq.user_lt hq.user_inj weights
  · intro b hb
    obtain ⟨b1, b2⟩ := (htb b).1 hb
    constructor
    · rintro ⟨h5, h6⟩
      exact hq.tgt_disjoint b b1 b2 tgt h1 h2 p h5 h6 h3 h4
    · rintro rfl; exact ⟨h3, h4⟩
  · intro s _; rfl
  · intro s hs
    obtain ⟨hs1, hs2⟩ := usesMultipole_is ok h htgt hs
    exact upward_subtree ok hlev h hm hm' q w s hs1 hs2

/-- Particles for `Ex.exTree`: one per leaf, stored in reverse user order. -/
def Ex.exParticles : Particles where
  nsources := 5
  ntargets := 5
  srcStart b := [0, 0, 2, 0, 1, 2, 3, 3, 4].getD b 0
  srcCount b := [0, 0, 0, 1, 1, 1, 0, 1, 1].getD b 0
  tgtStart b := [0, 0, 2, 0, 1, 2, 3, 3, 4].getD b 0
  tgtCount b := [0, 0, 0, 1, 1, 1, 0, 1, 1].getD b 0
  userSourceIds j := 4 - j
  sortedTargetIds i := 4 - i

theorem Ex.exParticles_ok : Ex.exParticles.OK Ex.exTree where
  src_le := by decide
  src_cover := by decide
  src_disjoint := by
    intro b hb hs b' hb' hs' j h1 h2 h3 h4
    have hle : ∀ b, b < 9 → Ex.exParticles.srcStart b + Ex.exParticles.srcCount b ≤ 5 := by decide
    have hj := hle b hb
    have key : ∀ j, j < 5 → ∀ b, b < 9 → Ex.exParticles.srcStart b ≤ j →
        j < Ex.exParticles.srcStart b + Ex.exParticles.srcCount b →
        b = [3, 4, 5, 7, 8].getD j 0 := by decide
    rw [key j (by omega) b hb h1 h2, key j (by omega) b' hb' h3 h4]
  tgt_cover := by decide
  tgt_disjoint := by
    intro b hb hs b' hb' hs' j h1 h2 h3 h4
    have hle : ∀ b, b < 9 → Ex.exParticles.tgtStart b + Ex.exParticles.tgtCount b ≤ 5 := by decide
    have hj := hle b hb
    have key : ∀ j, j < 5 → ∀ b, b < 9 → Ex.exParticles.tgtStart b ≤ j →
        j < Ex.exParticles.tgtStart b + Ex.exParticles.tgtCount b →
        b = [3, 4, 5, 7, 8].getD j 0 := by decide
    rw [key j (by omega) b hb h1 h2, key j (by omega) b' hb' h3 h4]
  user_lt := by decide
  user_inj := by decide
  sorted_lt := by decide

/-- The example run computes `1 + 10 + 100 + 1000 + 10000` at every target. -/
example : ∃ trav, buildTraversal Ex.exInput = .ok trav ∧
    (List.range 5).map (Fmm.driveFmm Ex.exTree Ex.exParticles trav (fun j => 10 ^ j)) =
      [11111, 11111, 11111, 11111, 11111] :=
  ⟨_, rfl, by decide +kernel⟩

end Boxtree
