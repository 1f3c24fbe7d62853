import Verif.Lemmas.AllocFinish
import Verif.Lemmas.AllocLoop
import Verif.Props.Leaves
import Verif.Props.Balanced
import Verif.Props.BuildCall

/-!
# Growing arrays in the tree builder

The tree builder does not know the number of boxes in advance.  It guesses the length of its arrays,
and enlarges them and renumbers the boxes when the guess turns out to be wrong.  Nothing of that can
be seen from outside.
-/

namespace Boxtree.Build

theorem Input.build_of_error {inp : Input} {e : String} (h : buildLevels inp.params = .error e) :
    inp.build = .error e := by
  unfold Input.build
  rw [h]

/-- **C66**, padding: unused boxes between the levels do not change the tree, so the parameter `pad`
of the model does not matter. -/
theorem C66_padding (inp : Input) (ok : inp.OK) (pad : Nat → Nat) :
    { inp with pad := pad }.build = inp.build := by
  cases h : inp.build with
  | error e =>
    cases hb : buildLevels inp.params with
    | error e' =>
      rw [Input.build_of_error hb] at h
      rw [Input.build_of_error (inp := { inp with pad := pad }) hb, h]
    | ok r => rw [Input.build_of_levels (L := r.1) (s := r.2) hb] at h; cases h
  | ok t =>
    obtain ⟨L, s, hc, o, rfl, hf, _, hs, _⟩ := Input.build_cases ok h
    rw [Input.build_of_levels (inp := { inp with pad := pad }) (L := L) (s := s) hs]
    have hf' : FinOK inp.params inp.skipPrune (fun l => s.used l + pad l) L
        { s with hasCh := hc, oversize := o } :=
      { inv := hf.inv, len_ge := fun l _ => Nat.le_add_right _ _, moves := hf.moves, root := hf.root }
    have h1 := hf.shows s.hasCh s.oversize
    have h2 := hf'.shows s.hasCh s.oversize
    exact congrArg Except.ok (h2.finish_eq h1 (hf.closed s.hasCh s.oversize) inp.cloud s.used s.ids)

/-- The tree after a level loop with the same outcome. -/
theorem Input.build_of_match (inp : Input) (ok : inp.OK) {r : Except String (Nat × Buf)}
    (hm : Match inp.params r (buildLevels inp.params)) :
    (match (generalizing := false) r with
    | .error e => .error e
    | .ok (L, B) =>
      .ok (finishFlat inp.params inp.cloud L B.used B.ids
        (prune (B.keeps inp.skipPrune L) (B.flat inp.params L)))) = inp.build := by
  cases hB : r with
  | error e' =>
    rw [hB] at hm
    cases hb : buildLevels inp.params with
    | error e => rw [hb] at hm; rw [Input.build_of_error hb]; exact congrArg Except.error hm
    | ok r => rw [hb] at hm; exact hm.elim
  | ok r' =>
    obtain ⟨L', B⟩ := r'
    rw [hB] at hm
    cases hb : buildLevels inp.params with
    | error e => rw [hb] at hm; exact hm.elim
    | ok r =>
      obtain ⟨L, s⟩ := r
      rw [hb] at hm
      obtain ⟨rfl, hrel⟩ := hm
      have e := Input.build_of_levels hb
      obtain ⟨L', s', hc, o, _, hf, _, hs, _⟩ := Input.build_cases ok e
      rw [hb] at hs
      obtain ⟨rfl, rfl⟩ := Prod.mk.inj (Except.ok.inj hs)
      rw [e]
      have h1 := hf.shows s.hasCh s.oversize
      show Except.ok (finishFlat inp.params inp.cloud L' B.used B.ids _) = _
      rw [hrel.used, hrel.ids]
      exact congrArg Except.ok ((hrel.shows inp.skipPrune).finish_eq h1
        (hf.closed s.hasCh s.oversize) inp.cloud s.used s.ids)

/-- **C66.** With arrays that start at any positive length and grow on demand, and whatever the
number of levels is that level restriction leaves room for, the builder does what it would do with
arrays that are long enough from the beginning. -/
theorem C66_growing_arrays (inp : Input) (ok : inp.OK) (hw : inp.WeightsOK)
    (hr : inp.levelRestrict = true → inp.adaptive = true) (guess look : Nat) (hg : 1 ≤ guess) :
    inp.buildAlloc guess look = inp.build := by
  unfold Input.buildAlloc
  rw [if_neg (by omega)]
  exact inp.build_of_match ok (buildLevels_match hw.wok hw.levels hr hg look)

/-- **C66**, failures: no access outside the arrays, no failed assertion and no endless loop, only
`MaxLevelsExceeded`. -/
theorem C66_failures (inp : Input) (ok : inp.OK) (hw : inp.WeightsOK)
    (hr : inp.levelRestrict = true → inp.adaptive = true) (guess look : Nat) (hg : 1 ≤ guess)
    (e : String) (h : inp.buildAlloc guess look = .error e) : e = "MaxLevelsExceeded" := by
  rw [C66_growing_arrays inp ok hw hr guess look hg] at h
  rcases C23_terminates inp hw hr with ⟨t, ht, _⟩ | ht
  · rw [ht] at h; cases h
  · rw [ht] at h; exact (Except.error.inj h).symm

/-- **C66** for a documented call of the builder: the result is the same for the length of the
arrays that is computed and for any that is given, and for any number of levels to look back. -/
theorem C66_documented_call (c : Call) (ns nt : Nat) (dtype : String) (hd : c.Documented ns nt dtype)
    (hw : c.SomeWeight) (hs : c.SmallLimit) (guess : Option ℤ)
    (hg : ∀ g, guess = some g → 0 < g) (look : Nat) : c.runAlloc guess look = c.run := by
  obtain ⟨inp, h1, h2, h3, h4⟩ := documented_call_by c ns nt dtype hd hw
  obtain ⟨g, h5, h6⟩ := h1 guess (fun g inp => inp.buildAlloc g look) hg
  obtain ⟨_, _, h7⟩ := h1 none (fun _ inp => inp.build) (by simp)
  show c.runBy _ _ = c.runBy _ _
  rw [h6, h7]
  refine C66_growing_arrays inp h2 (h3 hs) (fun h => ?_) g look h5
  cases ha : inp.adaptive with
  | true => rfl
  | false =>
    have e1 := h4.levelRestrict.1 h
    have e2 := h4.adaptive.1 ha
    rw [e1] at e2
    exact absurd e2 (by decide)

namespace Ex

theorem graded_weights : graded.WeightsOK := ⟨by decide, by decide, by decide⟩

end Ex

/-- The arrays start with one entry and end with 16.  The boxes are renumbered if nothing is left for
other levels: with long arrays the loop takes four trips, and a fifth one without room for other
levels. -/
example : Ex.graded.OK ∧ Ex.graded.WeightsOK ∧
    (Ex.graded.levelRestrict = true → Ex.graded.adaptive = true) ∧
    Ex.look (Buf.buildLevels Ex.graded.params 1 0) (fun r => [r.1, r.2.cap]) = [3, 16] ∧
    Ex.look (Buf.loop Ex.graded.params 1 4 1 false (Buf.init Ex.graded.params 100))
      (fun r => [r.1]) = [3] ∧
    Ex.look (Buf.loop Ex.graded.params 0 4 1 false (Buf.init Ex.graded.params 100))
      (fun r => [r.1]) = [] ∧
    Ex.look (Buf.loop Ex.graded.params 0 5 1 false (Buf.init Ex.graded.params 100))
      (fun r => [r.1]) = [3] ∧
    Ex.look (Ex.graded.buildAlloc 1 0) (fun t => [t.tree.nboxes, t.tree.nlevels]) = [9, 4] :=
  ⟨Ex.graded_ok, Ex.graded_weights, fun _ => rfl, by decide +kernel⟩

/-- A documented call of `Props/BuildCall`, with arrays of length one. -/
example : Ex.call.Documented 3 0 "float64" ∧ Ex.call.SomeWeight ∧ Ex.call.SmallLimit ∧
    Ex.look (Ex.call.runAlloc (some 1) 1) (fun t => [t.tree.nboxes, t.tree.nlevels]) ≠ [] :=
  ⟨Ex.call_documented, .inl (by simp [Ex.call]), ⟨by simp [Ex.call]; norm_num, by simp [Ex.call]⟩,
    by decide +kernel⟩

end Boxtree.Build
