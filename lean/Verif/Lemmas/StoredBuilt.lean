import Verif.Lemmas.Extents
import Verif.Lemmas.Build
import Verif.Lemmas.Stored

/-! Stored centers and bounding boxes of finished trees. -/

namespace Boxtree

open BoxTree Build

/-- Centers that are computed from the ones of the parents are found by following paths. -/
theorem storedCenter_eq {t : BoxTree} (hw : t.WF) {fl : ℚ → ℚ} {c0 : Nat → ℚ}
    {st : Nat → Nat → ℚ} (h0 : st 0 = c0)
    (hc : ∀ m < t.nch, ∀ b < t.nboxes, t.child m b ≠ 0 → ∀ a, st (t.child m b) a =
      if m / 2 ^ (t.dims - 1 - a) % 2 = 1 then fl (st b a + t.radF fl (t.level b + 1))
      else fl (st b a - t.radF fl (t.level b + 1))) :
    ∀ b < t.nboxes, t.storedCenter fl c0 b = st b := by
  intro b hb
  unfold storedCenter
  generalize hl : t.level b = l
  induction l generalizing b with
  | zero =>
    have := hw.eq_zero_of_level hb hl
    subst this
    exact h0.symm
  | succ l ih =>
    have hb0 : b ≠ 0 := by rintro rfl; rw [hw.level_root] at hl; omega
    have hlp : t.level (t.parent b) = l := by have := hw.level_parent b hb hb0; omega
    have hp := hw.parent_lt b hb
    obtain ⟨hm, hcb⟩ := mortonOf_spec hw hb hb0
    funext a
    have := hc _ hm _ hp (by rw [hcb]; exact hb0) a
    rw [hcb, hlp] at this
    rw [centerF, ih _ hp hlp, this]

/-- Tight boxes around things that are near are near. -/
theorem Build.TightAround.near {t : BoxTree} {ctr ctr' : Nat → Nat → ℚ} {start cumul : Nat → Nat}
    {low high low' high' lo hi lo' hi' : Nat → Nat → ℚ}
    (h : TightAround t ctr start cumul low high lo hi)
    (h' : TightAround t ctr' start cumul low' high' lo' hi') {b a : Nat} {δ : ℚ}
    (hb : b < t.nboxes) (hc : ∀ c < t.nboxes, |ctr c a - ctr' c a| ≤ δ)
    (hl : ∀ i ∈ span start cumul b, |low a i - low' a i| ≤ δ)
    (hh : ∀ i ∈ span start cumul b, |high a i - high' a i| ≤ δ) :
    |lo b a - lo' b a| ≤ δ ∧ |hi b a - hi' b a| ≤ δ := by
  have c1 := h.contains b hb a
  have c2 := h'.contains b hb a
  have d1 := h.centers b hb a
  have d2 := h'.centers b hb a
  rw [abs_sub_le_iff, abs_sub_le_iff]
  refine ⟨⟨?_, ?_⟩, ?_, ?_⟩
  · have := h'.greatest b hb a (lo b a - δ)
      (fun i hi => by have := (c1 i hi).1; have := (abs_le.1 (hl i hi)); linarith)
      (fun c hcb hbc => by have := (d1 c hcb hbc).1; have := (abs_le.1 (hc c hcb)); linarith)
    linarith
  · have := h.greatest b hb a (lo' b a - δ)
      (fun i hi => by have := (c2 i hi).1; have := (abs_le.1 (hl i hi)); linarith)
      (fun c hcb hbc => by have := (d2 c hcb hbc).1; have := (abs_le.1 (hc c hcb)); linarith)
    linarith
  · have := h.least b hb a (hi' b a + δ)
      (fun i hi => by have := (c2 i hi).2; have := (abs_le.1 (hh i hi)); linarith)
      (fun c hcb hbc => by have := (d2 c hcb hbc).2; have := (abs_le.1 (hc c hcb)); linarith)
    linarith
  · have := h'.least b hb a (hi b a + δ)
      (fun i hi => by have := (c1 i hi).2; have := (abs_le.1 (hh i hi)); linarith)
      (fun c hcb hbc => by have := (d1 c hcb hbc).2; have := (abs_le.1 (hc c hcb)); linarith)
    linarith

namespace Build

section
variable {P : Params} {C : Cloud} {skip : Bool} {len : Nat → Nat} {L : Nat} {s : State}

/-- `stored` of a finished tree.  The flags for children do not matter. -/
theorem finish_stored {hc : Nat → Nat → Bool} {o : Bool}
    (h : FinOK P skip len L { s with hasCh := hc, oversize := o })
    (hw : (finish P C skip len L s).tree.WF) :
    ∀ b < (finish P C skip len L s).tree.nboxes,
      (finish P C skip len L s).tree.storedCenter P.fl P.storedRoot b
        = (finish P C skip len L s).stored b := by
  refine storedCenter_eq hw ?_ ?_
  · funext a
    have := congrFun (h.fin_stored h.kept_root) a
    rw [FinOK.nid_root] at this
    exact this.trans (h.inv.root_stored a)
  · intro m hm b hb h0 a
    obtain ⟨l, k, hk, rfl⟩ := h.exists_nid hb
    obtain ⟨c, hcc, hkc, e⟩ := h.fin_child hk h0
    let F := FinOK.fin P skip len L { s with hasCh := hc, oversize := o }
    change F.stored (F.child m _) a =
      if m / 2 ^ (P.dims - 1 - a) % 2 = 1 then
        P.fl (F.stored _ a + P.fl (P.rootExtent /
          2 ^ (F.level _ + 1 + 1)))
      else P.fl (F.stored _ a - P.fl (P.rootExtent /
          2 ^ (F.level _ + 1 + 1)))
    rw [e, h.fin_stored hkc, h.fin_stored hk, h.fin_level hk, h.inv.child_stored hcc]
    unfold childStored radius
    rw [show 1 + (l + 1) = l + 1 + 1 by omega]

end

end Build
end Boxtree
