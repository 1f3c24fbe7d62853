import Verif.Lemmas.Balance
import Verif.Lemmas.DeviceTests

/-! The stored box centers and the adjacency test of the level restriction kernel. -/

namespace Boxtree.Build

open BoxTree

theorem rounds_id : Rounds id 0 where
  err := by intro x; simp
  scale := by intro y k; rfl
  small := by norm_num

section
variable {P : Params} {n : Nat} {s : State}

/-- The centers the loop stores are the ones a traversal finds by following the path of a box. -/
theorem Inv.storedCenter (h : Inv P n s) (hpos : 0 < P.rootExtent) : ∀ {l k : Nat},
    k < s.used l → ∀ a,
    (toTree P n s).storedCenter P.fl P.storedRoot (levelStart s.used l + k) a = s.stored l k a := by
  intro l
  have hw := h.toTree_wf hpos
  induction l with
  | zero =>
    intro k hk a
    unfold BoxTree.storedCenter
    rw [level_toTree h hk]
    rw [h.used_zero] at hk
    obtain rfl : k = 0 := by omega
    exact (h.root_stored a).symm
  | succ l ih =>
    intro k hk a
    have hp := (h.parent_ok l k hk).1
    have ihp := ih hp a
    unfold BoxTree.storedCenter at ihp ⊢
    rw [level_toTree h hp] at ihp
    rw [level_toTree h hk]
    have hb := id_lt s.used (h.used_level hk) hk
    have h0 := start_pos h l
    obtain ⟨hm, hc⟩ := mortonOf_spec hw hb (by omega)
    have hpar : (toTree P n s).parent (levelStart s.used (l + 1) + k)
        = levelStart s.used l + s.parent (l + 1) k := by
      rw [parent_toTree h hk, if_neg (by omega), Nat.add_sub_cancel]
    generalize hmo : (toTree P n s).mortonOf (levelStart s.used (l + 1) + k) = m at hm hc
    have hst : s.stored (l + 1) k a = childStored P l (s.stored l (s.parent (l + 1) k)) m a := by
      rw [hpar, child_toTree h hp] at hc
      cases hch : s.child m l (s.parent (l + 1) k) with
      | none => rw [hch] at hc; simp only at hc; omega
      | some c =>
        rw [hch] at hc
        obtain rfl : c = k := by simp only at hc; omega
        exact h.child_stored hch a
    rw [hst, childStored, ← ihp]
    rw [BoxTree.centerF, hmo, hpar]
    have hr : (toTree P n s).radF P.fl (l + 1) = P.fl (radius P (l + 1)) := by
      rw [← rad_toTree (n := n) (s := s)]; rfl
    rw [hr]
    rfl

/-- The adjacency test is right if the boxes are large compared with rounding errors. -/
theorem adjOK_of_fine {u M : ℚ} (hr : Rounds P.fl u) (hd : 0 < P.dims) (hpos : 0 < P.rootExtent)
    (hM : ∀ a < P.dims, |P.rootCenter a| + P.rootExtent ≤ M)
    (hroot : ∀ a < P.dims, |P.storedRoot a - P.rootCenter a| ≤ 5 * u * M) (hn : 1 ≤ n)
    (hf : 5 * (4 * n + 17) * u * M < P.rootExtent / 2 ^ n) : AdjOK P n := by
  intro s h l k l' k' hk hk'
  have hw := h.toTree_wf hpos
  have h0 : 0 < s.used 0 := by rw [h.used_zero]; omega
  have hc0 : ∀ a, (toTree P n s).center 0 a = P.rootCenter a := fun a =>
    (center_toTree h h0 a).trans (h.root_center a)
  have hF : FineEnough (toTree P n s) P.storedRoot u M 1 := by
    refine ⟨fun a ha => ?_, fun a ha => ?_, ?_⟩
    · rw [hc0]; exact hM a ha
    · rw [hc0]; exact hroot a ha
    · rw [rad_toTree]
      unfold radius
      rw [show 1 + ((toTree P n s).nlevels - 1) = n by
        show 1 + (n - 1) = n
        omega]
      have e : (toTree P n s).nlevels = n := rfl
      rw [e]
      push_cast
      have e2 : (5 * (4 * (n : ℚ) + 1 + 16) * u * M) = 5 * (4 * n + 17) * u * M := by ring
      rw [e2]; exact hf
  have := adjF_iff hr hw hd (le_refl 1) hF (le_refl 1) (id_lt s.used (h.used_level hk) hk)
    (id_lt s.used (h.used_level hk') hk')
  rw [level_toTree h hk, level_toTree h hk', nws_toTree h hpos hk hk',
    funext (h.storedCenter hpos hk), funext (h.storedCenter hpos hk')] at this
  exact this

/-- Fewer levels are fine if many are. -/
theorem fine_mono {u M E : ℚ} (hu : 0 ≤ u) (hM : 0 ≤ M) (hE : 0 ≤ E) {n N : Nat} (h : n ≤ N)
    (hf : 5 * (4 * N + 17) * u * M < E / 2 ^ N) : 5 * (4 * n + 17) * u * M < E / 2 ^ n := by
  have h1 : (n : ℚ) ≤ N := by exact_mod_cast h
  have h2 : 5 * (4 * (n : ℚ) + 17) * u * M ≤ 5 * (4 * N + 17) * u * M :=
    mul_le_mul_of_nonneg_right (mul_le_mul_of_nonneg_right (by linarith) hu) hM
  have h3 : E / 2 ^ N ≤ E / 2 ^ n :=
    div_le_div_of_nonneg_left hE (by positivity) (pow_le_pow_right₀ (by norm_num) h)
  linarith

/-- Without rounding, the stored centers are the centers. -/
theorem Inv.stored_exact (h : Inv P n s) (hfl : P.fl = id) (hr : P.storedRoot = P.rootCenter) :
    ∀ {l k : Nat}, k < s.used l → ∀ a, s.stored l k a = s.center l k a := by
  intro l
  induction l with
  | zero =>
    intro k hk a
    rw [h.used_zero] at hk
    obtain rfl : k = 0 := by omega
    rw [h.root_stored, h.root_center, hr]
  | succ l ih =>
    intro k hk a
    obtain ⟨hp, _, hc⟩ := h.parent_ok l k hk
    rw [h.child_stored hc, (h.child_ok hc).2.2.2.2.2]
    unfold childStored childCenter
    rw [ih hp, hfl]
    rfl

end
end Boxtree.Build
