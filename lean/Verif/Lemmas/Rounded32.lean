import Verif.Lemmas.Kernels32
import Verif.Model.DeviceTests32

/-! With at most 30 levels the rounded tests with 32-bit shifts are those with powers of two. -/

namespace Boxtree
open BoxTree

section
variable {t : BoxTree} (fl rt : ℚ → ℚ)

theorem radF32_eq {l : Nat} (hl : l < 30) : t.radF32 fl l = t.radF fl l := by
  have h := C51_radius_exact_partial t l (by omega)
  unfold rad32 at h
  unfold radF32 radF
  rw [h]
  rfl

theorem centerF32_eq (c0 : Nat → ℚ) : ∀ (l : Nat), l < 30 → ∀ b a,
    t.centerF32 fl c0 l b a = t.centerF fl c0 l b a
  | 0, _, _, _ => rfl
  | l + 1, hl, b, a => by
      unfold centerF32 centerF
      rw [centerF32_eq c0 l (by omega), radF32_eq fl hl]

theorem storedCenter32_eq (c0 : Nat → ℚ) {b : Nat} (hb : t.level b < 30) :
    t.storedCenter32 fl c0 b = t.storedCenter fl c0 b :=
  funext fun a => centerF32_eq fl c0 _ hb b a

end

theorem withRounded32_same {inp : TravInput} (hw : inp.tree.WF) (hL : inp.tree.nlevels ≤ 30)
    (fl rt : ℚ → ℚ) (c0 : Nat → ℚ) (emin emax : Nat → Nat → ℚ) :
    SameTests inp (inp.withRounded32 fl rt c0 emin emax).tests
      (.device (Device.rounded fl rt inp.tree (inp.crit.getD .preciseLinf) inp.stickOut inp.eps c0
        emin emax)) := by
  have hlev : ∀ {b : Nat}, b < inp.tree.nboxes → inp.tree.level b < 30 :=
    fun hb => lt_of_lt_of_le (hw.level_lt _ hb) hL
  have hc : ∀ {b : Nat}, b < inp.tree.nboxes →
      inp.tree.storedCenter32 fl c0 b = inp.tree.storedCenter fl c0 b :=
    fun hb => storedCenter32_eq fl c0 (hlev hb)
  refine ⟨fun {a b} n {la lb} ha hb h1 h2 => ?_, fun {a b la lb} ha hb h1 h2 => ?_, fun {a b} ha hb => ?_⟩
  · show inp.tree.adjF32 fl _ _ _ _ _ = inp.tree.adjF fl _ _ _ _ _
    unfold adjF32 adjF
    rw [hc ha, hc hb, radF32_eq fl (lt_of_lt_of_le h1 hL), radF32_eq fl (lt_of_lt_of_le h2 hL)]
  · show inp.tree.sepBiggerF32 fl _ _ _ _ _ _ = inp.tree.sepBiggerF fl _ _ _ _ _ _
    unfold sepBiggerF32 sepBiggerF
    rw [hc ha, hc hb, radF32_eq fl (lt_of_lt_of_le h1 hL), radF32_eq fl (lt_of_lt_of_le h2 hL)]
  · unfold meetsSepSmaller
    show (if (!inp.targetsHaveExtent) = true then true else
        (Device.rounded32 fl rt inp.tree (inp.crit.getD .preciseLinf) inp.stickOut inp.eps c0 emin
          emax).sepSmaller a b)
      = if (!inp.targetsHaveExtent) = true then true else
        (Device.rounded fl rt inp.tree (inp.crit.getD .preciseLinf) inp.stickOut inp.eps c0 emin
          emax).sepSmaller a b
    split
    · rfl
    · unfold Device.rounded32 Device.rounded
      dsimp only
      cases inp.crit.getD .preciseLinf
      · show staticLinfF32 fl _ _ _ _ _ _ _ = staticLinfF fl _ _ _ _ _ _ _
        unfold staticLinfF32 staticLinfF needF32 needF stickRadF32 stickRadF
        rw [hc ha, hc hb, radF32_eq fl (hlev ha), radF32_eq fl (hlev hb)]
      · show preciseLinfF32 fl _ _ _ _ _ _ = preciseLinfF fl _ _ _ _ _ _
        unfold preciseLinfF32 preciseLinfF needF32 needF
        rw [hc hb, radF32_eq fl (hlev hb)]
      · show staticL2F32 fl _ _ _ _ _ _ _ _ = staticL2F fl _ _ _ _ _ _ _ _
        unfold staticL2F32 staticL2F needF32 needF stickRadF32 stickRadF
        rw [hc ha, hc hb, radF32_eq fl (hlev ha), radF32_eq fl (hlev hb)]

end Boxtree
