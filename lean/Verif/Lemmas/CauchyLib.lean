import Verif.Spec.CauchyLib
import Verif.Props.FmmLibChain
import Verif.Lemmas.Geometric

/-!
# The truncated expansions of the Cauchy kernel: linearity and error of the translations
-/

namespace Boxtree.FmmLib
open Boxtree Series

theorem length_tab (n : Nat) (f : Nat → ℂ) : (tab n f).length = n + 1 := by simp [tab]

theorem getD_tab (n : Nat) (f : Nat → ℂ) (k : Nat) :
    (tab n f).getD k 0 = if k ≤ n then f k else 0 := by
  unfold tab
  by_cases h : k ≤ n
  · rw [if_pos h, List.getD_eq_getElem?_getD, List.getElem?_map, List.getElem?_range (by omega)]
    rfl
  · rw [if_neg h, List.getD_eq_getElem?_getD, List.getElem?_eq_none (by simp; omega)]
    rfl

theorem ext_getD {u v : List ℂ} (h : u.length = v.length) (h2 : ∀ k, u.getD k 0 = v.getD k 0) :
    u = v := by
  refine List.ext_getElem h fun k h3 h4 => ?_
  have := h2 k
  rwa [List.getD_eq_getElem _ _ h3, List.getD_eq_getElem _ _ h4] at this

theorem getD_zipWith (u v : List ℂ) (h : u.length = v.length) (k : Nat) :
    (List.zipWith (· + ·) u v).getD k 0 = u.getD k 0 + v.getD k 0 := by
  induction u generalizing v k with
  | nil =>
    cases v with
    | nil => simp
    | cons b v => simp at h
  | cons a u ih =>
    cases v with
    | nil => simp at h
    | cons b v =>
      cases k with
      | zero => simp
      | succ k => simpa using ih v (by simpa using h) k

theorem getD_zeros (n k : Nat) : (List.replicate n (0 : ℂ)).getD k 0 = 0 := by
  by_cases h : k < n
  · rw [List.getD_eq_getElem _ _ (by simpa using h)]
    simp
  · rw [List.getD_eq_default _ _ (by simp; omega)]

theorem linMap_add (N n : Nat) (a : Nat → Nat → ℂ) : AddMap N (n + 1) (linMap n a) := by
  refine ⟨fun v _ => length_tab _ _, ?_, ?_⟩
  · refine ext_getD (by rw [linMap, length_tab, List.length_replicate]) fun k => ?_
    rw [linMap, getD_tab, getD_zeros]
    split
    · exact Finset.sum_eq_zero fun j _ => by rw [getD_zeros, mul_zero]
    · rfl
  · intro u v hu hv
    have hl : (List.zipWith (· + ·) u v).length = N := by rw [List.length_zipWith, hu, hv, min_self]
    refine ext_getD (by rw [List.length_zipWith]; simp only [linMap, length_tab, min_self]) fun k => ?_
    rw [getD_zipWith _ _ (by simp only [linMap, length_tab])]
    simp only [linMap, getD_tab, hl, hu, hv]
    split
    · rw [← Finset.sum_add_distrib]
      exact Finset.sum_congr rfl fun j _ => by rw [getD_zipWith u v (hu.trans hv.symm), mul_add]
    · simp

theorem linEval_add (N : Nat) (a : Nat → ℂ) : AddEval N (linEval a) := by
  refine ⟨?_, ?_⟩
  · exact Finset.sum_eq_zero fun j _ => by rw [getD_zeros, mul_zero]
  · intro u v hu hv
    have hl : (List.zipWith (· + ·) u v).length = N := by rw [List.length_zipWith, hu, hv, min_self]
    simp only [linEval, hl, hu, hv]
    rw [← Finset.sum_add_distrib]
    exact Finset.sum_congr rfl fun j _ => by rw [getD_zipWith u v (hu.trans hv.symm), mul_add]

theorem vsum_tab {ι : Type} (n : Nat) (l : List ι) (g : ι → Nat → ℂ) :
    vsum (n + 1) (l.map fun p => tab n (g p)) = tab n fun k => (l.map fun p => g p k).sum := by
  induction l with
  | nil =>
    refine ext_getD (by simp [vsum, length_tab]) fun k => ?_
    change (List.replicate (n + 1) (0 : ℂ)).getD k 0 = _
    rw [getD_zeros, getD_tab]
    simp
  | cons a l ih =>
    change List.zipWith (· + ·) (tab n (g a)) (vsum (n + 1) (l.map fun p => tab n (g p))) = _
    rw [ih]
    refine ext_getD (by rw [List.length_zipWith]; simp only [length_tab, min_self]) fun k => ?_
    rw [getD_zipWith _ _ (by simp only [length_tab])]
    simp only [getD_tab]
    split <;> simp

variable {A D : Type}

theorem cauchy_linear (t : BoxTree) (w : Wrangler A D) (hd : t.dims = 2)
    (hk : w.kernel = .laplace) : Linear t w (cauchyLib A D) := by
  have hs : ∀ l, w.size t l = w.order l + 1 := by
    intro l
    unfold Wrangler.size expnSize
    rw [if_pos hd, hk]
  refine ⟨?_, ?_, ?_, ?_, ?_, ?_, ?_, ?_, ?_, ?_⟩
  · intro l r s c
    rw [hs]
    simp only [cauchyLib, List.map_cons, List.map_nil, List.sum_cons, List.sum_nil, add_zero]
    exact (vsum_tab _ _ _).symm
  · intro l r s c; rw [hs]; exact length_tab _ _
  · intro l r s c
    rw [hs]
    simp only [cauchyLib, List.map_cons, List.map_nil, List.sum_cons, List.sum_nil, add_zero]
    exact (vsum_tab _ _ _).symm
  · intro l r s c; rw [hs]; exact length_tab _ _
  · intro l l' r c r' c' rad
    rw [hs, hs]
    exact linMap_add _ _ _
  · intro l rot r c r' c' rad
    rw [hs]
    exact linMap_add _ _ _
  · intro l l' r c r' c' rad
    rw [hs, hs]
    exact linMap_add _ _ _
  · intro l r c x
    exact linEval_add _ _
  · intro l r c x
    exact linEval_add _ _
  · intro s x
    simp [cauchyLib]

end Boxtree.FmmLib
