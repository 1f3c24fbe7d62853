import Verif.Spec.TreeOfBoxes
import Verif.Lemmas.Csr
import Verif.Lemmas.Tree
import Mathlib.Data.List.GetD
import Mathlib.Tactic.Ring
import Mathlib.Tactic.FieldSimp

set_option linter.unusedSimpArgs false
set_option linter.unusedVariables false

/-!
# Lemmas about refinement, coarsening and renumbering of trees of boxes
-/

namespace Boxtree.Tob

/-! ## Sign vectors -/

theorem padDigits_spec (d : Nat) (hd : 0 < d) : ∀ m, m < 2 ^ d →
    (binDigits m).length ≤ d ∧
    ∀ i, i < d → (List.replicate (d - (binDigits m).length) 0 ++ binDigits m).getD i 0 =
      m / 2 ^ (d - 1 - i) % 2 := by
  induction d with
  | zero => omega
  | succ d ih =>
    intro m hm
    by_cases h2 : m < 2
    · have e : binDigits m = [m] := by rw [binDigits]; simp [h2]
      rw [e]
      refine ⟨by simp, ?_⟩
      intro i hi
      simp only [List.length_singleton, Nat.add_sub_cancel]
      by_cases hid : i < d
      · rw [List.getD_append _ _ _ _ (by simpa using hid), List.getD_replicate _ hid]
        have : m / 2 ^ (d - i) = 0 := by
          apply Nat.div_eq_of_lt
          have : 2 ^ 1 ≤ 2 ^ (d - i) := Nat.pow_le_pow_right (by omega) (by omega)
          omega
        simp [this]
      · have : i = d := by omega
        subst this
        rw [List.getD_append_right _ _ _ _ (by simp)]
        simp; omega
    · have e : binDigits m = binDigits (m / 2) ++ [m % 2] := by
        rw [binDigits]; simp [h2]
      have hd0 : 0 < d := by
        rcases Nat.eq_zero_or_pos d with h | h
        · subst h; simp at hm; omega
        · exact h
      have hm2 : m / 2 < 2 ^ d := by rw [Nat.pow_succ] at hm; omega
      obtain ⟨hl, hv⟩ := ih hd0 (m / 2) hm2
      have hl1 : (binDigits m).length = (binDigits (m / 2)).length + 1 := by rw [e]; simp
      refine ⟨by omega, ?_⟩
      intro i hi
      rw [hl1, e, ← List.append_assoc]
      have hs : d + 1 - ((binDigits (m / 2)).length + 1) = d - (binDigits (m / 2)).length := by omega
      rw [hs]
      have hlen : (List.replicate (d - (binDigits (m / 2)).length) 0 ++ binDigits (m / 2)).length
          = d := by simp; omega
      by_cases hid : i < d
      · rw [List.getD_append _ _ _ _ (by omega), hv i hid, Nat.div_div_eq_div_mul]
        congr 2
        rw [show d + 1 - 1 - i = (d - 1 - i) + 1 by omega, Nat.pow_succ, Nat.mul_comm]
      · have : i = d := by omega
        subst this
        rw [List.getD_append_right _ _ _ _ (by omega), hlen]
        simp

theorem vecOfSigns_eq {d m i : Nat} (hm : m < 2 ^ d) (hi : i < d) :
    (((vecOfSigns d m).getD i 0 : Int) : ℚ) = mortonSign d m i := by
  obtain ⟨hl, hv⟩ := padDigits_spec d (by omega) m hm
  have hv := hv i hi
  unfold vecOfSigns mortonSign
  simp only []
  set l := List.replicate (d - (binDigits m).length) 0 ++ binDigits m with hldef
  have hlen : l.length = d := by rw [hldef]; simp; omega
  rw [List.getD_eq_getElem _ _ (by simp; omega), List.getElem_map]
  rw [List.getD_eq_getElem _ _ (by omega)] at hv
  rw [hv]
  rcases Nat.mod_two_eq_zero_or_one (m / 2 ^ (d - 1 - i)) with h | h <;> simp [h]

/-! ## Refinement -/

/-- What `refine` leaves behind, entry by entry. -/
structure RefineFacts (t : Tob) (ps : List Nat) (u : Tob) : Prop where
  dims : u.dims = t.dims
  bits : u.lvBits = t.lvBits
  signed : u.lvSigned = t.lvSigned
  ext : u.rootExtent = t.rootExtent
  nboxes : u.nboxes = t.nboxes + ps.length * t.nch
  level : ∀ b, b < t.nboxes → u.level b = t.level b
  parent : ∀ b, b < t.nboxes → u.parent b = t.parent b
  center : ∀ b, b < t.nboxes → ∀ i, u.center b i = t.center b i
  child_ps : ∀ p, p ∈ ps → ∀ m, u.child m p = t.nboxes + t.nch * ps.idxOf p + m
  child_old : ∀ b, b < t.nboxes → b ∉ ps → ∀ m, u.child m b = t.child m b
  child_new : ∀ b, t.nboxes ≤ b → b < u.nboxes → ∀ m, u.child m b = 0
  level_new : ∀ k m, k < ps.length → m < t.nch →
    u.level (t.nboxes + t.nch * k + m) = t.level (ps.getD k 0) + 1
  parent_new : ∀ k m, k < ps.length → m < t.nch →
    u.parent (t.nboxes + t.nch * k + m) = (ps.getD k 0 : Nat)
  center_new : ∀ k m, k < ps.length → m < t.nch → ∀ i,
    u.center (t.nboxes + t.nch * k + m) i = t.center (ps.getD k 0) i +
      t.rootExtent * ((vecOfSigns t.dims m).getD i 0 : ℚ) *
        (1 / (t.lvPow (1 + (t.level (ps.getD k 0) + 1)) : ℚ))

theorem nch_pos (t : Tob) : 0 < t.nch := Nat.pos_of_ne_zero (by simp [nch])

theorem split_new {n c k m : Nat} (hm : m < c) :
    (n + c * k + m - n) / c = k ∧ (n + c * k + m - n) % c = m := by
  have e : n + c * k + m - n = m + c * k := by omega
  rw [e]
  constructor
  · rw [Nat.add_mul_div_left _ _ (by omega), Nat.div_eq_of_lt hm]; omega
  · rw [Nat.add_mul_mod_self_left, Nat.mod_eq_of_lt hm]

theorem refined_facts (t : Tob) (ps : List Nat) (hps : ∀ p ∈ ps, p < t.nboxes) :
    RefineFacts t ps (t.refined ps) where
  dims := rfl
  bits := rfl
  signed := rfl
  ext := rfl
  nboxes := rfl
  level := fun b hb => by simp [refined, hb]
  parent := fun b hb => by simp [refined, hb]
  center := fun b hb i => by simp [refined, hb]
  child_ps := fun p hp m => by simp [refined, hp]
  child_old := fun b hb hn m => by simp [refined, hb, hn]
  child_new := fun b hb _ m => by
    have : b ∉ ps := fun h => by have := hps b h; omega
    simp [refined, this, Nat.not_lt.2 hb]
  level_new := fun k m hk hm => by
    have h1 : ¬ (t.nboxes + t.nch * k + m < t.nboxes) := by omega
    simp only [refined, h1, if_false, (split_new hm).1]
  parent_new := fun k m hk hm => by
    have h1 : ¬ (t.nboxes + t.nch * k + m < t.nboxes) := by omega
    simp only [refined, h1, if_false, (split_new hm).1]
  center_new := fun k m hk hm i => by
    have h1 : ¬ (t.nboxes + t.nch * k + m < t.nboxes) := by omega
    simp only [refined, h1, if_false, (split_new hm).1, (split_new hm).2]

theorem refine_ok {t u : Tob} {rf : Nat → Bool} (h : t.refine rf = .ok u) :
    RefineFacts t ((List.range t.nboxes).filter rf) u ∧
    ∀ b, b < t.nboxes → rf b = true → t.isLeaf b = true := by
  unfold refine at h
  split at h
  · simp at h
  · rename_i hany
    have hleaf : ∀ b, b < t.nboxes → rf b = true → t.isLeaf b = true := by
      intro b hb hr
      by_contra hc
      apply hany
      rw [List.any_eq_true]
      exact ⟨b, by simpa using hb, by simp [hr, hc]⟩
    refine ⟨?_, hleaf⟩
    have hps : ∀ p ∈ (List.range t.nboxes).filter rf, p < t.nboxes := by
      intro p hp; simp at hp; exact hp.1
    simp only [] at h
    split at h
    · rename_i he
      have he : (List.range t.nboxes).filter rf = [] := by simpa using he
      rw [he]
      have : t = u := by simpa using h
      subst this
      exact {
        dims := rfl, bits := rfl, signed := rfl, ext := rfl, nboxes := by simp
        level := fun _ _ => rfl, parent := fun _ _ => rfl, center := fun _ _ _ => rfl
        child_ps := fun p hp => by simp at hp
        child_old := fun _ _ _ _ => rfl
        child_new := fun b h1 h2 => by omega
        level_new := fun k m hk => by simp at hk
        parent_new := fun k m hk => by simp at hk
        center_new := fun k m hk => by simp at hk }
    · have : t.refined ((List.range t.nboxes).filter rf) = u := by simpa using h
      rw [← this]
      exact refined_facts t _ hps

theorem isLeaf_iff (t : Tob) (b : Nat) : t.isLeaf b = true ↔ ∀ m, m < t.nch → t.child m b = 0 := by
  simp [isLeaf]

theorem new_index {n c L b : Nat} (hc : 0 < c) (h1 : n ≤ b) (h2 : b < n + L * c) :
    ∃ k m, k < L ∧ m < c ∧ b = n + c * k + m := by
  refine ⟨(b - n) / c, (b - n) % c, ?_, Nat.mod_lt _ hc, ?_⟩
  · rw [Nat.div_lt_iff_lt_mul hc]; omega
  · have := Nat.div_add_mod (b - n) c
    omega

theorem lvPow_eq {t : Tob} {k : Nat} (h : k + 1 < t.lvBits) : t.lvPow k = 2 ^ k := by
  unfold lvPow
  have h1 : (k + 1 == t.lvBits) = false := by simp; omega
  rw [h1]; simp; omega

theorem RefineFacts.nch {t u : Tob} {ps : List Nat} (h : RefineFacts t ps u) : u.nch = t.nch := by
  simp [Tob.nch, h.dims]

theorem RefineFacts.rad {t u : Tob} {ps : List Nat} (h : RefineFacts t ps u) (l : Nat) :
    u.rad l = t.rad l := by simp [Tob.rad, h.ext]

theorem getD_mem {l : List Nat} {k : Nat} (hk : k < l.length) : l.getD k 0 ∈ l := by
  rw [List.getD_eq_getElem _ _ hk]; exact List.getElem_mem hk

theorem idxOf_getD {l : List Nat} (hnd : l.Nodup) {k : Nat} (hk : k < l.length) :
    l.idxOf (l.getD k 0) = k := by
  rw [List.getD_eq_getElem _ _ hk]; exact hnd.idxOf_getElem k hk

theorem getD_idxOf {l : List Nat} {x : Nat} (hx : x ∈ l) : l.getD (l.idxOf x) 0 = x := by
  rw [List.getD_eq_getElem _ _ (List.idxOf_lt_length_of_mem hx)]; exact List.getElem_idxOf _

theorem Core.refine {t u : Tob} {ps : List Nat} (hc : t.Core (· < t.nboxes))
    (hf : RefineFacts t ps u) (hnd : ps.Nodup) (hps : ∀ p ∈ ps, p < t.nboxes)
    (hleaf : ∀ p ∈ ps, t.isLeaf p = true)
    (hbits : ∀ p ∈ ps, t.level p + 3 < t.lvBits) : u.Core (· < u.nboxes) := by
  have hn := hf.nboxes
  have hnn : t.nboxes ≤ u.nboxes := by omega
  have hcp := nch_pos t
  have hnew : ∀ k m, k < ps.length → m < t.nch → t.nboxes + t.nch * k + m < u.nboxes := by
    intro k m hk hm
    rw [hn]
    have h1 : t.nch * (k + 1) ≤ t.nch * ps.length := Nat.mul_le_mul_left _ hk
    rw [Nat.mul_comm ps.length]
    rw [Nat.mul_add] at h1
    omega
  have h00 : (0 : Nat) < t.nboxes := hc.root
  constructor
  · rw [hf.dims]; exact hc.dims_pos
  · rw [hf.ext]; exact hc.ext_pos
  · omega
  · rw [hf.parent 0 hc.root]; exact hc.parent_root
  · rw [hf.level 0 hc.root]; exact hc.level_root
  · intro b hb hb0
    by_cases hbo : b < t.nboxes
    · obtain ⟨p, hp, hpb, hl, m, hm, hcm⟩ := hc.parent_alive b hbo hb0
      have hpp : p ∉ ps := by
        intro hmem
        have := (isLeaf_iff t p).1 (hleaf p hmem) m hm
        omega
      refine ⟨p, by omega, by rw [hf.parent b hbo, hpb], ?_, m, by rw [hf.nch]; exact hm, ?_⟩
      · rw [hf.level b hbo, hf.level p hp, hl]
      · rw [hf.child_old p hp hpp, hcm]
    · obtain ⟨k, m, hk, hm, rfl⟩ := new_index hcp (Nat.not_lt.1 hbo) (by rw [← hn]; exact hb)
      have hmem := getD_mem hk
      refine ⟨ps.getD k 0, ?_, hf.parent_new k m hk hm, ?_, m, by rw [hf.nch]; exact hm, ?_⟩
      · have := hps _ hmem; omega
      · rw [hf.level_new k m hk hm, hf.level _ (hps _ hmem)]
      · rw [hf.child_ps _ hmem, idxOf_getD hnd hk]
  · intro b hb m hm hne
    rw [hf.nch] at hm
    by_cases hbp : b ∈ ps
    · have hk := List.idxOf_lt_length_of_mem hbp
      rw [hf.child_ps b hbp]
      exact ⟨hnew _ m hk hm, by rw [hf.parent_new _ m hk hm, getD_idxOf hbp]⟩
    · by_cases hbo : b < t.nboxes
      · rw [hf.child_old b hbo hbp] at hne ⊢
        obtain ⟨h1, h2⟩ := hc.child_alive b hbo m hm hne
        exact ⟨Nat.lt_of_lt_of_le h1 hnn, by rw [hf.parent _ h1, h2]⟩
      · exact absurd (hf.child_new b (Nat.not_lt.1 hbo) hb m) hne
  · intro b hb m hm m' hm' hne he
    rw [hf.nch] at hm hm'
    by_cases hbp : b ∈ ps
    · rw [hf.child_ps b hbp, hf.child_ps b hbp] at he; omega
    · by_cases hbo : b < t.nboxes
      · rw [hf.child_old b hbo hbp] at hne he
        rw [hf.child_old b hbo hbp] at he
        exact hc.child_inj b hbo m hm m' hm' hne he
      · exact absurd (hf.child_new b (Nat.not_lt.1 hbo) hb m) hne
  · intro b hb
    rw [hf.nch]
    by_cases hbp : b ∈ ps
    · right
      intro m hm
      rw [hf.child_ps b hbp]; omega
    · by_cases hbo : b < t.nboxes
      · rcases hc.all_or_none b hbo with h | h
        · left; intro m hm; rw [hf.child_old b hbo hbp]; exact h m hm
        · right; intro m hm; rw [hf.child_old b hbo hbp]; exact h m hm
      · left; intro m hm; exact hf.child_new b (Nat.not_lt.1 hbo) hb m
  · intro b hb m hm hne i hi
    rw [hf.nch] at hm
    rw [hf.dims] at hi ⊢
    rw [hf.rad]
    by_cases hbp : b ∈ ps
    · have hk := List.idxOf_lt_length_of_mem hbp
      have hbo := hps b hbp
      rw [hf.child_ps b hbp, hf.center_new _ m hk hm, getD_idxOf hbp, hf.center b hbo,
        hf.level b hbo, vecOfSigns_eq hm hi, lvPow_eq (by have := hbits b hbp; omega)]
      unfold Tob.rad
      push_cast
      rw [show 1 + (t.level b + 1) = t.level b + 1 + 1 by omega]
      ring
    · by_cases hbo : b < t.nboxes
      · rw [hf.child_old b hbo hbp] at hne ⊢
        obtain ⟨h1, h2⟩ := hc.child_alive b hbo m hm hne
        rw [hf.center _ h1, hf.center b hbo, hf.level b hbo]
        exact hc.center_child b hbo m hm hne i hi
      · exact absurd (hf.child_new b (Nat.not_lt.1 hbo) hb m) hne

/-! ## Coarsening -/

/-- `coarsen_parents` after the selection of the executed flags. -/
def cparents (t : Tob) (ex : List Nat) : List Nat := ex.map fun s => (t.parent s).toNat
/-- `coarsen_peers` after the selection of the executed flags. -/
def cpeers (t : Tob) (ex : List Nat) : List Nat :=
  (t.cparents ex).flatMap fun p => (List.range t.nch).map fun m => t.child m p

/-- What `coarsen` leaves behind, entry by entry. -/
structure CoarsenFacts (t : Tob) (ex : List Nat) (u : Tob) : Prop where
  dims : u.dims = t.dims
  bits : u.lvBits = t.lvBits
  signed : u.lvSigned = t.lvSigned
  ext : u.rootExtent = t.rootExtent
  nboxes : u.nboxes = t.nboxes
  center : u.center = t.center
  level : ∀ b, u.level b = if b ∈ t.cpeers ex then t.sentinel else t.level b
  parent : ∀ b, u.parent b = if b ∈ t.cpeers ex then -1 else t.parent b
  child : ∀ m b, u.child m b = if b ∈ t.cparents ex then 0 else t.child m b

theorem coarsened_facts (t : Tob) (ex : List Nat) : CoarsenFacts t ex (t.coarsened ex) where
  dims := rfl
  bits := rfl
  signed := rfl
  ext := rfl
  nboxes := rfl
  center := rfl
  level := fun _ => rfl
  parent := fun _ => rfl
  child := fun _ _ => rfl

/-- The flagged boxes whose coarsening is executed. -/
def executed (t : Tob) (cf : Nat → Bool) : List Nat :=
  ((List.range t.nboxes).filter cf).filter fun s => t.canCoarsen s

theorem coarsen_ok {t u : Tob} {cf : Nat → Bool} {e : Bool} (h : t.coarsen cf e = .ok u) :
    CoarsenFacts t (t.executed cf) u ∧
    (∀ b, b < t.nboxes → cf b = true → t.isLeaf b = true ∧ 0 ≤ t.parent b) ∧
    (e = true → ∀ b, b < t.nboxes → cf b = true → t.canCoarsen b = true) := by
  unfold coarsen at h
  split at h
  · simp at h
  · rename_i hany
    simp only [] at h
    split at h
    · simp at h
    · rename_i hroot
      have hleaf : ∀ b, b < t.nboxes → cf b = true → t.isLeaf b = true ∧ 0 ≤ t.parent b := by
        intro b hb hr
        constructor
        · by_contra hc
          apply hany
          rw [List.any_eq_true]
          exact ⟨b, by simpa using hb, by simp [hr, hc]⟩
        · by_contra hc
          apply hroot
          rw [List.any_eq_true]
          exact ⟨b, by simp [hb, hr], by simpa using hc⟩
      split at h
      · rename_i he
        have he : (List.range t.nboxes).filter cf = [] := by simpa using he
        have : t = u := by simpa using h
        subst this
        refine ⟨?_, hleaf, ?_⟩
        · unfold executed
          rw [he]
          exact {
            dims := rfl, bits := rfl, signed := rfl, ext := rfl, nboxes := rfl, center := rfl
            level := fun b => by simp [cpeers, cparents]
            parent := fun b => by simp [cpeers, cparents]
            child := fun m b => by simp [cparents] }
        · intro _ b hb hcf
          have : b ∈ (List.range t.nboxes).filter cf := by simp [hb, hcf]
          rw [he] at this; simp at this
      · split at h
        · simp at h
        · rename_i hig
          have : t.coarsened ((List.range t.nboxes).filter cf |>.filter fun s => t.canCoarsen s) = u
            := by simpa using h
          rw [← this]
          refine ⟨coarsened_facts t _, hleaf, ?_⟩
          intro he b hb hcf
          by_contra hc
          apply hig
          rw [he, Bool.and_true, List.any_eq_true]
          exact ⟨b, by simp [hb, hcf], by simpa using hc⟩

theorem mem_cparents {t : Tob} {ex : List Nat} {p : Nat} :
    p ∈ t.cparents ex ↔ ∃ s ∈ ex, (t.parent s).toNat = p := by simp [cparents]

theorem mem_cpeers {t : Tob} {ex : List Nat} {b : Nat} :
    b ∈ t.cpeers ex ↔ ∃ s ∈ ex, ∃ m, m < t.nch ∧ t.child m (t.parent s).toNat = b := by
  simp [cpeers, cparents]

theorem Core.parent_nat {t : Tob} {A : Nat → Prop} (hc : t.Core A) {b : Nat} (hb : A b)
    (h0 : b ≠ 0) : A (t.parent b).toNat ∧ t.parent b = ((t.parent b).toNat : Int) ∧
      t.level b = t.level (t.parent b).toNat + 1 ∧
      ∃ m, m < t.nch ∧ t.child m (t.parent b).toNat = b := by
  obtain ⟨p, hp, hpb, hl, hm⟩ := hc.parent_alive b hb h0
  rw [hpb]
  exact ⟨hp, by simp, hl, hm⟩

/-- Among the boxes of a valid tree, the removed ones are those with the same parent as an executed
flag. -/
theorem Core.cpeers_iff {t : Tob} (hc : t.Core (· < t.nboxes)) {ex : List Nat}
    (hex : ∀ s ∈ ex, s < t.nboxes ∧ 0 ≤ t.parent s) (b : Nat) :
    b ∈ t.cpeers ex ↔ b < t.nboxes ∧ b ≠ 0 ∧ ∃ s ∈ ex, t.parent b = t.parent s := by
  have key : ∀ s ∈ ex, s ≠ 0 := by
    intro s hs h
    have := (hex s hs).2
    rw [h, hc.parent_root] at this
    omega
  rw [mem_cpeers]
  constructor
  · rintro ⟨s, hs, m, hm, rfl⟩
    obtain ⟨hp, hpe, _, m', hm', hcm⟩ := hc.parent_nat (hex s hs).1 (key s hs)
    have hne : t.child m (t.parent s).toNat ≠ 0 := by
      rcases hc.all_or_none _ hp with h | h
      · have := h m' hm'; rw [hcm] at this; exact absurd this (key s hs)
      · exact h m hm
    obtain ⟨h1, h2⟩ := hc.child_alive _ hp m hm hne
    exact ⟨h1, hne, s, hs, by rw [h2, ← hpe]⟩
  · rintro ⟨hb, h0, s, hs, he⟩
    obtain ⟨hp, hpe, _, m, hm, hcm⟩ := hc.parent_nat hb h0
    refine ⟨s, hs, m, hm, ?_⟩
    rw [← he, hcm]

theorem Core.coarsen {t u : Tob} {ex : List Nat} (hc : t.Core (· < t.nboxes))
    (hf : CoarsenFacts t ex u) (hex : ∀ s ∈ ex, s < t.nboxes ∧ 0 ≤ t.parent s)
    (hcan : ∀ s ∈ ex, t.canCoarsen s = true) :
    u.Core (fun b => b < t.nboxes ∧ b ∉ t.cpeers ex) := by
  have hpi := hc.cpeers_iff hex
  have hnch : u.nch = t.nch := by simp [Tob.nch, hf.dims]
  have h0 : 0 ∉ t.cpeers ex := by rw [hpi]; simp
  have peer_leaf : ∀ b ∈ t.cpeers ex, ∀ m, m < t.nch → t.child m b = 0 := by
    intro b hb
    obtain ⟨s, hs, m, hm, rfl⟩ := mem_cpeers.1 hb
    have := hcan s hs
    unfold canCoarsen at this
    rw [List.all_eq_true] at this
    exact (isLeaf_iff t _).1 (this m (by simpa using hm))
  have par_child : ∀ b, b < t.nboxes → b ∈ t.cparents ex → ∀ m, m < t.nch →
      t.child m b ∈ t.cpeers ex := by
    intro b hb hbp m hm
    obtain ⟨s, hs, rfl⟩ := mem_cparents.1 hbp
    exact mem_cpeers.2 ⟨s, hs, m, hm, rfl⟩
  constructor
  · rw [hf.dims]; exact hc.dims_pos
  · rw [hf.ext]; exact hc.ext_pos
  · exact ⟨hc.root, h0⟩
  · rw [hf.parent, if_neg h0]; exact hc.parent_root
  · rw [hf.level, if_neg h0]; exact hc.level_root
  · rintro b ⟨hb, hbp⟩ hb0
    obtain ⟨p, hp, hpb, hl, m, hm, hcm⟩ := hc.parent_alive b hb hb0
    have hpp : p ∉ t.cpeers ex := by
      intro h
      have := peer_leaf p h m hm
      omega
    have hpc : p ∉ t.cparents ex := by
      intro h
      have := par_child p hp h m hm
      rw [hcm] at this
      exact hbp this
    refine ⟨p, ⟨hp, hpp⟩, by rw [hf.parent, if_neg hbp, hpb], ?_, m, by rw [hnch]; exact hm, ?_⟩
    · rw [hf.level, if_neg hbp, hf.level, if_neg hpp, hl]
    · rw [hf.child, if_neg hpc, hcm]
  · rintro b ⟨hb, hbp⟩ m hm hne
    rw [hnch] at hm
    rw [hf.child] at hne ⊢
    split at hne
    · exact absurd rfl hne
    · rename_i hpc
      rw [if_neg hpc]
      obtain ⟨h1, h2⟩ := hc.child_alive b hb m hm hne
      have hcp : t.child m b ∉ t.cpeers ex := by
        intro h
        obtain ⟨s, hs, he⟩ := ((hpi _).1 h).2.2
        apply hpc
        rw [mem_cparents]
        refine ⟨s, hs, ?_⟩
        rw [← he, h2]; simp
      exact ⟨⟨h1, hcp⟩, by rw [hf.parent, if_neg hcp, h2]⟩
  · rintro b ⟨hb, hbp⟩ m hm m' hm' hne he
    rw [hnch] at hm hm'
    rw [hf.child] at hne he
    split at hne
    · exact absurd rfl hne
    · rename_i hpc
      rw [if_neg hpc, hf.child, if_neg hpc] at he
      exact hc.child_inj b hb m hm m' hm' hne he
  · rintro b ⟨hb, hbp⟩
    rw [hnch]
    by_cases hpc : b ∈ t.cparents ex
    · left; intro m hm; rw [hf.child, if_pos hpc]
    · rcases hc.all_or_none b hb with h | h
      · left; intro m hm; rw [hf.child, if_neg hpc]; exact h m hm
      · right; intro m hm; rw [hf.child, if_neg hpc]; exact h m hm
  · rintro b ⟨hb, hbp⟩ m hm hne i hi
    rw [hnch] at hm
    rw [hf.dims] at hi ⊢
    rw [hf.child] at hne ⊢
    split at hne
    · exact absurd rfl hne
    · rename_i hpc
      rw [if_neg hpc, hf.center, hf.level, if_neg hbp]
      have : u.rad = t.rad := by funext l; simp [Tob.rad, hf.ext]
      rw [this]
      exact hc.center_child b hb m hm hne i hi

/-! ## Renumbering -/

/-- `u` consists of the boxes `A` of `t`, box `b` of `u` being box `σ b` of `t`. -/
structure Relabel (t : Tob) (A : Nat → Prop) (u : Tob) (σ τ : Nat → Nat) : Prop where
  dims : u.dims = t.dims
  bits : u.lvBits = t.lvBits
  signed : u.lvSigned = t.lvSigned
  ext : u.rootExtent = t.rootExtent
  fwd : ∀ b, b < u.nboxes → A (σ b) ∧ τ (σ b) = b
  bwd : ∀ a, A a → τ a < u.nboxes ∧ σ (τ a) = a
  root : τ 0 = 0
  level : ∀ b, b < u.nboxes → u.level b = t.level (σ b)
  center : ∀ b, b < u.nboxes → u.center b = t.center (σ b)
  parent : ∀ b, b < u.nboxes → u.parent b =
    if 0 ≤ t.parent (σ b) then (τ (t.parent (σ b)).toNat : Int) else t.parent (σ b)
  child : ∀ b, b < u.nboxes → ∀ m, u.child m b =
    if t.child m (σ b) ≠ 0 then τ (t.child m (σ b)) else 0

theorem Core.relabel {t u : Tob} {A : Nat → Prop} {σ τ : Nat → Nat} (hc : t.Core A)
    (hr : Relabel t A u σ τ) : u.Core (· < u.nboxes) := by
  have hnch : u.nch = t.nch := by simp [Tob.nch, hr.dims]
  have h0 : (0 : Nat) < u.nboxes := by have := (hr.bwd 0 hc.root).1; omega
  have hσ0 : σ 0 = 0 := by have := (hr.bwd 0 hc.root).2; rwa [hr.root] at this
  have hσne : ∀ b, b < u.nboxes → b ≠ 0 → σ b ≠ 0 := by
    intro b hb hb0 h
    have := (hr.fwd b hb).2
    rw [h, hr.root] at this
    omega
  have hτne : ∀ a, A a → a ≠ 0 → τ a ≠ 0 := by
    intro a ha ha0 h
    have := (hr.bwd a ha).2
    rw [h, hσ0] at this
    omega
  have hchild : ∀ b, b < u.nboxes → ∀ m, m < t.nch → u.child m b ≠ 0 →
      t.child m (σ b) ≠ 0 ∧ u.child m b = τ (t.child m (σ b)) := by
    intro b hb m hm hne
    rw [hr.child b hb] at hne ⊢
    split at hne
    · rename_i h; exact ⟨h, by rw [if_pos h]⟩
    · exact absurd rfl hne
  constructor
  · rw [hr.dims]; exact hc.dims_pos
  · rw [hr.ext]; exact hc.ext_pos
  · exact h0
  · rw [hr.parent 0 h0, hσ0, hc.parent_root]; simp
  · rw [hr.level 0 h0, hσ0, hc.level_root]
  · intro b hb hb0
    have hA := (hr.fwd b hb).1
    obtain ⟨p, hp, hpb, hl, m, hm, hcm⟩ := hc.parent_alive (σ b) hA (hσne b hb hb0)
    have hp' := hr.bwd p hp
    refine ⟨τ p, hp'.1, ?_, ?_, m, by rw [hnch]; exact hm, ?_⟩
    · rw [hr.parent b hb, hpb]; simp
    · rw [hr.level b hb, hr.level _ hp'.1, hp'.2, hl]
    · rw [hr.child _ hp'.1, hp'.2, hcm, if_pos (hσne b hb hb0), (hr.fwd b hb).2]
  · intro b hb m hm hne
    rw [hnch] at hm
    obtain ⟨h1, h2⟩ := hchild b hb m hm hne
    obtain ⟨h3, h4⟩ := hc.child_alive _ (hr.fwd b hb).1 m hm h1
    have h5 := hr.bwd _ h3
    rw [h2]
    refine ⟨h5.1, ?_⟩
    rw [hr.parent _ h5.1, h5.2, h4]
    simp [(hr.fwd b hb).2]
  · intro b hb m hm m' hm' hne he
    rw [hnch] at hm hm'
    obtain ⟨h1, h2⟩ := hchild b hb m hm hne
    obtain ⟨h1', h2'⟩ := hchild b hb m' hm' (by rw [← he]; exact hne)
    have hA := (hr.fwd b hb).1
    apply hc.child_inj _ hA m hm m' hm' h1
    have e1 := (hr.bwd _ (hc.child_alive _ hA m hm h1).1).2
    have e2 := (hr.bwd _ (hc.child_alive _ hA m' hm' h1').1).2
    rw [← e1, ← e2, ← h2, ← h2', he]
  · intro b hb
    have hA := (hr.fwd b hb).1
    rw [hnch]
    rcases hc.all_or_none _ hA with h | h
    · left; intro m hm; rw [hr.child b hb, if_neg (by simp [h m hm])]
    · right; intro m hm; rw [hr.child b hb, if_pos (h m hm)]
      exact hτne _ (hc.child_alive _ hA m hm (h m hm)).1 (h m hm)
  · intro b hb m hm hne i hi
    rw [hnch] at hm
    rw [hr.dims] at hi ⊢
    obtain ⟨h1, h2⟩ := hchild b hb m hm hne
    have hA := (hr.fwd b hb).1
    have h5 := hr.bwd _ (hc.child_alive _ hA m hm h1).1
    rw [h2, hr.center _ h5.1, h5.2, hr.center b hb, hr.level b hb]
    have : u.rad = t.rad := by funext l; simp [Tob.rad, hr.ext]
    rw [this]
    exact hc.center_child _ hA m hm h1 i hi

/-- In a non-decreasing sequence bounded by `S`, the entries equal to `S` are the last ones. -/
theorem stale_last (f : Nat → Nat) (S : Nat) : ∀ n,
    (∀ a b, a ≤ b → b < n → f a ≤ f b) → (∀ b, b < n → f b ≤ S) →
    ∀ b, b < n → (f b ≠ S ↔ b < n - (List.range n).countP fun b => f b == S) := by
  intro n
  induction n with
  | zero => intro _ _ b hb; omega
  | succ n ih =>
    intro hmono hle b hb
    have ih' := ih (fun a b h1 h2 => hmono a b h1 (by omega)) (fun b hb => hle b (by omega))
    rw [List.range_succ, List.countP_append]
    by_cases hS : f n = S
    · have e : List.countP (fun b => f b == S) [n] = 1 := by simp [hS]
      rw [e]
      have e2 : ∀ c, n + 1 - (c + 1) = n - c := by omega
      rw [e2]
      by_cases hbn : b = n
      · subst hbn
        constructor
        · intro h; exact absurd hS h
        · intro h; omega
      · exact ih' b (by omega)
    · have e : List.countP (fun b => f b == S) [n] = 0 := by simp [hS]
      have hlt : f n < S := Nat.lt_of_le_of_ne (hle n (by omega)) hS
      have e2 : (List.range n).countP (fun b => f b == S) = 0 := by
        rw [List.countP_eq_zero]
        intro a ha
        have := hmono a n (by have := List.mem_range.1 ha; omega) (by omega)
        simp; omega
      rw [e, e2]
      have := hmono b n (by omega) (by omega)
      constructor
      · intro _; omega
      · intro _ h; omega

theorem pairwise_getD {l : List Nat} (h : l.Pairwise (· ≤ ·)) {a b : Nat} (hab : a ≤ b)
    (hb : b < l.length) : l.getD a 0 ≤ l.getD b 0 := by
  rw [List.getD_eq_getElem _ _ (by omega), List.getD_eq_getElem _ _ hb]
  rcases Nat.eq_or_lt_of_le hab with rfl | h'
  · exact Nat.le_refl _
  · exact List.pairwise_iff_getElem.1 h a b (by omega) hb h'

theorem mono_of_adjacent {f : Nat → Nat} {n : Nat} (h : ∀ b, b < n - 1 → f b ≤ f (b + 1)) :
    ∀ a b, a ≤ b → b < n → f a ≤ f b := by
  intro a b hab
  induction b, hab using Nat.le_induction with
  | base => intro _; exact Nat.le_refl _
  | succ b hab ih => intro hb; exact Nat.le_trans (ih (by omega)) (h b (by omega))

/-- Sorting and pruning renumbers the boxes that have not been deleted. -/
theorem sortAndPrune_relabel {t : Tob} {A : Nat → Prop} (hc : t.Core A) {argsort}
    (hs : IsArgsort argsort) (hsig : t.lvSigned = true)
    (hA : ∀ b, A b ↔ b < t.nboxes ∧ t.level b ≠ t.sentinel)
    (hle : ∀ b, b < t.nboxes → t.level b ≤ t.sentinel) :
    ∃ σ τ, Relabel t A (t.sortAndPrune argsort) σ τ ∧
      ∀ a b, a ≤ b → b < (t.sortAndPrune argsort).nboxes →
        (t.sortAndPrune argsort).level a ≤ (t.sortAndPrune argsort).level b := by
  have hS0 : 0 < t.sentinel := by
    have h := ((hA 0).1 hc.root).2
    rw [hc.level_root] at h; omega
  unfold sortAndPrune sortByLevel
  split
  · rename_i hdec
    set no := argsort ((List.range t.nboxes).map t.level) with hno
    obtain ⟨hperm, hsorted⟩ := hs ((List.range t.nboxes).map t.level)
    rw [← hno] at hperm hsorted
    have hlen : no.length = t.nboxes := by simpa using hperm.length_eq
    have hnd : no.Nodup := hperm.nodup_iff.2 List.nodup_range
    have hmem : ∀ x, x ∈ no ↔ x < t.nboxes := by
      intro x; rw [hperm.mem_iff]; simp
    have hσlt : ∀ b, b < t.nboxes → no.getD b 0 < t.nboxes := by
      intro b hb
      exact (hmem _).1 (getD_mem (by omega))
    have hlev : ∀ a b, a ≤ b → b < t.nboxes → t.level (no.getD a 0) ≤ t.level (no.getD b 0) := by
      intro a b hab hb
      have := pairwise_getD hsorted hab (by simpa [hlen] using hb)
      have e : ∀ c, c < t.nboxes → (no.map fun k => ((List.range t.nboxes).map t.level).getD k 0).getD c 0
          = t.level (no.getD c 0) := by
        intro c hc'
        have h1 := hσlt c hc'
        rw [List.getD_eq_getElem _ _ (by omega)] at h1
        rw [List.getD_eq_getElem _ _ (by simpa [hlen] using hc'), List.getElem_map,
          List.getD_eq_getElem _ _ (by simpa using h1), List.getD_eq_getElem _ _ (by omega)]
        simp
      rwa [e a (by omega), e b hb] at this
    set o2n := reverseIndexArray no no.length with ho2n
    have hτσ : ∀ b, b < t.nboxes → o2n.getD (no.getD b 0) 0 = b := by
      intro b hb
      exact reverseIndexArray_getD no no.length hnd
        (fun x hx => by rw [hlen]; exact (hmem x).1 hx) b (by omega)
    have hστ : ∀ a, a < t.nboxes → o2n.getD a 0 < t.nboxes ∧ no.getD (o2n.getD a 0) 0 = a := by
      intro a ha
      have h1 := List.idxOf_lt_length_of_mem ((hmem a).2 ha)
      have h2 := getD_idxOf ((hmem a).2 ha)
      have h3 := hτσ (no.idxOf a) (by omega)
      rw [h2] at h3
      rw [h3]
      exact ⟨by omega, h2⟩
    have hτ0 : o2n.getD 0 0 = 0 := by
      have h0 : 0 < t.nboxes := ((hA 0).1 hc.root).1
      obtain ⟨h1, h2⟩ := hστ 0 h0
      have h3 := hlev 0 (o2n.getD 0 0) (by omega) h1
      rw [h2, hc.level_root] at h3
      have h4 : no.getD 0 0 = 0 := by
        by_contra hne
        have hlt := hσlt 0 h0
        by_cases hAl : A (no.getD 0 0)
        · obtain ⟨p, _, _, hl, _⟩ := hc.parent_alive _ hAl hne
          omega
        · have := (hA (no.getD 0 0)).not.1 hAl
          have : t.level (no.getD 0 0) = t.sentinel := by
            by_contra h; exact this ⟨hlt, h⟩
          omega
      have := hτσ 0 h0
      rwa [h4] at this
    have hlevP : ∀ b, (t.permuted no).level b = t.level (no.getD b 0) := fun _ => rfl
    have hst := stale_last (t.permuted no).level t.sentinel t.nboxes hlev
      (fun b hb => hle _ (hσlt b hb))
    have hNle : (t.permuted no).truncated.nboxes ≤ t.nboxes := by
      change t.nboxes - _ ≤ t.nboxes; omega
    have hlt : ∀ b, b < t.nboxes → (b < (t.permuted no).truncated.nboxes ↔
        t.level (no.getD b 0) ≠ t.sentinel) := fun b hb => (hst b hb).symm
    refine ⟨fun b => no.getD b 0, fun a => o2n.getD a 0, ?_, ?_⟩
    · exact {
        dims := rfl, bits := rfl, signed := rfl, ext := rfl
        fwd := by
          intro b hb
          have hb' : b < t.nboxes := by omega
          exact ⟨(hA _).2 ⟨hσlt b hb', (hlt b hb').1 hb⟩, hτσ b hb'⟩
        bwd := by
          intro a ha
          obtain ⟨ha1, ha2⟩ := (hA a).1 ha
          obtain ⟨h1, h2⟩ := hστ a ha1
          exact ⟨(hlt _ h1).2 (by rw [h2]; exact ha2), h2⟩
        root := hτ0
        level := fun _ _ => rfl
        center := fun _ _ => rfl
        parent := fun _ _ => rfl
        child := by
          intro b hb m
          change (if t.child m (no.getD b 0) ≠ 0 then o2n.getD (t.child m (no.getD b 0)) 0
            else t.child m (no.getD b 0)) = _
          split
          · rfl
          · rename_i h; simpa using h }
    · intro a b hab hb
      exact hlev a b hab (by omega)
  · rename_i hdec
    have hadj : ∀ b, b < t.nboxes - 1 → t.level b ≤ t.level (b + 1) := by
      intro b hb
      by_contra hlt
      apply hdec
      unfold levelsDecrease
      rw [hsig, Bool.true_and, List.any_eq_true]
      exact ⟨b, by simpa using hb, by simpa using hlt⟩
    have hmono := mono_of_adjacent hadj
    have hst := stale_last t.level t.sentinel t.nboxes hmono hle
    have hNle : t.truncated.nboxes ≤ t.nboxes := by
      change t.nboxes - _ ≤ t.nboxes; omega
    have hlt : ∀ b, b < t.nboxes → (b < t.truncated.nboxes ↔ t.level b ≠ t.sentinel) :=
      fun b hb => (hst b hb).symm
    refine ⟨id, id, ?_, ?_⟩
    · exact {
        dims := rfl, bits := rfl, signed := rfl, ext := rfl
        fwd := by
          intro b hb
          have hb' : b < t.nboxes := by omega
          exact ⟨(hA _).2 ⟨hb', (hlt b hb').1 hb⟩, rfl⟩
        bwd := by
          intro a ha
          obtain ⟨ha1, ha2⟩ := (hA a).1 ha
          exact ⟨(hlt _ ha1).2 ha2, rfl⟩
        root := rfl
        level := fun _ _ => rfl
        center := fun _ _ => rfl
        parent := by
          intro b hb
          change t.parent b = if 0 ≤ t.parent b then ((t.parent b).toNat : Int) else t.parent b
          split <;> omega
        child := by
          intro b hb m
          change t.child m b = if t.child m b ≠ 0 then t.child m b else 0
          split <;> omega }
    · intro a b hab hb
      exact hmono a b hab (by omega)

/-! ## A whole call -/

/-- Everything known about a call that returned. -/
structure StepFacts (t : Tob) (rf cf : Nat → Bool) (u tr tc : Tob) (σ τ : Nat → Nat) : Prop where
  noBoth : ∀ b, b < t.nboxes → ¬ (rf b = true ∧ cf b = true)
  refineFacts : RefineFacts t ((List.range t.nboxes).filter rf) tr
  refineLeaf : ∀ b, b < t.nboxes → rf b = true → t.isLeaf b = true
  coreR : tr.Core (· < tr.nboxes)
  coarsenFacts : CoarsenFacts tr (tr.executed (resizeFlags t.nboxes cf)) tc
  coarsenLeaf : ∀ b, b < t.nboxes → cf b = true → tr.isLeaf b = true ∧ 0 ≤ tr.parent b
  coreC : tc.Core fun b => b < tr.nboxes ∧ b ∉ tr.cpeers (tr.executed (resizeFlags t.nboxes cf))
  relabel : Relabel tc (fun b => b < tr.nboxes ∧
    b ∉ tr.cpeers (tr.executed (resizeFlags t.nboxes cf))) u σ τ
  valid : u.Valid
  levelB : ∀ b, b < tr.nboxes → tr.level b + 2 < t.lvBits
  levelR : ∀ b, b < tr.nboxes → ∀ L, (∀ a, a < t.nboxes → t.level a ≤ L) → tr.level b ≤ L + 1

theorem mem_executed {t : Tob} {cf : Nat → Bool} {s : Nat} :
    s ∈ t.executed cf ↔ s < t.nboxes ∧ cf s = true ∧ t.canCoarsen s = true := by
  simp only [executed, List.mem_filter, List.mem_range]; tauto

theorem resize_true {n : Nat} {cf : Nat → Bool} {b : Nat} :
    resizeFlags n cf b = true ↔ b < n ∧ cf b = true := by
  simp [resizeFlags]

theorem step_facts {t u : Tob} {argsort} {rf cf : Nat → Bool} {e : Bool} (hs : IsArgsort argsort)
    (hv : t.Valid) (hsig : t.lvSigned = true)
    (hL : ∀ b, b < t.nboxes → t.level b + 2 < t.lvBits)
    (hbits : ∀ b, b < t.nboxes → rf b = true → t.level b + 3 < t.lvBits)
    (h : t.refineAndCoarsen argsort rf cf e = .ok u) :
    ∃ tr tc σ τ, t.refine rf = .ok tr ∧
      tr.coarsen (resizeFlags t.nboxes cf) e = .ok tc ∧ u = tc.sortAndPrune argsort ∧
      StepFacts t rf cf u tr tc σ τ := by
  unfold refineAndCoarsen at h
  split at h
  · simp at h
  rename_i hboth
  have hnb : ∀ b, b < t.nboxes → ¬ (rf b = true ∧ cf b = true) := by
    rintro b hb ⟨h1, h2⟩
    apply hboth
    rw [List.any_eq_true]
    exact ⟨b, by simpa using hb, by simp [h1, h2]⟩
  cases hr : t.refine rf with
  | error er => rw [hr] at h; simp [bind, Except.bind] at h
  | ok tr =>
    rw [hr] at h
    simp only [bind, Except.bind] at h
    cases hcr : tr.coarsen (resizeFlags t.nboxes cf) e with
    | error er => rw [hcr] at h; simp at h
    | ok tc =>
      rw [hcr] at h
      have hu : tc.sortAndPrune argsort = u := by simpa [pure, Except.pure] using h
      obtain ⟨hrf, hrl⟩ := refine_ok hr
      obtain ⟨hcf, hcl, hci⟩ := coarsen_ok hcr
      have hps : ∀ p ∈ (List.range t.nboxes).filter rf, p < t.nboxes := by
        intro p hp; simp at hp; exact hp.1
      have hcoreR := hv.toCore.refine hrf (List.nodup_range.filter _) hps
        (fun p hp => by simp at hp; exact hrl p hp.1 hp.2)
        (fun p hp => by simp at hp; exact hbits p hp.1 hp.2)
      have hnle : t.nboxes ≤ tr.nboxes := by rw [hrf.nboxes]; omega
      have hex : ∀ s ∈ tr.executed (resizeFlags t.nboxes cf), s < tr.nboxes ∧ 0 ≤ tr.parent s := by
        intro s hs'
        obtain ⟨h1, h2, _⟩ := mem_executed.1 hs'
        exact ⟨h1, (hcl s h1 h2).2⟩
      have hcan : ∀ s ∈ tr.executed (resizeFlags t.nboxes cf), tr.canCoarsen s = true :=
        fun s hs' => (mem_executed.1 hs').2.2
      have hcoreC := hcoreR.coarsen hcf hex hcan
      have hlevR : ∀ b, b < tr.nboxes → ∀ L, (∀ a, a < t.nboxes → t.level a ≤ L) →
          tr.level b ≤ L + 1 := by
        intro b hb L hL
        by_cases hbo : b < t.nboxes
        · rw [hrf.level b hbo]; have := hL b hbo; omega
        · obtain ⟨k, m, hk, hm, rfl⟩ := new_index (nch_pos t) (Nat.not_lt.1 hbo)
            (by rw [← hrf.nboxes]; exact hb)
          rw [hrf.level_new k m hk hm]
          have := hL _ (hps _ (getD_mem hk))
          omega
      have hSe : tc.sentinel = t.sentinel := by
        unfold sentinel; rw [hcf.bits, hcf.signed, hrf.bits, hrf.signed]
      have hSe' : tr.sentinel = t.sentinel := by
        unfold sentinel; rw [hrf.bits, hrf.signed]
      have hSgt : t.lvBits < t.sentinel + 3 := by
        unfold sentinel
        rw [if_pos hsig]
        have := Nat.lt_two_pow_self (n := t.lvBits - 1)
        omega
      have hlev2 : ∀ b, b < tr.nboxes → tr.level b + 2 < t.lvBits := by
        intro b hb
        by_cases hbo : b < t.nboxes
        · rw [hrf.level b hbo]; exact hL b hbo
        · obtain ⟨k, m, hk, hm, rfl⟩ := new_index (nch_pos t) (Nat.not_lt.1 hbo)
            (by rw [← hrf.nboxes]; exact hb)
          rw [hrf.level_new k m hk hm]
          have hmem := getD_mem hk
          simp only [List.mem_filter, List.mem_range] at hmem
          have := hbits _ hmem.1 hmem.2
          omega
      have hAiff : ∀ b, (b < tr.nboxes ∧ b ∉ tr.cpeers (tr.executed (resizeFlags t.nboxes cf))) ↔
          b < tc.nboxes ∧ tc.level b ≠ tc.sentinel := by
        intro b
        rw [hcf.nboxes]
        constructor
        · rintro ⟨h1, h2⟩
          refine ⟨h1, ?_⟩
          rw [hcf.level, if_neg h2, hSe]
          have := hlev2 b h1
          omega
        · rintro ⟨h1, h2⟩
          refine ⟨h1, fun h3 => h2 ?_⟩
          rw [hcf.level, if_pos h3, hSe, hSe']
      have hle : ∀ b, b < tc.nboxes → tc.level b ≤ tc.sentinel := by
        intro b hb
        rw [hcf.nboxes] at hb
        rw [hcf.level]
        split
        · rw [hSe, hSe']
        · have := hlev2 b hb; omega
      obtain ⟨σ, τ, hrel, hmono⟩ := sortAndPrune_relabel hcoreC hs
        (by rw [hcf.signed, hrf.signed]; exact hsig) hAiff hle
      rw [hu] at hrel hmono
      refine ⟨tr, tc, σ, τ, rfl, hcr, hu.symm, hnb, hrf, hrl, hcoreR, hcf, ?_, hcoreC, hrel, ?_,
        hlev2, hlevR⟩
      · intro b hb hcfb
        exact hcl b (by omega) (by rw [resize_true]; exact ⟨hb, hcfb⟩)
      · exact { toCore := hcoreC.relabel hrel, level_mono := hmono }

end Boxtree.Tob
