import Verif.Model.TranslationClasses
import Verif.Lemmas.Tools
import Verif.Props.Tools
import Verif.Props.Lists
import Mathlib.Algebra.Order.Floor.Ring
import Mathlib.Tactic.FieldSimp

set_option linter.unusedSimpArgs false
set_option linter.unusedVariables false

/-!
# C41: translation classes
-/

namespace Boxtree
open BoxTree Tools

theorem rint_intCast (z : ℤ) : rint (z : ℚ) = z := by
  unfold rint
  simp

/-! ### Looking up the row of a CSR entry -/

/-- Binary search in the `starts` of a CSR list finds the row an entry belongs to. -/
theorem csr_bsearch (rows : List (List Nat)) (p fuel : Nat) (hp : p < rows.flatten.length)
    (hf : 1 + rows.length ≤ fuel) :
    ∃ j : Nat, bsearch (fun i => (buildLists rows).starts.getD i 0) (1 + rows.length) p fuel
        = some (j : ℤ) ∧ j < rows.length ∧ (buildLists rows).starts.getD j 0 ≤ p ∧
      p < (buildLists rows).starts.getD (j + 1) 0 := by
  have hlen : (buildLists rows).starts.length = 1 + rows.length := by
    simp [buildLists, length_prefixSums]; omega
  have hst : ∀ k ≤ rows.length, (buildLists rows).starts.getD k 0 =
      ((rows.map List.length).take k).sum := fun k hk => by
    simp only [buildLists]
    rw [prefixSums_getD _ _ _ (by simpa using hk)]; omega
  have hsorted : (buildLists rows).starts.Pairwise (· ≤ ·) := by
    rw [List.pairwise_iff_getElem]
    intro i j hi hj hij
    have e1 := hst i (by omega)
    have e2 := hst j (by omega)
    rw [List.getD_eq_getElem _ _ hi] at e1
    rw [List.getD_eq_getElem _ _ hj] at e2
    rw [e1, e2]
    exact take_sum_mono _ hij.le
  obtain ⟨res, h1, h2⟩ := C47_bsearch (buildLists rows).starts 0
    (by intro h; rw [h] at hlen; simp at hlen; omega) hsorted p fuel (by omega)
  rw [hlen] at h1
  rcases h2 with ⟨_, h2⟩ | ⟨i, rfl, hi, h3, h4⟩
  · have := h2 ((buildLists rows).starts.getD 0 0) (by
      rw [List.getD_eq_getElem _ _ (by omega)]; exact List.getElem_mem _)
    rw [hst 0 (Nat.zero_le _)] at this
    simp at this
  · have hlast : (buildLists rows).starts.getD rows.length 0 = rows.flatten.length := by
      rw [hst _ le_rfl, List.take_of_length_le (by simp), List.length_flatten]
    have hi' : i < rows.length := by
      rcases Nat.lt_or_ge i rows.length with h | h
      · exact h
      · have : i = rows.length := by omega
        subst this
        omega
    exact ⟨i, h1, hi', h3, h4 (i + 1) (by omega) (by omega)⟩

/-- Entry `p` of the flat array, if it lies in row `j`, is entry `p - starts[j]` of the row. -/
theorem csr_entry (rows : List (List Nat)) (p j : Nat) (hj : j < rows.length)
    (h1 : (buildLists rows).starts.getD j 0 ≤ p) (h2 : p < (buildLists rows).starts.getD (j + 1) 0) :
    (buildLists rows).lists.getD p 0 ∈ (buildLists rows).row j := by
  have hr := row_length_build rows j hj
  unfold BuiltList.row at hr ⊢
  set s := (buildLists rows).starts.getD j 0
  set e := (buildLists rows).starts.getD (j + 1) 0
  have hlen : p < (buildLists rows).lists.length := by
    rw [List.length_take, List.length_drop] at hr
    omega
  rw [List.getD_eq_getElem _ _ hlen]
  rw [List.mem_take_iff_getElem]
  refine ⟨p - s, by rw [List.length_drop]; omega, ?_⟩
  rw [List.getElem_drop]
  congr 1
  omega

/-- An entry belongs to one row only. -/
theorem csr_row_unique (rows : List (List Nat)) (p j j' : Nat) (hj : j < rows.length)
    (hj' : j' < rows.length)
    (h1 : (buildLists rows).starts.getD j 0 ≤ p) (h2 : p < (buildLists rows).starts.getD (j + 1) 0)
    (h1' : (buildLists rows).starts.getD j' 0 ≤ p)
    (h2' : p < (buildLists rows).starts.getD (j' + 1) 0) : j = j' := by
  have hst : ∀ k ≤ rows.length, (buildLists rows).starts.getD k 0 =
      ((rows.map List.length).take k).sum := fun k hk => by
    simp only [buildLists]
    rw [prefixSums_getD _ _ _ (by simpa using hk)]; omega
  have hmono : ∀ a b, a ≤ b → b ≤ rows.length → (buildLists rows).starts.getD a 0 ≤
      (buildLists rows).starts.getD b 0 := fun a b hab hb => by
    rw [hst a (by omega), hst b hb]; exact take_sum_mono _ hab
  rcases Nat.lt_trichotomy j j' with h | h | h
  · have := hmono (j + 1) j' h (by omega); omega
  · exact h
  · have := hmono (j' + 1) j h (by omega); omega

/-- Entries of rows are entries of the flat array. -/
theorem csr_lt_length (rows : List (List Nat)) (p j : Nat) (hj : j < rows.length)
    (h2 : p < (buildLists rows).starts.getD (j + 1) 0) : p < (buildLists rows).lists.length := by
  simp only [buildLists] at h2 ⊢
  rw [prefixSums_getD _ _ _ (by simpa using Nat.succ_le_of_lt hj)] at h2
  have := take_sum_mono (rows.map List.length) (show j + 1 ≤ rows.length from hj)
  rw [List.take_of_length_le (l := rows.map List.length) (i := rows.length) (by simp),
    ← List.length_flatten] at this
  omega

theorem translationClass_congr (dims n : Nat) {v w : Nat → ℤ} (h : ∀ i < dims, v i = w i) :
    translationClass dims n v = translationClass dims n w := by
  have hall : (List.range dims).all (fun i => decide (-(2 * n + 1 : ℤ) ≤ v i ∧ v i ≤ 2 * n + 1)) =
      (List.range dims).all (fun i => decide (-(2 * n + 1 : ℤ) ≤ w i ∧ w i ≤ 2 * n + 1)) := by
    rw [Bool.eq_iff_iff, List.all_eq_true, List.all_eq_true]
    constructor <;> intro hh i hi
    · rw [← h i (List.mem_range.1 hi)]; exact hh i hi
    · rw [h i (List.mem_range.1 hi)]; exact hh i hi
  unfold translationClass
  simp only [hall]
  congr 2
  apply List.foldl_ext
  intro st i hi
  rw [h i (List.mem_range.1 hi)]

/-! ### Encoding and decoding -/

/-- Number with the given digits in base `4n+3`, starting at axis `k`. -/
def encDigits (n : Nat) (dg : Nat → Nat) : Nat → Nat → Nat
  | _, 0 => 0
  | k, m + 1 => dg k + (4 * n + 3) * encDigits n dg (k + 1) m

theorem encDigits_lt (n : Nat) (dg : Nat → Nat) (k m : Nat)
    (h : ∀ i, k ≤ i → i < k + m → dg i < 4 * n + 3) :
    encDigits n dg k m < (4 * n + 3) ^ m := by
  induction m generalizing k with
  | zero => simp [encDigits]
  | succ m ih =>
    have h1 := ih (k + 1) (fun i hi hi' => h i (by omega) (by omega))
    have h2 := h k le_rfl (by omega)
    rw [encDigits, pow_succ, mul_comm (_ ^ m)]
    nlinarith

theorem decode_encDigits (n : Nat) (dg : Nat → Nat) (k m : Nat)
    (h : ∀ i, k ≤ i → i < k + m → dg i < 4 * n + 3) :
    classToVec n m (encDigits n dg k m) =
      (List.range' k m).map fun i => (dg i : ℤ) - (2 * n + 1) := by
  induction m generalizing k with
  | zero => rfl
  | succ m ih =>
    have h2 := h k le_rfl (by omega)
    rw [List.range'_succ, List.map_cons, ← ih (k + 1) (fun i hi hi' => h i (by omega) (by omega))]
    have e1 : (dg k + (4 * n + 3) * encDigits n dg (k + 1) m) % (4 * n + 3) = dg k := by
      rw [Nat.add_mul_mod_self_left, Nat.mod_eq_of_lt h2]
    have e2 : (dg k + (4 * n + 3) * encDigits n dg (k + 1) m) / (4 * n + 3) =
        encDigits n dg (k + 1) m := by
      rw [Nat.add_mul_div_left _ _ (by omega), Nat.div_eq_of_lt h2, Nat.zero_add]
    rw [encDigits, classToVec, e1, e2]

theorem fold_encDigits (n : Nat) (vec : Nat → ℤ) (dg : Nat → Nat) (k m : Nat) (acc mult : ℤ)
    (h : ∀ i, k ≤ i → i < k + m → 2 * n + 1 + vec i = dg i) :
    ((List.range' k m).foldl
      (fun (st : ℤ × ℤ) i => (st.1 + (2 * n + 1 + vec i) * st.2, st.2 * (4 * n + 3)))
        (acc, mult)).1 = acc + mult * encDigits n dg k m := by
  induction m generalizing k acc mult with
  | zero => simp [encDigits]
  | succ m ih =>
    rw [List.range'_succ, List.foldl_cons, ih (k + 1) _ _ (fun i hi hi' => h i (by omega) (by omega)),
      encDigits, h k le_rfl (by omega)]
    push_cast
    ring

/-- Round trip: the class of an in-range vector is in range and decodes to the vector. -/
theorem class_roundtrip (dims n : Nat) (vec : Nat → ℤ)
    (h : ∀ i < dims, -(2 * n + 1 : ℤ) ≤ vec i ∧ vec i ≤ 2 * n + 1) :
    ∃ c : Nat, translationClass dims n vec = c ∧ c < nClassesPerLevel n dims ∧
      ∀ i < dims, (classToVec n dims c).getD i 0 = vec i := by
  have hd : ∀ i, 0 ≤ i → i < 0 + dims → 2 * n + 1 + vec i = ((2 * n + 1 + vec i).toNat : ℤ) := by
    intro i _ hi
    have := h i (by omega)
    omega
  have hlt : ∀ i, 0 ≤ i → i < 0 + dims → (2 * n + 1 + vec i).toNat < 4 * n + 3 := by
    intro i _ hi
    have := h i (by omega)
    omega
  refine ⟨encDigits n (fun i => (2 * n + 1 + vec i).toNat) 0 dims, ?_, ?_, ?_⟩
  · unfold translationClass
    simp only
    rw [if_pos]
    · rw [List.range_eq_range', fold_encDigits n vec _ 0 dims 0 1 hd]
      ring
    · rw [List.all_eq_true]
      intro i hi
      have := h i (List.mem_range.1 hi)
      simp only [decide_eq_true_eq]
      exact this
  · exact encDigits_lt n _ 0 dims hlt
  · intro i hi
    rw [decode_encDigits n _ 0 dims hlt, List.getD_eq_getElem _ _ (by simpa using hi)]
    simp only [List.getElem_map, List.getElem_range']
    have := h i hi
    simp only [Nat.zero_add, Nat.one_mul]
    omega

/-! ### The numbering loop -/

/-- Number of used classes below `m`. -/
def usedBelow (used : Nat → Bool) (m : Nat) : Nat := ((List.range m).filter used).length

theorem usedBelow_succ (used : Nat → Bool) (m : Nat) :
    usedBelow used (m + 1) = usedBelow used m + if used m then 1 else 0 := by
  unfold usedBelow
  rw [List.range_succ, List.filter_append, List.length_append]
  congr 1
  by_cases h : used m <;> simp [h]

theorem usedBelow_mono (used : Nat → Bool) {i j : Nat} (h : i ≤ j) :
    usedBelow used i ≤ usedBelow used j := by
  induction j with
  | zero => have : i = 0 := by omega
            rw [this]
  | succ j ih =>
    rcases Nat.eq_or_lt_of_le h with rfl | h'
    · exact le_rfl
    · rw [usedBelow_succ]; have := ih (by omega); omega

theorem usedBelow_lt (used : Nat → Bool) {i j : Nat} (h : i < j) (hu : used i = true) :
    usedBelow used i < usedBelow used j := by
  have h1 := usedBelow_mono used (show i + 1 ≤ j from h)
  have h2 := usedBelow_succ used i
  rw [hu] at h2
  simp at h2
  omega

theorem usedBelow_surj (used : Nat → Bool) (m k : Nat) (h : k < usedBelow used m) :
    ∃ i < m, used i = true ∧ usedBelow used i = k := by
  induction m with
  | zero => simp [usedBelow] at h
  | succ m ih =>
    rw [usedBelow_succ] at h
    by_cases hk : k < usedBelow used m
    · obtain ⟨i, h1, h2⟩ := ih hk
      exact ⟨i, by omega, h2⟩
    · by_cases hu : used m = true
      · rw [if_pos hu] at h
        exact ⟨m, by omega, hu, by omega⟩
      · rw [if_neg hu] at h; omega

/-- Invariant of the numbering loop before iteration `m`. -/
structure ClsInv (t : BoxTree) (n : Nat) (used : Nat → Bool) (m : Nat) (st : ClsState) : Prop where
  count : st.count = usedBelow used m
  prev : st.prevLevel = if m = 0 then -1 else (((m - 1) / nClassesPerLevel n t.dims : Nat) : ℤ)
  starts : ∀ l, l * nClassesPerLevel n t.dims < m →
    st.levelStarts l = some (usedBelow used (l * nClassesPerLevel n t.dims))
  starts_none : ∀ l, m ≤ l * nClassesPerLevel n t.dims → st.levelStarts l = none
  map : ∀ i < m, used i = true → st.map i = usedBelow used i
  dist : ∀ i < m, used i = true → st.distances (usedBelow used i) =
    some fun axis => ((classToVec n t.dims (i % nClassesPerLevel n t.dims)).getD axis 0 : ℚ)
      * t.rootExtent / (2 : ℚ) ^ (i / nClassesPerLevel n t.dims)

theorem nClasses_pos (n dims : Nat) : 0 < nClassesPerLevel n dims := Nat.pow_pos (by omega)

theorem clsInv_fold (t : BoxTree) (n : Nat) (used : Nat → Bool) (m : Nat) :
    ClsInv t n used m ((List.range m).foldl (clsStep t n used) ClsState.init) := by
  have hnum := nClasses_pos n t.dims
  induction m with
  | zero =>
    refine ⟨rfl, rfl, fun l h => absurd h (Nat.not_lt_zero _), fun l _ => rfl,
      fun i h => absurd h (Nat.not_lt_zero _), fun i h => absurd h (Nat.not_lt_zero _)⟩
  | succ m ih =>
    rw [List.range_succ, List.foldl_append, List.foldl_cons, List.foldl_nil]
    generalize (List.range m).foldl (clsStep t n used) ClsState.init = st at ih ⊢
    obtain ⟨ihcount, ihprev, ihstarts, ihnone, ihmap, ihdist⟩ := ih
    set num := nClassesPerLevel n t.dims with hnumdef
    -- effect of the level bookkeeping
    obtain ⟨st', hst', hcnt, hmap, hdist, hprev, hls⟩ : ∃ st' : ClsState,
        st' = (if st.prevLevel ≠ ((m / num : Nat) : ℤ) then
          { st with levelStarts := Function.update st.levelStarts (m / num) (some st.count),
                    prevLevel := ((m / num : Nat) : ℤ) } else st) ∧
        st'.count = st.count ∧ st'.map = st.map ∧ st'.distances = st.distances ∧
        st'.prevLevel = ((m / num : Nat) : ℤ) ∧
        (∀ l, (l * num < m + 1 → st'.levelStarts l = some (usedBelow used (l * num))) ∧
          (m + 1 ≤ l * num → st'.levelStarts l = none)) := by
      refine ⟨_, rfl, ?_⟩
      by_cases hp : st.prevLevel = ((m / num : Nat) : ℤ)
      · rw [if_neg (by simpa using hp)]
        refine ⟨rfl, rfl, rfl, hp, fun l => ⟨fun hl => ?_, fun hl => ihnone l (by omega)⟩⟩
        apply ihstarts
        rw [ihprev] at hp
        by_cases hm0 : m = 0
        · rw [if_pos hm0] at hp
          have := Int.natCast_nonneg (m / num)
          rw [← hp] at this
          norm_num at this
        · rw [if_neg hm0] at hp
          have hp' : (m - 1) / num = m / num := by exact_mod_cast hp
          by_contra hc
          have hlm : l * num = m := by omega
          rw [← hlm] at hp'
          rw [Nat.mul_div_cancel _ hnum] at hp'
          have hlt : (l * num - 1) / num < l := by
            rw [Nat.div_lt_iff_lt_mul hnum]
            omega
          omega
      · rw [if_pos (by simpa using hp)]
        refine ⟨rfl, rfl, rfl, rfl, fun l => ?_⟩
        -- the level changed, so `m` is a multiple of `num`
        have hmul : m / num * num = m := by
          rw [ihprev] at hp
          by_cases hm0 : m = 0
          · subst hm0; simp
          · rw [if_neg hm0] at hp
            have hp' : (m - 1) / num ≠ m / num := by exact_mod_cast hp
            by_contra hc
            apply hp'
            have h1 := Nat.div_add_mod m num
            have h2 : 0 < m % num := by
              rcases Nat.eq_zero_or_pos (m % num) with h | h
              · exfalso; apply hc; rw [mul_comm]; omega
              · exact h
            have h3 := Nat.mod_lt m hnum
            rw [Nat.div_eq_of_lt_le]
            · rw [mul_comm]; omega
            · rw [Nat.succ_mul, mul_comm]; omega
        refine ⟨fun hl => ?_, fun hl => ?_⟩
        · simp only
          by_cases hlm : l = m / num
          · subst hlm; rw [Function.update_self, ihcount, hmul]
          · rw [Function.update_of_ne hlm]
            apply ihstarts
            rcases Nat.lt_or_ge (l * num) m with h | h
            · exact h
            · exfalso; apply hlm
              have : l * num = m := by omega
              rw [← this, Nat.mul_div_cancel _ hnum]
        · simp only
          rw [Function.update_of_ne (by rintro rfl; omega)]
          exact ihnone l (by omega)
    have hstep : clsStep t n used st m =
        if used m then
          { st' with
            map := Function.update st'.map m st'.count
            distances := Function.update st'.distances st'.count
              (some fun axis => ((classToVec n t.dims (m % num)).getD axis 0 : ℚ)
                * t.rootExtent / (2 : ℚ) ^ (m / num))
            count := st'.count + 1 }
        else st' := by rw [hst']; rfl
    rw [hstep]
    by_cases hu : used m = true
    · rw [if_pos hu]
      refine ⟨?_, ?_, fun l => (hls l).1, fun l => (hls l).2, ?_, ?_⟩
      · simp only; rw [hcnt, ihcount, usedBelow_succ, if_pos hu]
      · simp only; rw [hprev]; simp; rfl
      · intro i hi hui
        simp only
        by_cases him : i = m
        · subst him; rw [Function.update_self, hcnt, ihcount]
        · rw [Function.update_of_ne him, hmap]; exact ihmap i (by omega) hui
      · intro i hi hui
        simp only
        by_cases him : i = m
        · subst him; rw [hcnt, ihcount, Function.update_self]
        · rw [hcnt, ihcount, Function.update_of_ne, hdist]
          · exact ihdist i (by omega) hui
          · exact (usedBelow_lt used (by omega) hui).ne
    · rw [if_neg hu]
      refine ⟨?_, ?_, fun l => (hls l).1, fun l => (hls l).2, ?_, ?_⟩
      · rw [hcnt, ihcount, usedBelow_succ, if_neg hu]; rfl
      · rw [hprev]; simp; rfl
      · intro i hi hui
        have him : i ≠ m := fun h => hu (h ▸ hui)
        rw [hmap]; exact ihmap i (by omega) hui
      · intro i hi hui
        have him : i ≠ m := fun h => hu (h ▸ hui)
        rw [hdist]; exact ihdist i (by omega) hui

/-! ### List 2 pairs -/

section
variable {inp : TravInput} {trav : Traversal}

/-- **C41**, geometry: the centers of a list 2 pair differ by an integer multiple of the box width
along each axis, at most `2 * n_away + 1` widths. -/
theorem C41_vector_in_range (ok : inp.OK) (h : buildTraversal inp = .ok trav) (tgt src : Nat)
    (ht : tgt ∈ trav.ttpBoxes) (hs : src ∈ trav.list2.rowFor trav.ttpBoxes tgt) :
    inp.tree.level src = inp.tree.level tgt ∧
    ∀ i < inp.tree.dims, ∃ v : ℤ, -(2 * inp.nAway + 1 : ℤ) ≤ v ∧ v ≤ 2 * inp.nAway + 1 ∧
      inp.tree.center tgt i - inp.tree.center src i = v * inp.tree.width tgt := by
  have F := travFields h
  have hw := ok.wf
  have htl := F.ttp_lt ht
  obtain ⟨hsl, hlev, hfar, hnear⟩ := ((C05_list2_exact inp trav ok h tgt ht).2 src).1 hs
  refine ⟨hlev, fun i hi => ?_⟩
  obtain ⟨ka, hka⟩ := hw.grid htl i hi
  obtain ⟨kb, hkb⟩ := hw.grid hsl i hi
  rw [hlev] at hkb
  have hr := hw.rad_pos (inp.tree.level tgt)
  have hdiff : inp.tree.center tgt i - inp.tree.center src i =
      ((ka - kb : ℤ) : ℚ) * inp.tree.width tgt := by
    rw [hka, hkb, width]; push_cast; ring
  have h0 : tgt ≠ 0 := by
    rintro rfl
    rw [hw.level_root] at hlev
    have := hw.eq_zero_of_level hsl hlev
    subst this
    rw [hw.parent_root] at hnear
    exact hfar hnear
  have h0s : src ≠ 0 := by
    rintro rfl
    rw [hw.level_root] at hlev
    exact h0 (hw.eq_zero_of_level htl hlev.symm)
  have l1 := hw.level_parent tgt htl h0
  have l2 := hw.level_parent src hsl h0s
  have hp1 := hw.linf_parent htl
  have hp2 := hw.linf_parent hsl
  have a1 := abs_le_linf inp.tree (inp.tree.center tgt) (inp.tree.center (inp.tree.parent tgt)) hi
  have a2 := abs_le_linf inp.tree (inp.tree.center src) (inp.tree.center (inp.tree.parent src)) hi
  have hn := hnear i hi
  simp only [BoxTree.lo, BoxTree.hi, width] at hn
  have hn' : ((inp.nAway - 1 : Nat) : ℚ) = (inp.nAway : ℚ) - 1 := by
    push_cast [ok.nAway_pos]; ring
  have hlp : inp.tree.level (inp.tree.parent src) = inp.tree.level (inp.tree.parent tgt) := by omega
  have hrad : inp.tree.rad (inp.tree.level (inp.tree.parent tgt)) =
      2 * inp.tree.rad (inp.tree.level tgt) := by
    rw [l1]; exact rad_succ _ _
  rw [hn', hlp, hrad] at hn
  have hb : |inp.tree.center tgt i - inp.tree.center src i| ≤
      (4 * inp.nAway + 2) * inp.tree.rad (inp.tree.level tgt) := by
    rw [linf_comm] at hp1 hp2
    have b1 := abs_le.1 (le_trans a1 hp1)
    have b2 := abs_le.1 (le_trans a2 hp2)
    rw [hlev] at b2
    rw [abs_le]
    constructor <;> nlinarith [b1.1, b1.2, b2.1, b2.2, hn.1, hn.2]
  refine ⟨ka - kb, ?_, ?_, hdiff⟩
  all_goals
    rw [hdiff, abs_le, width] at hb
    have q1 : -(2 * (inp.nAway : ℚ) + 1) ≤ ((ka - kb : ℤ) : ℚ) := by
      have := hb.1
      by_contra hc
      push Not at hc
      nlinarith
    have q2 : ((ka - kb : ℤ) : ℚ) ≤ 2 * (inp.nAway : ℚ) + 1 := by
      have := hb.2
      by_contra hc
      push Not at hc
      nlinarith
  · exact_mod_cast q1
  · exact_mod_cast q2

/-- What the class finder computes for entry `p` of list 2, which lies in row `j`. -/
theorem classOfPair_eq (ok : inp.OK) (h : buildTraversal inp = .ok trav) (perLevel : Bool)
    (p : Nat) (hp : p < trav.list2.lists.length) :
    ∃ j < trav.ttpBoxes.length, trav.list2.starts.getD j 0 ≤ p ∧
      p < trav.list2.starts.getD (j + 1) 0 ∧
      trav.list2.lists.getD p 0 ∈ trav.list2.rowFor trav.ttpBoxes (trav.ttpBoxes.getD j 0) ∧
      trav.ttpBoxes.getD j 0 ∈ trav.ttpBoxes ∧
      ∃ c < nClassesPerLevel inp.nAway inp.tree.dims,
        classOfPair inp.tree inp.nAway perLevel trav.list2.starts trav.list2.lists
          trav.ttpBoxes p = some (if perLevel = true then
            ((c + inp.tree.level (trav.ttpBoxes.getD j 0) *
              nClassesPerLevel inp.nAway inp.tree.dims : Nat) : ℤ) else (c : ℤ)) ∧
        translationClass inp.tree.dims inp.nAway
          (normVec inp.tree (inp.tree.level (trav.ttpBoxes.getD j 0)) (trav.list2.lists.getD p 0)
            (trav.ttpBoxes.getD j 0)) = c ∧
        ∀ i < inp.tree.dims, ((classToVec inp.nAway inp.tree.dims c).getD i 0 : ℚ) *
            inp.tree.rootExtent / 2 ^ (inp.tree.level (trav.ttpBoxes.getD j 0)) =
          inp.tree.center (trav.ttpBoxes.getD j 0) i -
            inp.tree.center (trav.list2.lists.getD p 0) i := by
  have F := travFields h
  set rows := trav.ttpBoxes.map (list2Kernel inp.tree inp.params trav.slnws.row) with hrows
  have hl2 : trav.list2 = buildLists rows := F.list2
  have hrl : rows.length = trav.ttpBoxes.length := by simp [hrows]
  have hp' : p < rows.flatten.length := by rw [hl2] at hp; exact hp
  obtain ⟨j, hb, hj, h1, h2⟩ := csr_bsearch rows p (1 + rows.length) hp' le_rfl
  have hent := csr_entry rows p j hj h1 h2
  rw [← hl2] at hb h1 h2 hent
  rw [hrl] at hb hj
  have htm : trav.ttpBoxes.getD j 0 ∈ trav.ttpBoxes := by
    rw [List.getD_eq_getElem _ _ hj]; exact List.getElem_mem _
  have hrow : trav.list2.row j = trav.list2.rowFor trav.ttpBoxes (trav.ttpBoxes.getD j 0) := by
    rw [F.row2, if_pos htm, hl2, row_build _ _ (by omega), List.getD_eq_getElem _ _ (by omega),
      List.getD_eq_getElem _ _ hj]
    simp [hrows]
  rw [hrow] at hent
  refine ⟨j, hj, h1, h2, hent, htm, ?_⟩
  generalize htgt : trav.ttpBoxes.getD j 0 = tgt at *
  generalize hsrc : trav.list2.lists.getD p 0 = src at *
  obtain ⟨hlev, hv⟩ := C41_vector_in_range ok h tgt src htm hent
  have hr := ok.wf.rad_pos (inp.tree.level tgt)
  have hwid : inp.tree.width tgt ≠ 0 := by unfold width; positivity
  have hnv : ∀ i < inp.tree.dims, -(2 * inp.nAway + 1 : ℤ) ≤
      normVec inp.tree (inp.tree.level src) src tgt i ∧
      normVec inp.tree (inp.tree.level src) src tgt i ≤ 2 * inp.nAway + 1 ∧
      inp.tree.center tgt i - inp.tree.center src i =
        (normVec inp.tree (inp.tree.level src) src tgt i : ℚ) * inp.tree.width tgt := by
    intro i hi
    obtain ⟨v, v1, v2, v3⟩ := hv i hi
    have : normVec inp.tree (inp.tree.level src) src tgt i = v := by
      unfold normVec
      rw [hlev, v3]
      change rint ((v : ℚ) * inp.tree.width tgt / inp.tree.width tgt) = v
      rw [mul_div_assoc, div_self hwid, mul_one, rint_intCast]
    rw [this]
    exact ⟨v1, v2, v3⟩
  obtain ⟨c, c1, c2, c3⟩ := class_roundtrip inp.tree.dims inp.nAway
    (normVec inp.tree (inp.tree.level src) src tgt) (fun i hi => ⟨(hnv i hi).1, (hnv i hi).2.1⟩)
  refine ⟨c, c2, ?_, by rw [← hlev]; exact c1, fun i hi => ?_⟩
  · unfold classOfPair
    simp only [hb, hsrc, Int.toNat_natCast, htgt, hlev, ne_eq, not_true_eq_false, if_false]
    rw [hlev] at c1
    rw [c1, if_neg (by omega)]
    cases perLevel <;> simp
  · rw [c3 i hi, (hnv i hi).2.2]
    unfold width rad
    rw [pow_succ]
    field_simp

theorem computeClasses_ok (ok : inp.OK) (h : buildTraversal inp = .ok trav) (perLevel : Bool)
    (hfit : (4 * inp.nAway + 3) ^ inp.tree.dims ≤ 2 ^ 31) :
    ∃ cls, computeClasses inp.tree inp.nAway perLevel trav.list2.starts trav.list2.lists
        trav.ttpBoxes = .ok cls ∧ cls.length = trav.list2.lists.length ∧
      ∀ p < trav.list2.lists.length, classOfPair inp.tree inp.nAway perLevel trav.list2.starts
        trav.list2.lists trav.ttpBoxes p = some (cls.getD p 0) := by
  unfold computeClasses
  rw [if_neg (by unfold nClassesPerLevel; omega)]
  simp only
  rw [if_neg]
  · refine ⟨_, rfl, by simp, fun p hp => ?_⟩
    obtain ⟨j, -, -, -, -, -, c, -, hc, -, -⟩ := classOfPair_eq ok h perLevel p hp
    rw [List.getD_eq_getElem _ _ (by simpa using hp)]
    simp [hc]
  · rw [Bool.not_eq_true, List.any_eq_false]
    intro x hx
    rw [List.mem_map] at hx
    obtain ⟨p, hp, rfl⟩ := hx
    obtain ⟨j, -, -, -, -, -, c, -, hc, -, -⟩ := classOfPair_eq ok h perLevel p (List.mem_range.1 hp)
    rw [hc]; simp

/-- **C41** (translation classes numbered per level, the default): the builder succeeds for every
tree and traversal whose class numbers fit in 32 bits.  For every list 2 pair, given as entry `p`
of row `j`, the class is a valid number; the distance vector stored for it is exactly target
center minus source center; and it lies in the number range of the pair's level.  All class
numbers below the total are in use, and two pairs have the same class exactly if they are on the
same level and have the same center difference. -/
theorem C41_translation_classes (ok : inp.OK) (h : buildTraversal inp = .ok trav)
    (hfit : (4 * inp.nAway + 3) ^ inp.tree.dims ≤ 2 ^ 31) :
    ∃ tc total, buildTranslationClasses inp.tree inp.nAway trav true = .ok tc ∧
      tc.classes.length = trav.list2.lists.length ∧
      tc.levelStarts inp.tree.nlevels = some total ∧
      (∀ j < trav.ttpBoxes.length, ∀ p, trav.list2.starts.getD j 0 ≤ p →
        p < trav.list2.starts.getD (j + 1) 0 →
        ∃ k : Nat, tc.classes.getD p 0 = k ∧ k < total ∧
          (∃ d, tc.distances k = some d ∧ ∀ i < inp.tree.dims, d i =
            inp.tree.center (trav.ttpBoxes.getD j 0) i -
              inp.tree.center (trav.list2.lists.getD p 0) i) ∧
          ∃ lo hi, tc.levelStarts (inp.tree.level (trav.ttpBoxes.getD j 0)) = some lo ∧
            tc.levelStarts (inp.tree.level (trav.ttpBoxes.getD j 0) + 1) = some hi ∧
            lo ≤ k ∧ k < hi) ∧
      (∀ k < total, ∃ p < trav.list2.lists.length, tc.classes.getD p 0 = (k : ℤ)) ∧
      (∀ j < trav.ttpBoxes.length, ∀ p, trav.list2.starts.getD j 0 ≤ p →
        p < trav.list2.starts.getD (j + 1) 0 →
        ∀ j' < trav.ttpBoxes.length, ∀ p', trav.list2.starts.getD j' 0 ≤ p' →
        p' < trav.list2.starts.getD (j' + 1) 0 →
        (tc.classes.getD p 0 = tc.classes.getD p' 0 ↔
          inp.tree.level (trav.ttpBoxes.getD j 0) = inp.tree.level (trav.ttpBoxes.getD j' 0) ∧
          ∀ i < inp.tree.dims,
            inp.tree.center (trav.ttpBoxes.getD j 0) i -
                inp.tree.center (trav.list2.lists.getD p 0) i =
              inp.tree.center (trav.ttpBoxes.getD j' 0) i -
                inp.tree.center (trav.list2.lists.getD p' 0) i)) := by
  have F := travFields h
  obtain ⟨cls, hcls, hlen, hget⟩ := computeClasses_ok ok h true hfit
  set t := inp.tree with ht
  set num := nClassesPerLevel inp.nAway t.dims with hnum
  have hnpos : 0 < num := nClasses_pos _ _
  set used : Nat → Bool := fun i => cls.any fun c => decide (c = (i : ℤ)) with hused
  have hbuild : buildTranslationClasses t inp.nAway trav true = .ok
      { classes := cls.map fun c =>
          ((List.range (num * t.nlevels)).foldl (clsStep t inp.nAway used) ClsState.init).map c.toNat
        distances :=
          ((List.range (num * t.nlevels)).foldl (clsStep t inp.nAway used) ClsState.init).distances
        levelStarts := Function.update
          ((List.range (num * t.nlevels)).foldl (clsStep t inp.nAway used) ClsState.init).levelStarts
          t.nlevels (some
          ((List.range (num * t.nlevels)).foldl (clsStep t inp.nAway used) ClsState.init).count)
        distancesLen := t.dims } := by
    unfold buildTranslationClasses
    rw [hcls]
    rfl
  have inv := clsInv_fold t inp.nAway used (num * t.nlevels)
  generalize (List.range (num * t.nlevels)).foldl (clsStep t inp.nAway used) ClsState.init = st
    at hbuild inv
  obtain ⟨icount, -, istarts, -, imap, idist⟩ := inv
  rw [← hnum] at istarts idist
  have hls : ∀ l ≤ t.nlevels, Function.update st.levelStarts t.nlevels (some st.count) l =
      some (usedBelow used (l * num)) := by
    intro l hl
    rcases Nat.eq_or_lt_of_le hl with rfl | hlt
    · rw [Function.update_self, icount, mul_comm]
    · rw [Function.update_of_ne hlt.ne]
      apply istarts
      rw [mul_comm num]
      exact (Nat.mul_lt_mul_right hnpos).2 hlt
  -- everything about one pair
  have pair : ∀ j < trav.ttpBoxes.length, ∀ p, trav.list2.starts.getD j 0 ≤ p →
      p < trav.list2.starts.getD (j + 1) 0 → p < trav.list2.lists.length ∧
      t.level (trav.ttpBoxes.getD j 0) < t.nlevels ∧
      ∃ c : Nat, c < num ∧ cls.getD p 0 = ((c + t.level (trav.ttpBoxes.getD j 0) * num : Nat) : ℤ) ∧
        used (c + t.level (trav.ttpBoxes.getD j 0) * num) = true ∧
        c + t.level (trav.ttpBoxes.getD j 0) * num < num * t.nlevels ∧
        translationClass t.dims inp.nAway (normVec t (t.level (trav.ttpBoxes.getD j 0))
          (trav.list2.lists.getD p 0) (trav.ttpBoxes.getD j 0)) = c ∧
        (cls.map fun c => st.map c.toNat).getD p 0 =
          (usedBelow used (c + t.level (trav.ttpBoxes.getD j 0) * num) : ℤ) ∧
        ∃ d, st.distances (usedBelow used (c + t.level (trav.ttpBoxes.getD j 0) * num)) = some d ∧
          ∀ i < t.dims, d i = t.center (trav.ttpBoxes.getD j 0) i -
            t.center (trav.list2.lists.getD p 0) i := by
    intro j hj p h1 h2
    have hlt : p < trav.list2.lists.length := by
      rw [F.list2] at h2 ⊢; exact csr_lt_length _ p j (by simpa using hj) h2
    obtain ⟨j', hj', h1', h2', hent, htm, c, hc, hcp, htc, hvec⟩ := classOfPair_eq ok h true p hlt
    have : j = j' := by
      rw [F.list2] at h1 h2 h1' h2'
      exact csr_row_unique _ p j j' (by simpa using hj) (by simpa using hj') h1 h2 h1' h2'
    subst this
    have hlvl : t.level (trav.ttpBoxes.getD j 0) < t.nlevels := ok.wf.level_lt _ (F.ttp_lt htm)
    change c < num at hc
    rw [hget p hlt] at hcp
    simp only [if_true, Option.some.injEq] at hcp
    have hmem : cls.getD p 0 ∈ cls := by
      rw [List.getD_eq_getElem _ _ (by omega)]; exact List.getElem_mem _
    have hu : used (c + t.level (trav.ttpBoxes.getD j 0) * num) = true := by
      simp only [hused, List.any_eq_true, decide_eq_true_eq]
      exact ⟨_, hmem, hcp⟩
    have hb : c + t.level (trav.ttpBoxes.getD j 0) * num < num * t.nlevels := by
      have : (t.level (trav.ttpBoxes.getD j 0) + 1) * num ≤ t.nlevels * num :=
        Nat.mul_le_mul_right _ hlvl
      rw [mul_comm num]
      rw [Nat.succ_mul] at this
      omega
    refine ⟨hlt, hlvl, c, hc, hcp, hu, hb, htc, ?_, _, idist _ hb hu, ?_⟩
    · rw [List.getD_eq_getElem _ _ (by simpa [hlen] using hlt), List.getElem_map]
      rw [List.getD_eq_getElem _ _ (by omega)] at hcp
      rw [hcp, Int.toNat_natCast, imap _ hb hu]
    · intro i hi
      have e1 : (c + t.level (trav.ttpBoxes.getD j 0) * num) % num = c := by
        rw [Nat.add_mul_mod_self_right, Nat.mod_eq_of_lt hc]
      have e2 : (c + t.level (trav.ttpBoxes.getD j 0) * num) / num =
          t.level (trav.ttpBoxes.getD j 0) := by
        rw [Nat.add_mul_div_right _ _ hnpos, Nat.div_eq_of_lt hc, Nat.zero_add]
      simp only [e1, e2]
      exact hvec i hi
  refine ⟨_, usedBelow used (num * t.nlevels), hbuild, by simpa using hlen, ?_, ?_, ?_, ?_⟩
  · simp only; rw [hls _ le_rfl, mul_comm]
  · intro j hj p h1 h2
    obtain ⟨hlt, hlvl, c, hc, hcp, hu, hb, htc, hk, d, hd, hdv⟩ := pair j hj p h1 h2
    refine ⟨_, hk, usedBelow_lt used hb hu, ⟨d, hd, hdv⟩, _, _, hls _ hlvl.le, hls _ hlvl, ?_, ?_⟩
    · exact usedBelow_mono used (Nat.le_add_left _ _)
    · exact usedBelow_lt used (by rw [Nat.succ_mul]; omega) hu
  · intro k hk
    obtain ⟨i, hi, hui, hik⟩ := usedBelow_surj used _ k hk
    have hui' := hui
    simp only [hused, List.any_eq_true, decide_eq_true_eq] at hui'
    obtain ⟨c, hc, hci⟩ := hui'
    obtain ⟨p, hp, hpc⟩ := List.getElem_of_mem hc
    refine ⟨p, by omega, ?_⟩
    simp only
    rw [List.getD_eq_getElem _ _ (by simpa using hp), List.getElem_map, hpc, hci,
      Int.toNat_natCast, imap i hi hui, hik]
  · intro j hj p h1 h2 j' hj' p' h1' h2'
    obtain ⟨hlt, hlvl, c, hc, hcp, hu, hb, htc, hk, d, hd, hdv⟩ := pair j hj p h1 h2
    obtain ⟨hlt', hlvl', c', hc', hcp', hu', hb', htc', hk', d', hd', hdv'⟩ :=
      pair j' hj' p' h1' h2'
    simp only
    rw [hk, hk']
    generalize trav.ttpBoxes.getD j 0 = tg at *
    generalize trav.ttpBoxes.getD j' 0 = tg' at *
    generalize trav.list2.lists.getD p 0 = sr at *
    generalize trav.list2.lists.getD p' 0 = sr' at *
    constructor
    · intro he
      have he' : usedBelow used (c + t.level tg * num) = usedBelow used (c' + t.level tg' * num) := by
        exact_mod_cast he
      have hcode : c + t.level tg * num = c' + t.level tg' * num := by
        rcases Nat.lt_trichotomy (c + t.level tg * num) (c' + t.level tg' * num) with hx | hx | hx
        · have := usedBelow_lt used hx hu; omega
        · exact hx
        · have := usedBelow_lt used hx hu'; omega
      have hl : t.level tg = t.level tg' := by
        have e1 : (c + t.level tg * num) / num = t.level tg := by
          rw [Nat.add_mul_div_right _ _ hnpos, Nat.div_eq_of_lt hc, Nat.zero_add]
        have e2 : (c' + t.level tg' * num) / num = t.level tg' := by
          rw [Nat.add_mul_div_right _ _ hnpos, Nat.div_eq_of_lt hc', Nat.zero_add]
        rw [← e1, ← e2, hcode]
      refine ⟨hl, fun i hi => ?_⟩
      rw [he', hd'] at hd
      rw [← hdv i hi, ← hdv' i hi]
      have := Option.some.inj hd
      rw [this]
    · rintro ⟨hl, hdiff⟩
      have : (c : ℤ) = c' := by
        rw [← htc, ← htc']
        apply translationClass_congr
        intro i hi
        unfold normVec
        rw [hdiff i hi, hl]
      have hcc : c = c' := by exact_mod_cast this
      rw [hcc, hl]

/-- **C41**, classes shared between levels (`is_translation_per_level=False`): the stored vector
is that of the root's level, so for a pair on level `l` it is `2^l` times the true translation
vector, and only the first and last entries of the level starts are ever stored. -/
theorem C41_shared_classes_not_scaled (ok : inp.OK) (h : buildTraversal inp = .ok trav)
    (hfit : (4 * inp.nAway + 3) ^ inp.tree.dims ≤ 2 ^ 31) :
    ∃ tc, buildTranslationClasses inp.tree inp.nAway trav false = .ok tc ∧
      (∀ j < trav.ttpBoxes.length, ∀ p, trav.list2.starts.getD j 0 ≤ p →
        p < trav.list2.starts.getD (j + 1) 0 →
        ∃ (k : Nat) (d : Nat → ℚ), tc.classes.getD p 0 = k ∧ tc.distances k = some d ∧
          ∀ i < inp.tree.dims, d i = 2 ^ inp.tree.level (trav.ttpBoxes.getD j 0) *
            (inp.tree.center (trav.ttpBoxes.getD j 0) i -
              inp.tree.center (trav.list2.lists.getD p 0) i)) ∧
      ∀ l, 0 < l → l < inp.tree.nlevels → tc.levelStarts l = none := by
  have F := travFields h
  obtain ⟨cls, hcls, hlen, hget⟩ := computeClasses_ok ok h false hfit
  set t := inp.tree with ht
  set num := nClassesPerLevel inp.nAway t.dims with hnum
  have hnpos : 0 < num := nClasses_pos _ _
  set used : Nat → Bool := fun i => cls.any fun c => decide (c = (i : ℤ)) with hused
  have inv := clsInv_fold t inp.nAway used num
  obtain ⟨icount, -, -, inone, imap, idist⟩ := inv
  rw [← hnum] at inone idist
  refine ⟨_, by unfold buildTranslationClasses; rw [hcls], ?_, ?_⟩
  · intro j hj p h1 h2
    have hlt : p < trav.list2.lists.length := by
      rw [F.list2] at h2 ⊢; exact csr_lt_length _ p j (by simpa using hj) h2
    obtain ⟨j', hj', h1', h2', hent, htm, c, hc, hcp, htc, hvec⟩ := classOfPair_eq ok h false p hlt
    have : j = j' := by
      rw [F.list2] at h1 h2 h1' h2'
      exact csr_row_unique _ p j j' (by simpa using hj) (by simpa using hj') h1 h2 h1' h2'
    subst this
    rw [hget p hlt] at hcp
    simp only [Bool.false_eq_true, if_false, Option.some.injEq] at hcp
    have hmem : cls.getD p 0 ∈ cls := by
      rw [List.getD_eq_getElem _ _ (by omega)]; exact List.getElem_mem _
    have hu : used c = true := by
      simp only [hused, List.any_eq_true, decide_eq_true_eq]
      exact ⟨_, hmem, hcp⟩
    refine ⟨usedBelow used c, _, ?_, idist c hc hu, fun i hi => ?_⟩
    · rw [List.getD_eq_getElem _ _ (by simpa [hlen] using hlt), List.getElem_map]
      rw [List.getD_eq_getElem _ _ (by omega)] at hcp
      rw [hcp, Int.toNat_natCast]
      exact imap c hc hu
    · change c < num at hc
      have := hvec i hi
      simp only [Nat.mod_eq_of_lt hc, Nat.div_eq_of_lt hc, pow_zero, div_one]
      rw [← ht] at this
      rw [← this, mul_div_cancel₀ _ (by positivity)]
  · intro l hl hl'
    simp only
    rw [Function.update_of_ne hl'.ne]
    exact inone l (by nlinarith)

/-- The property `nfrom_sep_siblings_translation_classes` is the number of dimensions, not the
number of classes. -/
theorem C41_nclasses_is_dimension (tc : TranslationClasses) (t : BoxTree) (n : Nat)
    (trav : Traversal) (perLevel : Bool)
    (h : buildTranslationClasses t n trav perLevel = .ok tc) : tc.nClasses = t.dims := by
  unfold buildTranslationClasses at h
  split at h
  · cases h
  · cases h; rfl

end

/-- Classes and number of classes for an input, or `none` if anything raised. -/
def exClasses (inp : TravInput) : Option (List Nat × List ℤ × Option Nat) :=
  match buildTraversal inp with
  | .ok trav =>
    match buildTranslationClasses inp.tree inp.nAway trav true with
    | .ok tc => some (trav.list2.lists, tc.classes, tc.levelStarts inp.tree.nlevels)
    | .error _ => none
  | .error _ => none

/-- The example traversal (see `Ex.exInput_ok`) has list 2 pairs and meets all hypotheses. -/
example : (4 * Ex.exInput.nAway + 3) ^ Ex.exInput.tree.dims ≤ 2 ^ 31 ∧
    exClasses Ex.exInput = some ([5, 6, 6, 3, 3, 4], [1, 0, 1, 2, 3, 2], some 4) :=
  ⟨by decide, by decide +kernel⟩

end Boxtree
