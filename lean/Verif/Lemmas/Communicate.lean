import Mathlib.Data.List.GetD
import Mathlib.Data.List.Induction
import Mathlib.Tactic.Ring
import Verif.Spec.Communicate

/-!
# Lemmas about slicing and updating multipoles
-/

namespace Boxtree.Dist
open Tools

variable {V : Type} [AddCommMonoid V]

theorem sorted_split (a : Nat) : ∀ idx : List Nat, idx.Pairwise (· < ·) →
    idx = idx.filter (fun b => decide (b < a)) ++ idx.filter (fun b => decide (a ≤ b)) := by
  intro idx
  induction idx with
  | nil => simp
  | cons x xs ih =>
    intro h
    obtain ⟨h1, h2⟩ := List.pairwise_cons.1 h
    by_cases hx : x < a
    · rw [List.filter_cons, if_pos (by simpa using hx), List.filter_cons,
        if_neg (by simp; omega), List.cons_append, ← ih h2]
    · have hnil : xs.filter (fun b => decide (b < a)) = [] := by
        rw [List.filter_eq_nil_iff]
        intro y hy
        have := h1 y hy
        simp; omega
      have hall : xs.filter (fun b => decide (a ≤ b)) = xs := by
        rw [List.filter_eq_self]
        intro y hy
        have := h1 y hy
        simp; omega
      rw [List.filter_cons, if_neg (by simpa using hx), List.filter_cons,
        if_pos (by simp; omega), hnil, hall, List.nil_append]

theorem sorted_drop {idx : List Nat} (h : idx.Pairwise (· < ·)) (a : Nat) :
    idx.drop (idx.countP fun b => decide (b < a)) = idx.filter fun b => decide (a ≤ b) := by
  conv_lhs => rw [sorted_split a idx h]
  rw [List.countP_append, List.countP_eq_length_filter]
  have hz : (idx.filter fun b => decide (a ≤ b)).countP (fun b => decide (b < a)) = 0 := by
    rw [List.countP_eq_zero]
    intro b hb
    simp only [List.mem_filter, decide_eq_true_eq] at hb
    simp; omega
  rw [hz, List.filter_filter]
  simp only [Bool.and_self, Nat.add_zero]
  rw [List.drop_left]

theorem sorted_take {idx : List Nat} (h : idx.Pairwise (· < ·)) (a : Nat) :
    idx.take (idx.countP fun b => decide (b < a)) = idx.filter fun b => decide (b < a) := by
  conv_lhs => rw [sorted_split a idx h]
  rw [List.countP_append, List.countP_eq_length_filter]
  have hz : (idx.filter fun b => decide (a ≤ b)).countP (fun b => decide (b < a)) = 0 := by
    rw [List.countP_eq_zero]
    intro b hb
    simp only [List.mem_filter, decide_eq_true_eq] at hb
    simp; omega
  rw [hz, List.filter_filter]
  simp only [Bool.and_self, Nat.add_zero]
  rw [List.take_left]

theorem levelSlice_eq (L : MpoleLayout) {idx : List Nat} (h : idx.Pairwise (· < ·)) {l : Nat}
    (hl : L.levelStart l ≤ L.levelStart (l + 1)) :
    levelSlice L idx l =
      idx.filter fun b => decide (L.levelStart l ≤ b) && decide (b < L.levelStart (l + 1)) := by
  unfold levelSlice
  simp only
  rw [sorted_drop h]
  have hc : (idx.countP fun b => decide (b < L.levelStart (l + 1))) -
      (idx.countP fun b => decide (b < L.levelStart l)) =
      (idx.filter fun b => decide (L.levelStart l ≤ b)).countP
        fun b => decide (b < L.levelStart (l + 1)) := by
    have e : (idx.countP fun b => decide (b < L.levelStart (l + 1))) =
        (idx.filter fun b => decide (b < L.levelStart l)).countP
          (fun b => decide (b < L.levelStart (l + 1))) +
        (idx.filter fun b => decide (L.levelStart l ≤ b)).countP
          fun b => decide (b < L.levelStart (l + 1)) := by
      conv_lhs => rw [sorted_split (L.levelStart l) idx h]
      rw [List.countP_append]
    have e2 : (idx.filter fun b => decide (b < L.levelStart l)).countP
        (fun b => decide (b < L.levelStart (l + 1))) =
        idx.countP fun b => decide (b < L.levelStart l) := by
      rw [List.countP_eq_length.2]
      · rw [List.countP_eq_length_filter]
      · intro b hb
        simp only [List.mem_filter, decide_eq_true_eq] at hb
        simp; omega
    omega
  rw [hc, sorted_take (h.filter _), List.filter_filter]
  congr 1
  funext b
  rw [Bool.and_comm]

theorem mem_levelSlice (L : MpoleLayout) {idx : List Nat} (h : idx.Pairwise (· < ·)) {l : Nat}
    (hl : L.levelStart l ≤ L.levelStart (l + 1)) {b : Nat} :
    b ∈ levelSlice L idx l ↔ b ∈ idx ∧ L.levelStart l ≤ b ∧ b < L.levelStart (l + 1) := by
  rw [levelSlice_eq L h hl]
  simp [List.mem_filter]

theorem flat_getD (f : Nat → Nat → V) (nc c : Nat) (hc : c < nc) : ∀ (boxes : List Nat) (k : Nat)
    (hk : k < boxes.length),
    (boxes.flatMap fun b => (List.range nc).map (f b)).getD (k * nc + c) 0 = f boxes[k] c := by
  intro boxes
  induction boxes with
  | nil => intro k hk; simp at hk
  | cons x xs ih =>
    intro k hk
    rw [List.flatMap_cons]
    cases k with
    | zero =>
      rw [List.getD_append _ _ _ _ (by simpa using hc)]
      simp [hc]
    | succ k =>
      rw [List.getD_append_right _ _ _ _ (by simp only [List.length_map, List.length_range]; rw [Nat.add_mul]; omega)]
      simp only [List.length_map, List.length_range, List.getElem_cons_succ]
      rw [← ih k (by simpa using hk)]
      congr 1
      rw [Nat.add_mul]
      omega

omit [AddCommMonoid V] in
theorem flat_length (f : Nat → Nat → V) (nc : Nat) (boxes : List Nat) :
    (boxes.flatMap fun b => (List.range nc).map (f b)).length = boxes.length * nc := by
  induction boxes with
  | nil => simp
  | cons x xs ih => rw [List.flatMap_cons, List.length_append, ih]; simp; ring

theorem updateLevel_mem (mp : Nat → Nat → V) (boxes : List Nat) (nc : Nat)
    (src : Nat → Nat → V) (b c : Nat) :
    updateLevel mp boxes nc (boxes.flatMap fun b => (List.range nc).map (src b)) b c =
      mp b c + if b ∈ boxes ∧ c < nc then src b c else 0 := by
  unfold updateLevel
  by_cases h : b ∈ boxes ∧ c < nc
  · rw [if_pos h, if_pos h, flat_getD src nc c h.2 boxes _
      (List.idxOf_lt_length_of_mem h.1), List.getElem_idxOf]
  · rw [if_neg h, if_neg h, add_zero]

/-- After the levels below `n`: position in the values, and what was added. -/
theorem update_levels (L : MpoleLayout) (idx : List Nat)
    (src : Nat → Nat → V) (mp : Nat → Nat → V) (n : Nat)
    (rest : List V) :
    let sl := fun n => (List.range n).flatMap fun l =>
      (levelSlice L idx l).flatMap fun b => (List.range (L.ncoef l)).map (src b)
    let r := (List.range n).foldl (updateStep L (sl n ++ rest) idx) (mp, 0)
    r.2 = (sl n).length ∧ ∀ b c, r.1 b c = mp b c +
      (((List.range n).map fun l =>
        if (b ∈ levelSlice L idx l ∧ c < L.ncoef l) then src b c else 0).sum) := by
  intro sl
  induction n generalizing rest with
  | zero => simp [sl]
  | succ n ih =>
    intro r
    have hsl : sl (n + 1) = sl n ++ (levelSlice L idx n).flatMap fun b =>
        (List.range (L.ncoef n)).map (src b) := by
      simp only [sl, List.range_succ, List.flatMap_append, List.flatMap_cons, List.flatMap_nil,
        List.append_nil]
    have hr : r = updateStep L (sl (n + 1) ++ rest) idx
        ((List.range n).foldl (updateStep L (sl n ++
          ((levelSlice L idx n).flatMap (fun b => (List.range (L.ncoef n)).map (src b)) ++ rest))
          idx) (mp, 0)) n := by
      simp only [r]
      rw [List.range_succ, List.foldl_append, List.foldl_cons, List.foldl_nil, hsl,
        List.append_assoc]
    obtain ⟨h1, h2⟩ := ih ((levelSlice L idx n).flatMap (fun b => (List.range (L.ncoef n)).map (src b)) ++ rest)
    rw [hr]
    generalize (List.range n).foldl (updateStep L (sl n ++
          ((levelSlice L idx n).flatMap (fun b => (List.range (L.ncoef n)).map (src b)) ++ rest))
          idx) (mp, 0) = st at h1 h2 ⊢
    unfold updateStep
    simp only
    have hlen := flat_length src (L.ncoef n) (levelSlice L idx n)
    split
    · rename_i hpos
      constructor
      · simp only
        rw [h1, hsl, List.length_append, hlen]
      · intro b c
        simp only
        rw [h1, hsl, List.append_assoc, List.drop_left,
          Nat.add_sub_cancel_left, ← hlen, List.take_left,
          updateLevel_mem _, h2, List.range_succ, List.map_append, List.sum_append,
          add_assoc]
        simp
    · rename_i hpos
      have he : levelSlice L idx n = [] := by
        rw [← List.length_eq_zero_iff]; omega
      refine ⟨by rw [h1, hsl, he]; simp, fun b c => ?_⟩
      rw [h2, List.range_succ, List.map_append, List.sum_append]
      simp [he]

theorem MpoleLayout.OK.level_unique {L : MpoleLayout} {nboxes : Nat} (hL : L.OK nboxes)
    {b l m : Nat} (h1 : L.OnLevel b l) (h2 : L.OnLevel b m) : l = m := by
  have mono : ∀ j i, i ≤ j → j ≤ L.nlevels → L.levelStart i ≤ L.levelStart j := by
    intro j
    induction j with
    | zero => intro i hi _; rw [Nat.le_zero.1 hi]
    | succ j ih =>
      intro i hi hj
      rcases Nat.lt_or_ge i (j + 1) with h | h
      · exact le_trans (ih i (by omega) (by omega)) (hL.mono j (by omega))
      · rw [show i = j + 1 by omega]
  obtain ⟨a1, a2, a3⟩ := h1
  obtain ⟨b1, b2, b3⟩ := h2
  rcases Nat.lt_trichotomy l m with h | h | h
  · have := mono m (l + 1) (by omega) (by omega); omega
  · exact h
  · have := mono l (m + 1) (by omega) (by omega); omega

theorem sum_range_single {n l : Nat} (hl : l < n) (x : V) :
    ((List.range n).map fun m => if m = l then x else 0).sum = x := by
  induction n with
  | zero => omega
  | succ n ih =>
    rw [List.range_succ, List.map_append, List.sum_append]
    simp only [List.map_cons, List.map_nil, List.sum_cons, List.sum_nil, add_zero]
    by_cases h : n = l
    · subst h
      have : ((List.range n).map fun m => if m = n then x else 0) = (List.range n).map fun _ => 0 :=
        List.map_congr_left fun m hm => if_neg (by have := List.mem_range.1 hm; omega)
      rw [this]
      simp
    · rw [if_neg h, ih (by omega), add_zero]

/-- Sending a slice and adding it on the other side adds exactly the coefficients of the listed
boxes. -/
theorem update_slice (L : MpoleLayout) {nboxes : Nat} (hL : L.OK nboxes) {idx : List Nat}
    (h : idx.Pairwise (· < ·)) (src mp : Nat → Nat → V) {b l : Nat}
    (hb : L.OnLevel b l) (c : Nat) :
    updateMpoles L mp (sliceMpoles L src idx) idx b c =
      mp b c + if b ∈ idx ∧ c < L.ncoef l then src b c else 0 := by
  unfold updateMpoles sliceMpoles
  by_cases h0 : idx.length = 0
  · rw [if_pos h0]
    rw [List.length_eq_zero_iff.1 h0]
    simp
  · rw [if_neg h0, if_neg h0]
    have := (update_levels L idx src mp L.nlevels []).2 b c
    simp only [List.append_nil] at this
    rw [this]
    congr 1
    have e : ∀ m ∈ List.range L.nlevels,
        (if b ∈ levelSlice L idx m ∧ c < L.ncoef m then src b c else 0) =
        if m = l then (if b ∈ idx ∧ c < L.ncoef l then src b c else 0) else 0 := by
      intro m hm
      have hm' := List.mem_range.1 hm
      simp only [mem_levelSlice L h (hL.mono m hm')]
      by_cases hml : m = l
      · subst hml
        have := hb.2
        rw [if_pos rfl]
        congr 1
        simp only [this.1, this.2, and_true]
      · rw [if_neg hml, if_neg]
        rintro ⟨⟨h1, h2⟩, -⟩
        exact hml (hL.level_unique ⟨hm', h2⟩ hb)
    rw [List.map_congr_left e]
    exact sum_range_single hb.1 _

/-! ### Order of received messages does not matter -/

theorem updateLevel_add (mp : Nat → Nat → V) (boxes : List Nat) (nc : Nat) (chunk : List V)
    (b c : Nat) : updateLevel mp boxes nc chunk b c =
      mp b c + updateLevel (fun _ _ => 0) boxes nc chunk b c := by
  unfold updateLevel
  split <;> simp

theorem update_foldl_add (L : MpoleLayout) (upd : List V) (idx : List Nat) :
    ∀ (ls : List Nat) (mp : Nat → Nat → V) (k : Nat),
    (ls.foldl (updateStep L upd idx) (mp, k)).2 =
      (ls.foldl (updateStep L upd idx) ((fun _ _ => 0), k)).2 ∧
    ∀ b c, (ls.foldl (updateStep L upd idx) (mp, k)).1 b c =
      mp b c + (ls.foldl (updateStep L upd idx) ((fun _ _ => 0), k)).1 b c := by
  intro ls
  induction ls using List.reverseRecOn with
  | nil => intro mp k; simp
  | append_singleton ls l ih =>
    intro mp k
    rw [List.foldl_append, List.foldl_append]
    simp only [List.foldl_cons, List.foldl_nil]
    obtain ⟨h1, h2⟩ := ih mp k
    generalize ls.foldl (updateStep L upd idx) (mp, k) = s1 at *
    generalize ls.foldl (updateStep L upd idx) ((fun _ _ => 0), k) = s2 at *
    unfold updateStep
    simp only
    split
    · refine ⟨by simp only; rw [h1], fun b c => ?_⟩
      simp only
      rw [updateLevel_add s1.1, updateLevel_add s2.1, h1, h2, add_assoc]
    · exact ⟨h1, h2⟩

theorem update_add (L : MpoleLayout) (mp : Nat → Nat → V) (upd : List V) (idx : List Nat)
    (b c : Nat) : updateMpoles L mp upd idx b c =
      mp b c + updateMpoles L (fun _ _ => 0) upd idx b c := by
  unfold updateMpoles
  split
  · simp
  · exact (update_foldl_add L upd idx _ mp 0).2 b c

theorem absorb_comm (E : Setup) (d : Data V) (m n : Msg V) :
    absorb E (absorb E d m) n = absorb E (absorb E d n) m := by
  unfold absorb
  congr 1
  · funext b c
    rw [update_add _ (updateMpoles _ _ m.values _), update_add _ d.mp m.values,
      update_add _ (updateMpoles _ _ n.values _), update_add _ d.mp n.values, add_assoc, add_assoc,
      add_comm (updateMpoles _ _ m.values _ b c)]
  · funext b
    simp only [Bool.or_assoc]
    rw [Bool.or_comm (m.boxes.contains b)]

theorem mem_relevantBoxes {nboxes : Nat} {users : BuiltList} {range : Nat × Nat}
    {contrib : Nat → Bool} {b : Nat} : b ∈ relevantBoxes nboxes users range contrib ↔
      b < nboxes ∧ contrib b = true ∧ ∃ u ∈ users.row b, range.1 ≤ u ∧ u < range.2 := by
  have : relevantBoxes nboxes users range contrib = ((List.range nboxes).filter contrib).filter
      fun b => (users.row b).any fun u => range.1 ≤ u && u < range.2 := by
    unfold relevantBoxes usedBySubrange
    simp only
    induction (List.range nboxes).filter contrib with
    | nil => rfl
    | cons x xs ih =>
      rw [List.map_cons, List.zip_cons_cons, List.filter_cons, List.filter_cons]
      simp only
      split <;> simp [ih]
  rw [this]
  simp only [List.mem_filter, List.mem_range, List.any_eq_true, Bool.and_eq_true,
    decide_eq_true_eq, and_assoc]

theorem relevantBoxes_sorted (nboxes : Nat) (users : BuiltList) (range : Nat × Nat)
    (contrib : Nat → Bool) : (relevantBoxes nboxes users range contrib).Pairwise (· < ·) := by
  unfold relevantBoxes usedBySubrange
  simp only
  have h : ((List.range nboxes).filter contrib).Pairwise (· < ·) :=
    List.pairwise_lt_range.filter _
  generalize (List.range nboxes).filter contrib = l at h
  rw [List.pairwise_map]
  apply List.Pairwise.filter
  induction l with
  | nil => simp
  | cons x xs ih =>
    obtain ⟨h1, h2⟩ := List.pairwise_cons.1 h
    rw [List.map_cons, List.zip_cons_cons, List.pairwise_cons]
    exact ⟨fun p hp => h1 _ (List.of_mem_zip hp).1, ih h2⟩

/-- Effect of one message of data `src` on data `d`. -/
theorem absorb_makeMsg (E : Setup) (hL : E.layout.OK E.nboxes) (c : Comm) (d src : Data V)
    {b l i : Nat} (hb : E.layout.OnLevel b l) (hi : i < E.layout.ncoef l) :
    (absorb E d (makeMsg E c src)).mp b i = d.mp b i +
      if b ∈ relevantBoxes E.nboxes E.users c.messages src.contrib then src.mp b i else 0 := by
  unfold absorb makeMsg
  simp only
  rw [update_slice E.layout hL (relevantBoxes_sorted _ _ _ _) src.mp d.mp hb i]
  simp only [hi, and_true]

end Boxtree.Dist
