import Verif.Lemmas.Flat
import Verif.Spec.Tree
import Verif.Lemmas.Tree
import Mathlib.Tactic.Ring

/-! What is known about the final arrays of the tree builder. -/

namespace Boxtree.Build

/-- Number of particles that are in the box and in none of its children. -/
def fown (F : Flat) (b : Nat) : Nat := if F.hasCh b then F.nonchild b else F.count b

/-- Number of particles in child `m`. -/
def childCount (F : Flat) (b m : Nat) : Nat :=
  if F.child m b = 0 then 0 else F.count (F.child m b)

/-- The arrays describe a tree of boxes with nested ranges of particles. -/
structure FlatOK (P : Params) (L : Nat) (F : Flat) : Prop where
  pos : 0 < F.nboxes
  level_root : F.level 0 = 0
  parent_root : F.parent 0 = 0
  parent_lt : ∀ b, b < F.nboxes → F.parent b < F.nboxes
  level_parent : ∀ b, b < F.nboxes → b ≠ 0 → F.level b = F.level (F.parent b) + 1
  level_lt : ∀ b, b < F.nboxes → F.level b < L + 1
  child_lt : ∀ m b, b < F.nboxes → F.child m b < F.nboxes
  child_parent : ∀ m b, b < F.nboxes → F.child m b ≠ 0 →
    F.parent (F.child m b) = b ∧ m < P.nch ∧ F.hasCh b = true
  child_inj : ∀ m m' b, b < F.nboxes → F.child m b ≠ 0 → F.child m b = F.child m' b → m = m'
  parent_child : ∀ b, b < F.nboxes → b ≠ 0 → ∃ m, m < P.nch ∧ F.child m (F.parent b) = b
  center_child : ∀ m b, b < F.nboxes → F.child m b ≠ 0 → ∀ a,
    F.center (F.child m b) a = F.center b a + mortonSign P.dims m a * radius P (F.level b + 1)
  level_mono : ∀ b b', b' < F.nboxes → b ≤ b' → F.level b ≤ F.level b'
  root_start : F.start 0 = 0
  root_count : F.count 0 = P.n
  total : ∀ b, b < F.nboxes → F.hasCh b = true →
    F.count b = fown F b + ((List.range P.nch).map (childCount F b)).sum
  consecutive : ∀ m b, b < F.nboxes → F.child m b ≠ 0 → 0 < F.count (F.child m b) →
    F.start (F.child m b) = F.start b + fown F b + ((List.range m).map (childCount F b)).sum
  pbox_lt : ∀ i, i < P.n → F.pbox i < F.nboxes
  part : ∀ i, i < P.n → ∀ b, b < F.nboxes →
    (F.pbox i = b ↔ F.start b ≤ i ∧ i < F.start b + fown F b)

section
variable {P : Params} {skip : Bool} {len : Nat → Nat} {L : Nat} {s : State}
namespace FinOK

theorem fin_own (h : FinOK P skip len L s) {l k : Nat} (hk : Kept skip s l k) :
    fown (fin P skip len L s) (nid skip len L s l k) = own s l k := by
  unfold fown
  rw [h.fin_hasCh hk]
  cases hc : s.hasCh l k with
  | true => rw [if_pos rfl, h.fin_nonchild hk hc]
  | false => rw [if_neg (by simp), h.fin_count hk]; unfold own; rw [hc]; rfl

/-- The bins of a box are the counts of its children. -/
theorem fin_childCount (h : FinOK P skip len L s) {l k m : Nat} (hk : Kept skip s l k)
    (hc : s.hasCh l k = true) (hm : m < P.nch) :
    childCount (fin P skip len L s) (nid skip len L s l k) m = (s.bins l k).pcnt m := by
  obtain ⟨_, base, _, _, hch⟩ := h.inv.children l k hc
  obtain ⟨h1, _, h3, _⟩ := hch m hm
  unfold childCount
  by_cases hkc : Kept skip s (l + 1) (base + m)
  · rw [h.fin_child_kept hk h1 hkc, if_neg (h.nid_ne_zero hkc), h.fin_count hkc, h3]
  · rw [if_pos (h.fin_child_removed hk h1 hkc), ← h3]
    by_contra hne
    exact hkc ⟨(h.child_used h1).2.2.1, .inr (Ne.symm hne)⟩

theorem flatOK (h : FinOK P skip len L s) : FlatOK P L (fin P skip len L s) where
  pos := by have := h.nid_lt h.kept_root; exact Nat.zero_lt_of_lt this
  level_root := h.fin_level h.kept_root
  parent_root := h.fin_parent_root
  parent_lt := by
    intro b hb
    obtain ⟨l, k, hk, rfl⟩ := h.exists_nid hb
    cases l with
    | zero =>
      have : k = 0 := by have := hk.1; rw [h.inv.used_zero] at this; omega
      subst this
      rw [nid_root, h.fin_parent_root]
      exact h.nid_lt h.kept_root
    | succ l => rw [h.fin_parent hk]; exact h.nid_lt (h.kept_parent hk)
  level_parent := by
    intro b hb h0
    obtain ⟨l, k, hk, rfl⟩ := h.exists_nid hb
    cases l with
    | zero =>
      have : k = 0 := by have := hk.1; rw [h.inv.used_zero] at this; omega
      subst this
      exact absurd nid_root h0
    | succ l => rw [h.fin_parent hk, h.fin_level hk, h.fin_level (h.kept_parent hk)]
  level_lt := by
    intro b hb
    obtain ⟨l, k, hk, rfl⟩ := h.exists_nid hb
    rw [h.fin_level hk]
    exact (h.kept_level hk).1
  child_lt := by
    intro m b hb
    obtain ⟨l, k, hk, rfl⟩ := h.exists_nid hb
    by_cases h0 : (fin P skip len L s).child m (nid skip len L s l k) = 0
    · rw [h0]; exact h.nid_lt h.kept_root
    · obtain ⟨c, _, hkc, e⟩ := h.fin_child hk h0
      rw [e]; exact h.nid_lt hkc
  child_parent := by
    intro m b hb h0
    obtain ⟨l, k, hk, rfl⟩ := h.exists_nid hb
    obtain ⟨c, hc, hkc, e⟩ := h.fin_child hk h0
    have hu := h.child_used hc
    rw [e, h.fin_parent hkc, hu.2.2.2.1, h.fin_hasCh hk]
    exact ⟨rfl, hu.1, hu.2.1⟩
  child_inj := by
    intro m m' b hb h0 he
    obtain ⟨l, k, hk, rfl⟩ := h.exists_nid hb
    obtain ⟨c, hc, hkc, e⟩ := h.fin_child hk h0
    obtain ⟨c', hc', hkc', e'⟩ := h.fin_child hk (m := m') (by rw [← he]; exact h0)
    rw [e, e'] at he
    have := (h.nid_inj hkc hkc' he).2
    subst this
    rw [← (h.child_used hc).2.2.2.2, (h.child_used hc').2.2.2.2]
  parent_child := by
    intro b hb h0
    obtain ⟨l, k, hk, rfl⟩ := h.exists_nid hb
    cases l with
    | zero =>
      have : k = 0 := by have := hk.1; rw [h.inv.used_zero] at this; omega
      subst this
      exact absurd nid_root h0
    | succ l =>
      have hp := h.inv.parent_ok l k hk.1
      exact ⟨k % P.nch, Nat.mod_lt _ (nch_pos P), by
        rw [h.fin_parent hk, h.fin_child_kept (h.kept_parent hk) hp.2.2 hk]⟩
  center_child := by
    intro m b hb h0 a
    obtain ⟨l, k, hk, rfl⟩ := h.exists_nid hb
    obtain ⟨c, hc, hkc, e⟩ := h.fin_child hk h0
    have hu := h.child_used hc
    obtain ⟨_, base, _, _, hch⟩ := h.inv.children l k hu.2.1
    obtain ⟨h1, _, _, _, h5, _⟩ := hch m hu.1
    rw [hc] at h1
    obtain rfl := Option.some.inj h1
    rw [e, h.fin_center hkc, h.fin_center hk, h.fin_level hk, h5]
    unfold childCenter mortonSign
    split <;> ring
  level_mono := by
    intro b b' hb' hle
    rcases Nat.eq_or_lt_of_le hle with rfl | hlt
    · exact le_refl _
    · obtain ⟨l, k, hk, rfl⟩ := h.exists_nid (show b < _ from Nat.lt_trans hlt hb')
      obtain ⟨l', k', hk', rfl⟩ := h.exists_nid hb'
      rw [h.fin_level hk, h.fin_level hk']
      have := (h.nid_lt_iff hk hk').1 hlt
      omega
  root_start := (h.fin_start h.kept_root).trans h.inv.root_start
  root_count := (h.fin_count h.kept_root).trans h.inv.root_count
  total := by
    intro b hb hc
    obtain ⟨l, k, hk, rfl⟩ := h.exists_nid hb
    rw [h.fin_hasCh hk] at hc
    rw [h.fin_count hk, h.fin_own hk]
    have h1 := (h.inv.children l k hc).1
    unfold Bins.total at h1
    unfold own
    rw [if_pos hc, ← h1]
    congr 1
    exact sum_congr_range fun m hm => (h.fin_childCount hk hc hm).symm
  consecutive := by
    intro m b hb h0 hpos
    obtain ⟨l, k, hk, rfl⟩ := h.exists_nid hb
    obtain ⟨c, hc, hkc, e⟩ := h.fin_child hk h0
    have hu := h.child_used hc
    obtain ⟨_, base, _, _, hch⟩ := h.inv.children l k hu.2.1
    obtain ⟨h1, _, h3, h4, _⟩ := hch m hu.1
    rw [hc] at h1
    obtain rfl := Option.some.inj h1
    rw [e, h.fin_count hkc] at hpos
    rw [e, h.fin_start hkc, h.fin_start hk, h.fin_own hk, h4 (by omega)]
    unfold childStart own
    rw [if_pos hu.2.1]
    congr 1
    exact sum_congr_range fun m' hm' => (h.fin_childCount hk hu.2.1 (by have := hu.1; omega)).symm
  pbox_lt := by
    intro i hi
    rw [h.fin_pbox hi]
    exact h.nid_lt (h.kept_box hi)
  part := by
    intro i hi b hb
    obtain ⟨l, k, hk, rfl⟩ := h.exists_nid hb
    rw [h.fin_pbox hi, h.fin_start hk, h.fin_own hk]
    constructor
    · intro he
      obtain ⟨rfl, rfl⟩ := h.nid_inj (h.kept_box hi) hk he
      exact (h.inv.box_used hi).2
    · intro he
      have := (h.inv.part i hi l k).2 ⟨hk.1, he⟩
      rw [this]

end FinOK
end

namespace FlatOK
variable {P : Params} {L : Nat} {F : Flat}

theorem hasCh_parent (h : FlatOK P L F) {b : Nat} (hb : b < F.nboxes) (h0 : b ≠ 0) :
    F.hasCh (F.parent b) = true := by
  obtain ⟨m, _, hc⟩ := h.parent_child b hb h0
  exact (h.child_parent m _ (h.parent_lt b hb) (by rw [hc]; exact h0)).2.2

theorem own_le (h : FlatOK P L F) {b : Nat} (hb : b < F.nboxes) : fown F b ≤ F.count b := by
  cases hc : F.hasCh b with
  | true => have := h.total b hb hc; omega
  | false => unfold fown; rw [hc]; exact le_refl _

/-- The range of a box is in the range of its parent, behind the parent's own particles. -/
theorem range (h : FlatOK P L F) {b : Nat} (hb : b < F.nboxes) (h0 : b ≠ 0)
    (hp : 0 < F.count b) :
    F.start (F.parent b) + fown F (F.parent b) ≤ F.start b ∧
    F.start b + F.count b ≤ F.start (F.parent b) + F.count (F.parent b) ∧
    0 < F.count (F.parent b) := by
  obtain ⟨m, hm, hc⟩ := h.parent_child b hb h0
  have hpl := h.parent_lt b hb
  have h1 := h.consecutive m _ hpl (by rw [hc]; exact h0) (by rw [hc]; exact hp)
  have h2 := h.total _ hpl (h.hasCh_parent hb h0)
  have h3 := sum_range_le (f := childCount F (F.parent b)) (show m + 1 ≤ P.nch from hm)
  rw [sum_range_succ] at h3
  have h4 : childCount F (F.parent b) m = F.count b := by
    unfold childCount; rw [hc, if_neg h0]
  rw [hc] at h1
  omega

/-- A number below a sum falls into one of the summands. -/
theorem exists_summand {f : Nat → Nat} {n q : Nat} (hq : q < ((List.range n).map f).sum) :
    ∃ m < n, ((List.range m).map f).sum ≤ q ∧ q < ((List.range m).map f).sum + f m := by
  induction n with
  | zero => simp at hq
  | succ n ih =>
    rcases Nat.lt_or_ge q ((List.range n).map f).sum with h | h
    · obtain ⟨m, h1, h2⟩ := ih h
      exact ⟨m, by omega, h2⟩
    · rw [sum_range_succ] at hq
      exact ⟨n, by omega, h, hq⟩

/-- Particles that are not a box's own are in one of its children. -/
theorem exhaustive (h : FlatOK P L F) {b p : Nat} (hb : b < F.nboxes)
    (h1 : F.start b + fown F b ≤ p) (h2 : p < F.start b + F.count b) :
    ∃ c, c < F.nboxes ∧ c ≠ 0 ∧ F.parent c = b ∧ F.start c ≤ p ∧ p < F.start c + F.count c := by
  have hc : F.hasCh b = true := by
    cases hc : F.hasCh b with
    | true => rfl
    | false => unfold fown at h1; rw [hc] at h1; simp at h1; omega
  have ht := h.total b hb hc
  obtain ⟨m, hm, h3, h4⟩ := exists_summand (f := childCount F b) (n := P.nch)
    (q := p - F.start b - fown F b) (by omega)
  have h0 : F.child m b ≠ 0 := by
    intro h0
    unfold childCount at h4
    rw [if_pos h0] at h4
    unfold childCount at h3
    omega
  have hcc : childCount F b m = F.count (F.child m b) := by
    unfold childCount; rw [if_neg h0]
  have h5 := h.consecutive m b hb h0 (by omega)
  exact ⟨F.child m b, h.child_lt m b hb, h0, (h.child_parent m b hb h0).1, by omega, by omega⟩

theorem within (h : FlatOK P L F) : ∀ (l b : Nat), F.level b = l → b < F.nboxes → 0 < F.count b →
    F.start b + F.count b ≤ P.n := by
  intro l
  induction l with
  | zero =>
    intro b hl hb _
    have h0 : b = 0 := by
      by_contra h0
      have := h.level_parent b hb h0
      omega
    rw [h0, h.root_start, h.root_count]; omega
  | succ l ih =>
    intro b hl hb hp
    have h0 : b ≠ 0 := by
      intro h0
      rw [h0, h.level_root] at hl
      omega
    have h1 := h.range hb h0 hp
    have h2 := h.level_parent b hb h0
    have h3 := ih (F.parent b) (by omega) (h.parent_lt b hb) h1.2.2
    omega

/-- The owner of a particle in the range of `b` is below `b`: `d` steps lead from the owner up to
`b`, through boxes whose ranges contain the particle. -/
theorem owner_below (h : FlatOK P L F) : ∀ (d b p : Nat), L + 1 ≤ F.level b + d → b < F.nboxes →
    F.start b ≤ p → p < F.start b + F.count b →
    F.level b ≤ F.level (F.pbox p) ∧ F.parent^[F.level (F.pbox p) - F.level b] (F.pbox p) = b := by
  intro d
  induction d with
  | zero => intro b p hd hb; have := h.level_lt b hb; omega
  | succ d ih =>
    intro b p hd hb h1 h2
    have hn := h.within _ b rfl hb (by omega)
    rcases Nat.lt_or_ge p (F.start b + fown F b) with h3 | h3
    · have := (h.part p (by omega) b hb).2 ⟨h1, h3⟩
      rw [this, Nat.sub_self]
      exact ⟨le_refl _, rfl⟩
    · obtain ⟨c, hc, hc0, hpc, h4, h5⟩ := h.exhaustive hb h3 h2
      have hl := h.level_parent c hc hc0
      rw [hpc] at hl
      obtain ⟨h6, h7⟩ := ih c p (by omega) hc h4 h5
      refine ⟨by omega, ?_⟩
      rw [show F.level (F.pbox p) - F.level b = (F.level (F.pbox p) - F.level c) + 1 by omega,
        Function.iterate_succ_apply', h7, hpc]

theorem iterate_lt (h : FlatOK P L F) {b : Nat} (hb : b < F.nboxes) (j : Nat) :
    F.parent^[j] b < F.nboxes := by
  induction j with
  | zero => exact hb
  | succ j ih => rw [Function.iterate_succ_apply']; exact h.parent_lt _ ih

theorem iterate_level (h : FlatOK P L F) {b : Nat} (hb : b < F.nboxes) :
    ∀ j, j ≤ F.level b → F.level (F.parent^[j] b) = F.level b - j := by
  intro j
  induction j with
  | zero => intro _; rfl
  | succ j ih =>
    intro hj
    have h1 := ih (by omega)
    have h0 : F.parent^[j] b ≠ 0 := by
      intro h0
      rw [h0, h.level_root] at h1
      omega
    have := h.level_parent _ (h.iterate_lt hb j) h0
    rw [Function.iterate_succ_apply']
    omega

/-- All ancestors of the owner contain the particle. -/
theorem mem_ancestor (h : FlatOK P L F) {p : Nat} (hp : p < P.n) : ∀ j, j ≤ F.level (F.pbox p) →
    F.start (F.parent^[j] (F.pbox p)) ≤ p ∧
      p < F.start (F.parent^[j] (F.pbox p)) + F.count (F.parent^[j] (F.pbox p)) := by
  intro j
  have hb := h.pbox_lt p hp
  induction j with
  | zero =>
    intro _
    have h1 := (h.part p hp _ hb).1 rfl
    have h2 := h.own_le hb
    exact ⟨h1.1, by have := h1.2; show p < F.start (F.pbox p) + F.count (F.pbox p); omega⟩
  | succ j ih =>
    intro hj
    have h1 := ih (by omega)
    have hl := h.iterate_level hb j (by omega)
    have h0 : F.parent^[j] (F.pbox p) ≠ 0 := by
      intro h0
      rw [h0, h.level_root] at hl
      omega
    have := h.range (h.iterate_lt hb j) h0 (by omega)
    rw [Function.iterate_succ_apply']
    omega

end FlatOK
end Boxtree.Build
