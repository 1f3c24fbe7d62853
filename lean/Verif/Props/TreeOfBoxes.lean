import Verif.Lemmas.TreeOfBoxes
import Verif.Lemmas.Locate
import Mathlib.Data.Finset.Card
import Mathlib.Data.List.Sort
import Mathlib.Tactic.Linarith

set_option linter.unusedSimpArgs false
set_option linter.unusedVariables false

/-!
# C14-C18: trees of boxes under refinement and coarsening
-/

namespace Boxtree
open Tob

/-! ## C14: validity over all histories -/

/-- A concrete (stable) `argsort`. -/
def stableArgsort (l : List Nat) : List Nat :=
  (List.range l.length).insertionSort fun a b => l.getD a 0 ≤ l.getD b 0

theorem stableArgsort_ok : IsArgsort stableArgsort := by
  intro l
  refine ⟨List.perm_insertionSort _ _, ?_⟩
  rw [List.pairwise_map]
  have : Std.Total fun a b : Nat => l.getD a 0 ≤ l.getD b 0 := ⟨fun a b => Nat.le_total _ _⟩
  have : IsTrans Nat fun a b : Nat => l.getD a 0 ≤ l.getD b 0 := ⟨fun a b c => Nat.le_trans⟩
  exact List.pairwise_insertionSort (fun a b : Nat => l.getD a 0 ≤ l.getD b 0) _

/-- A concrete history in two dimensions: refine the root, refine two of its children, refine
uniformly, then coarsen one group while refining elsewhere. -/
def exHistory : List Request :=
  [.refine stableArgsort fun b => b == 0,
   .refineAndCoarsen stableArgsort (fun b => b == 1 || b == 4) (fun _ => false) true,
   .uniformlyRefine stableArgsort,
   .refineAndCoarsen stableArgsort (fun b => b == 20) (fun b => b == 40) true,
   .coarsen stableArgsort (fun b => b == 42) false]

def exRoot : Tob := root 2 32 true (fun _ => 0) (fun _ => 16)

/-- Number of boxes after a history, if it succeeds. -/
def nboxesAfter (t : Tob) (rs : List Request) : Option Nat :=
  match t.history rs with
  | .ok u => some u.nboxes
  | .error _ => none


namespace Tob

def Request.rf (t : Tob) : Request → Nat → Bool
  | .refineAndCoarsen _ rf _ _ => rf
  | .refine _ rf => rf
  | .uniformlyRefine _ => fun b => hasFlag (t.flags b) flagIsLeaf
  | .coarsen _ _ _ => fun _ => false

def Request.cf : Request → Nat → Bool
  | .refineAndCoarsen _ _ cf _ => cf
  | .refine _ _ => fun _ => false
  | .uniformlyRefine _ => fun _ => false
  | .coarsen _ cf _ => cf

def Request.err : Request → Bool
  | .refineAndCoarsen _ _ _ e => e
  | .refine _ _ => true
  | .uniformlyRefine _ => true
  | .coarsen _ _ e => e

theorem perform_eq (t : Tob) (r : Request) :
    t.perform r = t.refineAndCoarsen r.argsort (r.rf t) r.cf r.err := by
  cases r <;> rfl

theorem leafFlag_iff (t : Tob) (b : Nat) :
    hasFlag (t.flags b) flagIsLeaf = true ↔ t.NoChildren b := by
  unfold NoChildren
  rw [← isLeaf_iff]
  unfold flags
  cases h : t.isLeaf b <;>
    simp [hasFlag, flagIsSource, flagIsTarget, flagIsLeaf, flagHasSourceChild, flagHasTargetChild]

theorem rf_refines {t : Tob} {r : Request} {b : Nat} (h : r.rf t b = true) : r.refines t b := by
  cases r with
  | uniformlyRefine s => exact (leafFlag_iff t b).1 h
  | refineAndCoarsen s rf cf e => exact h
  | refine s rf => exact h
  | coarsen s cf e => simp [Request.rf] at h

/-- What one call preserves. -/
structure HistInv (t0 t : Tob) : Prop where
  valid : t.Valid
  signed : t.lvSigned = true
  bits : t.lvBits = t0.lvBits
  dims : t.dims = t0.dims
  ext : t.rootExtent = t0.rootExtent
  center0 : ∀ i, t.center 0 i = t0.center 0 i
  level : ∀ b, b < t.nboxes → t.level b + 2 < t.lvBits

theorem HistInv.step {t0 t u : Tob} (h : HistInv t0 t) {r : Request} (hs : IsArgsort r.argsort)
    (hsh : ∀ b, b < t.nboxes → r.refines t b → t.level b + 3 < t.lvBits)
    (hp : t.perform r = .ok u) : HistInv t0 u := by
  rw [perform_eq] at hp
  obtain ⟨tr, tc, σ, τ, _, _, _, hf⟩ := step_facts hs h.valid h.signed h.level
    (fun b hb hr => hsh b hb (rf_refines hr)) hp
  have hRe := hf.relabel
  have hu0 : (0 : Nat) < u.nboxes := hf.valid.root
  have hσ0 : σ 0 = 0 := by
    have h1 := hRe.bwd 0 hf.coreC.root
    rw [hRe.root] at h1; exact h1.2
  have h0 : (0 : Nat) < t.nboxes := h.valid.root
  refine ⟨hf.valid, ?_, ?_, ?_, ?_, ?_, ?_⟩
  · rw [hRe.signed, hf.coarsenFacts.signed, hf.refineFacts.signed, h.signed]
  · rw [hRe.bits, hf.coarsenFacts.bits, hf.refineFacts.bits, h.bits]
  · rw [hRe.dims, hf.coarsenFacts.dims, hf.refineFacts.dims, h.dims]
  · rw [hRe.ext, hf.coarsenFacts.ext, hf.refineFacts.ext, h.ext]
  · intro i
    rw [hRe.center 0 hu0, hσ0, hf.coarsenFacts.center, hf.refineFacts.center 0 h0, h.center0]
  · intro b hb
    obtain ⟨⟨h1, h2⟩, _⟩ := hRe.fwd b hb
    rw [hRe.level b hb, hf.coarsenFacts.level, if_neg h2, hRe.bits, hf.coarsenFacts.bits,
      hf.refineFacts.bits]
    exact hf.levelB _ h1

theorem HistInv.history {t0 : Tob} : ∀ {reqs : List Request} {t u : Tob}, HistInv t0 t →
    (∀ r ∈ reqs, IsArgsort r.argsort) → t.Shallow reqs → t.history reqs = .ok u → HistInv t0 u := by
  intro reqs
  induction reqs with
  | nil =>
    intro t u h _ _ hh
    have : t = u := by simpa [Tob.history] using hh
    exact this ▸ h
  | cons r rs ih =>
    intro t u h hs hsh hh
    unfold Tob.history at hh
    cases hp : t.perform r with
    | error e => rw [hp] at hh; simp [bind, Except.bind] at hh
    | ok v =>
      rw [hp] at hh
      simp only [bind, Except.bind] at hh
      exact ih (h.step (hs r (by simp)) hsh.1 hp) (fun r' hr => hs r' (by simp [hr])) (hsh.2 v hp) hh

theorem root_inv {dims bits : Nat} {lo hi : Nat → ℚ} (hd : 0 < dims) (hpos : lo 0 < hi 0)
    (hb : 2 < bits) : HistInv (root dims bits true lo hi) (root dims bits true lo hi) where
  valid := {
    dims_pos := hd
    ext_pos := by change 0 < hi 0 - lo 0; linarith
    root := by change 0 < 1; omega
    parent_root := rfl
    level_root := rfl
    parent_alive := by intro b h h0; change b < 1 at h; omega
    child_alive := by intro b _ m _ h; exact absurd rfl h
    child_inj := by intro b _ m _ m' _ h; exact absurd rfl h
    all_or_none := by intro b _; left; intro m _; rfl
    center_child := by intro b _ m _ h; exact absurd rfl h
    level_mono := by intro a b _ _; exact Nat.le_refl 0 }
  signed := rfl
  bits := rfl
  dims := rfl
  ext := rfl
  center0 := fun _ => rfl
  level := by intro b _; change 0 + 2 < bits; omega

/-- A history shorter than the bit width minus two never goes too deep. -/
theorem shallow_of_length {t0 : Tob} : ∀ {reqs : List Request} {t : Tob}, HistInv t0 t →
    (∀ r ∈ reqs, IsArgsort r.argsort) → ∀ L, (∀ b, b < t.nboxes → t.level b ≤ L) →
    L + reqs.length + 2 < t.lvBits → t.Shallow reqs := by
  intro reqs
  induction reqs with
  | nil => intro t _ _ L _ _; trivial
  | cons r rs ih =>
    intro t h hs L hL hlen
    simp only [List.length_cons] at hlen
    have h1 : ∀ b, b < t.nboxes → r.refines t b → t.level b + 3 < t.lvBits := by
      intro b hb _
      have := hL b hb
      omega
    refine ⟨h1, ?_⟩
    intro u hu
    have hi := h.step (hs r (by simp)) h1 hu
    rw [perform_eq] at hu
    obtain ⟨tr, tc, σ, τ, _, _, _, hf⟩ := step_facts (hs r (by simp)) h.valid h.signed h.level
      (fun b hb hr => h1 b hb (rf_refines hr)) hu
    apply ih hi (fun r' hr => hs r' (by simp [hr])) (L + 1)
    · intro b hb
      obtain ⟨⟨h3, h4⟩, _⟩ := hf.relabel.fwd b hb
      rw [hf.relabel.level b hb, hf.coarsenFacts.level, if_neg h4]
      exact hf.levelR _ h3 L hL
    · rw [hi.bits, ← h.bits]; omega

end Tob

/-- **C14.** Start from `make_tree_of_boxes_root` and perform any sequence of refinement and
coarsening calls that all return.  The resulting tree is valid (see `Tob.Valid`: box 0 is the root,
every other box is a child of its parent, levels count generations and do not decrease with the box
id, a box has all children or none, children are the half-size sub-boxes), box 0 is the only box
without a parent, every other box appears exactly once among its parent's children, the flags agree
with the child ids, and the root box is still the given bounding box. -/
theorem C14_history_valid (dims bits : Nat) (lo hi : Nat → ℚ) (hd : 0 < dims) (hpos : lo 0 < hi 0)
    (hbits : 2 < bits) (reqs : List Request) (hs : ∀ r ∈ reqs, IsArgsort r.argsort)
    (hsh : (root dims bits true lo hi).Shallow reqs) (u : Tob)
    (h : (root dims bits true lo hi).history reqs = .ok u) :
    u.Valid ∧
    (∀ b, b < u.nboxes → (u.parent b = -1 ↔ b = 0)) ∧
    (∀ b, b < u.nboxes → b ≠ 0 →
      ∃! pm : Nat × Nat, pm.1 < u.nboxes ∧ pm.2 < u.nch ∧ u.child pm.2 pm.1 = b) ∧
    (∀ b, b < u.nboxes → (hasFlag (u.flags b) flagIsLeaf = true ↔ u.NoChildren b) ∧
      (hasFlag (u.flags b) flagHasSourceChild = true ↔ ¬ u.NoChildren b) ∧
      (hasFlag (u.flags b) flagHasTargetChild = true ↔ ¬ u.NoChildren b) ∧
      hasFlag (u.flags b) flagIsSource = true ∧ hasFlag (u.flags b) flagIsTarget = true) ∧
    u.dims = dims ∧ u.rootExtent = hi 0 - lo 0 ∧ ∀ i, u.center 0 i = (lo i + hi i) / 2 := by
  have hI := (root_inv hd hpos hbits).history hs hsh h
  have hv := hI.valid
  refine ⟨hv, ?_, ?_, ?_, hI.dims, hI.ext, ?_⟩
  · intro b hb
    constructor
    · intro hp
      by_contra h0
      obtain ⟨p, _, hpb, _⟩ := hv.parent_alive b hb h0
      omega
    · rintro rfl; exact hv.parent_root
  · intro b hb h0
    obtain ⟨p, hp, hpb, _, m, hm, hc⟩ := hv.parent_alive b hb h0
    refine ⟨(p, m), ⟨hp, hm, hc⟩, ?_⟩
    rintro ⟨p', m'⟩ ⟨hp', hm', hc'⟩
    simp only at hp' hm' hc'
    have h1 := (hv.child_alive p' hp' m' hm' (by rw [hc']; exact h0)).2
    rw [hc', hpb] at h1
    have h2 : p' = p := by omega
    subst h2
    have := hv.child_inj p' hp m hm m' hm' (by rw [hc]; exact h0) (by rw [hc, hc'])
    rw [this]
  · intro b hb
    unfold NoChildren
    rw [← isLeaf_iff]
    unfold flags
    cases u.isLeaf b <;>
      simp [hasFlag, flagIsSource, flagIsTarget, flagIsLeaf, flagHasSourceChild,
        flagHasTargetChild]
  · intro i
    rw [hI.center0]
    change (lo i + hi i) * (1 / 2) = _
    ring

/-- With the default 32-bit level type, histories of up to 29 calls are always shallow enough for
`C14_history_valid`. -/
theorem C14_short_histories (dims bits : Nat) (lo hi : Nat → ℚ) (hd : 0 < dims)
    (hpos : lo 0 < hi 0) (reqs : List Request) (hs : ∀ r ∈ reqs, IsArgsort r.argsort)
    (hlen : reqs.length + 2 < bits) : (root dims bits true lo hi).Shallow reqs :=
  shallow_of_length (root_inv hd hpos (by omega)) hs 0 (fun b _ => Nat.le_refl 0) (by
    change 0 + reqs.length + 2 < bits; omega)

/-- The hypotheses of `C14_history_valid` are met by a history that succeeds. -/
example : (∀ r ∈ exHistory, IsArgsort r.argsort) ∧ exRoot.Shallow exHistory ∧
    ∃ u, exRoot.history exHistory = .ok u := by
  have hs : ∀ r ∈ exHistory, IsArgsort r.argsort := by
    intro r hr
    simp only [exHistory, List.mem_cons, List.not_mem_nil, or_false] at hr
    rcases hr with rfl | rfl | rfl | rfl | rfl <;> exact stableArgsort_ok
  refine ⟨hs, C14_short_histories 2 32 _ _ (by omega) (by norm_num) _ hs (by decide), ?_⟩
  have h : (nboxesAfter exRoot exHistory).isSome = true := by decide +kernel
  unfold nboxesAfter at h
  cases hh : exRoot.history exHistory with
  | ok u => exact ⟨u, rfl⟩
  | error e => rw [hh] at h; simp at h

/-- The depth limit of `C14_history_valid` is sharp: refining a box of level `lvBits - 3` (29 for
`np.int32`) overflows the integer power of two, and the new boxes are put on the wrong side of their
parent's center. -/
theorem C14_center_flips_when_deep (t u : Tob) (rf : Nat → Bool) (hc : t.Core (· < t.nboxes))
    (hsig : t.lvSigned = true) (h : t.refine rf = .ok u) (p : Nat) (hp : p < t.nboxes)
    (hr : rf p = true) (hl : t.level p + 3 = t.lvBits) (m : Nat) (hm : m < t.nch) (i : Nat)
    (hi : i < t.dims) :
    u.center (u.child m p) i = t.center p i - mortonSign t.dims m i * t.rad (t.level p + 1) ∧
    u.center (u.child m p) i ≠ t.center p i + mortonSign t.dims m i * t.rad (t.level p + 1) := by
  obtain ⟨hf, _⟩ := refine_ok h
  have hmem : p ∈ (List.range t.nboxes).filter rf := by simp [hp, hr]
  have hk := List.idxOf_lt_length_of_mem hmem
  have e : u.center (u.child m p) i =
      t.center p i - mortonSign t.dims m i * t.rad (t.level p + 1) := by
    rw [hf.child_ps p hmem, hf.center_new _ m hk hm, getD_idxOf hmem, vecOfSigns_eq hm hi]
    have hpow : t.lvPow (1 + (t.level p + 1)) = -2 ^ (t.level p + 2) := by
      unfold lvPow
      rw [hsig]
      have : (1 + (t.level p + 1) + 1 == t.lvBits) = true := by simp; omega
      rw [this]
      simp
      rw [show 1 + (t.level p + 1) = t.level p + 2 by omega]
    rw [hpow]
    unfold Tob.rad
    push_cast
    rw [show t.level p + 1 + 1 = t.level p + 2 by omega]
    have : (2 : ℚ) ^ (t.level p + 2) ≠ 0 := by positivity
    field_simp
    ring
  refine ⟨e, ?_⟩
  rw [e]
  have hrad : 0 < t.rad (t.level p + 1) := by
    unfold Tob.rad; exact div_pos hc.ext_pos (by positivity)
  have hs : mortonSign t.dims m i = 1 ∨ mortonSign t.dims m i = -1 := by
    unfold mortonSign; split <;> simp
  rcases hs with hs | hs <;> rw [hs] <;> intro h' <;> linarith

/-- A tree with a single leaf on level 29, as seen by the refinement step. -/
example : let t : Tob := { root 2 32 true (fun _ => 0) (fun _ => 16) with level := fun _ => 29 }
    t.level 0 + 3 = t.lvBits ∧ t.lvSigned = true ∧ ∃ u, t.refine (fun b => b == 0) = .ok u := by
  refine ⟨rfl, rfl, ?_⟩
  exact ⟨_, rfl⟩

theorem Tob.unsigned_sort {t : Tob} (h : t.lvSigned = false) (s s' : List Nat → List Nat) :
    t.sortAndPrune s = t.sortAndPrune s' := by
  simp [sortAndPrune, sortByLevel, levelsDecrease, h]

theorem Tob.unsigned_step {t : Tob} (h : t.lvSigned = false) (s s' : List Nat → List Nat)
    (rf cf : Nat → Bool) (e : Bool) :
    t.refineAndCoarsen s rf cf e = t.refineAndCoarsen s' rf cf e ∧
    ∀ u, t.refineAndCoarsen s rf cf e = .ok u → u.lvSigned = false := by
  unfold refineAndCoarsen
  split
  · simp
  · cases hr : t.refine rf with
    | error er => simp [bind, Except.bind]
    | ok tr =>
      simp only [bind, Except.bind]
      cases hcr : tr.coarsen (resizeFlags t.nboxes cf) e with
      | error er => simp
      | ok tc =>
        have h1 : tc.lvSigned = false := by
          rw [(coarsen_ok hcr).1.signed, (refine_ok hr).1.signed, h]
        simp only [pure, Except.pure, Except.ok.injEq]
        rw [unsigned_sort h1 s s']
        refine ⟨rfl, ?_⟩
        rintro u rfl
        unfold sortAndPrune sortByLevel levelsDecrease
        rw [h1]; exact h1

/-- **C14** fails for unsigned level types: `np.diff` of unsigned levels is never negative, so the
boxes are not sorted before the deleted ones are cut off.  After refining the root, then both of its
children, and coarsening the children of box 1, box 2 is left with children that do not exist any
more. -/
theorem C14_unsigned_levels_break (argsort : List Nat → List Nat) :
    ∃ u, (root 1 32 false (fun _ => 0) (fun _ => 16)).history
        [.refine argsort fun b => b == 0, .uniformlyRefine argsort,
         .coarsen argsort (fun b => b == 3) true] = .ok u ∧
      ∃ b m, b < u.nboxes ∧ m < u.nch ∧ u.nboxes ≤ u.child m b := by
  have hirr : ∀ (f : List Nat → List Nat),
      (root 1 32 false (fun _ => 0) (fun _ => 16)).history
        [.refine f fun b => b == 0, .uniformlyRefine f, .coarsen f (fun b => b == 3) true] =
      (root 1 32 false (fun _ => 0) (fun _ => 16)).history
        [.refine id fun b => b == 0, .uniformlyRefine id, .coarsen id (fun b => b == 3) true] := by
    intro f
    have hp : ∀ (t : Tob), t.lvSigned = false → ∀ r r' : Request, r.rf t = r'.rf t → r.cf = r'.cf →
        r.err = r'.err → t.perform r = t.perform r' ∧
          ∀ u, t.perform r' = .ok u → u.lvSigned = false := by
      intro t ht r r' h1 h2 h3
      rw [perform_eq, perform_eq, h1, h2, h3]
      exact ⟨(unsigned_step ht _ _ _ _ _).1, (unsigned_step ht r'.argsort id _ _ _).2⟩
    simp only [history]
    have s1 := hp (root 1 32 false (fun _ => 0) (fun _ => 16)) rfl (.refine f fun b => b == 0)
      (.refine id fun b => b == 0) rfl rfl rfl
    rw [s1.1]
    cases h1 : (root 1 32 false (fun _ => 0) (fun _ => 16)).perform (.refine id fun b => b == 0) with
    | error e => rfl
    | ok u1 =>
      simp only [bind, Except.bind]
      have s2 := hp u1 (s1.2 u1 h1) (.uniformlyRefine f) (.uniformlyRefine id) rfl rfl rfl
      rw [s2.1]
      cases h2 : u1.perform (.uniformlyRefine id) with
      | error e => rfl
      | ok u2 =>
        simp only
        rw [(hp u2 (s2.2 u2 h2) (.coarsen f (fun b => b == 3) true)
          (.coarsen id (fun b => b == 3) true) rfl rfl rfl).1]
  have h : (match (root 1 32 false (fun _ => 0) (fun _ => 16)).history
        [.refine id fun b => b == 0, .uniformlyRefine id, .coarsen id (fun b => b == 3) true] with
      | .ok u => decide (2 < u.nboxes ∧ 0 < u.nch ∧ u.nboxes ≤ u.child 0 2)
      | .error _ => false) = true := by decide +kernel
  rw [hirr argsort]
  split at h
  · rename_i u hu
    exact ⟨u, hu, 2, 0, of_decide_eq_true h⟩
  · simp at h

/-! ## The valid tree as a box tree -/

theorem Tob.Core.wf {t : Tob} (hc : t.Core (· < t.nboxes)) {L : Nat}
    (hL : ∀ b, b < t.nboxes → t.level b < L) : (t.toBoxTree L).WF := by
  constructor
  · exact hc.ext_pos
  · exact hc.root
  · exact hc.level_root
  · change (t.parent 0).toNat = 0; rw [hc.parent_root]; rfl
  · intro b hb
    by_cases h0 : b = 0
    · subst h0; change (t.parent 0).toNat < t.nboxes
      rw [hc.parent_root]; exact hc.root
    · exact (hc.parent_nat hb h0).1
  · intro b hb h0; exact (hc.parent_nat hb h0).2.2.1
  · exact hL
  · intro m hm b hb
    by_cases h0 : t.child m b = 0
    · change t.child m b < t.nboxes; rw [h0]; exact hc.root
    · exact (hc.child_alive b hb m hm h0).1
  · intro m hm b hb hne
    change (t.parent (t.child m b)).toNat = b
    rw [(hc.child_alive b hb m hm hne).2]; rfl
  · intro m hm m' hm' b hb hne he
    exact hc.child_inj b hb m hm m' hm' hne he
  · intro b hb h0; exact (hc.parent_nat hb h0).2.2.2
  · intro m hm b hb hne i hi
    exact hc.center_child b hb m hm hne i hi

/-- **C14** (connection with the traversal properties): a tree produced by any history satisfies the
well-formedness and flag assumptions of the traversal theorems. -/
theorem C14_usable_for_traversal (t : Tob) (hv : t.Valid) (L : Nat)
    (hL : ∀ b, b < t.nboxes → t.level b < L) :
    (t.toBoxTree L).WF ∧ (t.toBoxTree L).FlagsOK := by
  refine ⟨hv.toCore.wf hL, ?_⟩
  have key : ∀ b, b < t.nboxes → b ≠ 0 → t.isLeaf (t.parent b).toNat = false := by
    intro b hb h0
    obtain ⟨hp, _, _, m, hm, hc⟩ := hv.toCore.parent_nat hb h0
    by_contra h
    have := (isLeaf_iff t _).1 (by simpa using h) m hm
    omega
  constructor
  · intro b hb h0 _
    change hasFlag (t.flags (t.parent b).toNat) flagHasSourceChild = true
    unfold flags
    rw [key b hb h0]; simp [hasFlag, flagIsSource, flagIsTarget, flagHasSourceChild,
      flagHasTargetChild]
  · intro b hb h0 _
    change hasFlag (t.flags (t.parent b).toNat) flagHasTargetChild = true
    unfold flags
    rw [key b hb h0]; simp [hasFlag, flagIsSource, flagIsTarget, flagHasSourceChild,
      flagHasTargetChild]

/-! ## C15: the leaves tile the root box -/

/-- **C15.** After any history, the mesh cells of the leaves (center ± radius, half open) are
contained in the given bounding box, and every point of the bounding box lies in exactly one of
them. -/
theorem C15_leaves_tile_root (dims bits : Nat) (lo hi : Nat → ℚ) (hd : 0 < dims)
    (hpos : lo 0 < hi 0) (hsq : ∀ i, i < dims → hi i - lo i = hi 0 - lo 0) (hbits : 2 < bits)
    (reqs : List Request) (hs : ∀ r ∈ reqs, IsArgsort r.argsort)
    (hsh : (root dims bits true lo hi).Shallow reqs) (u : Tob)
    (h : (root dims bits true lo hi).history reqs = .ok u) (x : Nat → ℚ) :
    ((∃ b ∈ u.leafBoxes, u.InLeafCell b x) ↔ ∀ i, i < dims → lo i ≤ x i ∧ x i < hi i) ∧
    ∀ a ∈ u.leafBoxes, ∀ b ∈ u.leafBoxes, u.InLeafCell a x → u.InLeafCell b x → a = b := by
  have hI := (root_inv hd hpos hbits).history hs hsh h
  have hv := hI.valid
  have hb' : u.lvBits = bits := hI.bits
  have hw : (u.toBoxTree bits).WF := hv.toCore.wf (fun b hb => by have := hI.level b hb; omega)
  have hmem : ∀ b, b ∈ u.leafBoxes ↔ b < u.nboxes ∧ ∀ m, m < u.nch → u.child m b = 0 := by
    intro b
    unfold leafBoxes
    rw [List.mem_filter, List.mem_range, leafFlag_iff]; rfl
  have hcell : ∀ b, b < u.nboxes → (u.InLeafCell b x ↔ (u.toBoxTree bits).InCell b x) := by
    intro b hb
    have hr : u.leafRadius b = (u.toBoxTree bits).rad (u.level b) := by
      unfold leafRadius BoxTree.rad
      rw [lvPow_eq (by have := hI.level b hb; omega)]
      change u.rootExtent / 2 / _ = u.rootExtent / _
      push_cast
      rw [pow_succ]; field_simp
    unfold InLeafCell BoxTree.InCell
    rw [hr]; rfl
  have hroot : (u.toBoxTree bits).InCell 0 x ↔ ∀ i, i < dims → lo i ≤ x i ∧ x i < hi i := by
    unfold BoxTree.InCell
    have hdd : (u.toBoxTree bits).dims = dims := hI.dims
    rw [hdd]
    apply forall_congr'; intro i
    apply imp_congr_right; intro hi'
    have h1 : (u.toBoxTree bits).center 0 i = (lo i + hi i) * (1 / 2) := hI.center0 i
    have h2 : (u.toBoxTree bits).rad ((u.toBoxTree bits).level 0) = (hi 0 - lo 0) / 2 := by
      rw [hw.level_root]; unfold BoxTree.rad
      rw [show (u.toBoxTree bits).rootExtent = hi 0 - lo 0 from hI.ext]; norm_num
    rw [h1, h2, ← hsq i hi']
    constructor <;> rintro ⟨h3, h4⟩ <;> constructor <;> linarith
  constructor
  · rw [← hroot]
    constructor
    · rintro ⟨b, hb, hx⟩
      have hbn := ((hmem b).1 hb).1
      rw [hcell b hbn] at hx
      have := (hw.inCell_iter hbn hx ((u.toBoxTree bits).level b)).1
      have h0 := hw.ancAt_zero hbn
      unfold BoxTree.ancAt at h0
      rw [Nat.sub_zero] at h0
      rwa [h0] at this
    · intro hx
      obtain ⟨c, hc, hl, hxc⟩ := hw.exists_leaf_inCell hv.all_or_none _ 0 hv.root rfl hx
      exact ⟨c, (hmem c).2 ⟨hc, hl⟩, (hcell c hc).2 hxc⟩
  · intro a ha b hb hxa hxb
    obtain ⟨ha1, ha2⟩ := (hmem a).1 ha
    obtain ⟨hb1, hb2⟩ := (hmem b).1 hb
    rw [hcell a ha1] at hxa
    rw [hcell b hb1] at hxb
    have key : ∀ a b, a < u.nboxes → b < u.nboxes → (∀ m, m < u.nch → u.child m a = 0) →
        (u.toBoxTree bits).IsAncOrSelf a b → a = b := by
      intro a b ha hb hla ⟨hl, he⟩
      rcases Nat.eq_or_lt_of_le hl with hl' | hl'
      · rw [hl', BoxTree.ancAt_self] at he; exact he.symm
      · exfalso
        have hl2 : (u.toBoxTree bits).level a + 1 ≤ (u.toBoxTree bits).level b := hl'
        have hne := hw.ancAt_ne_zero hb hl2 (by omega)
        have hlt := hw.ancAt_lt hb ((u.toBoxTree bits).level a + 1)
        have hpar := (u.toBoxTree bits).ancAt_parent (b := b) hl'
        obtain ⟨m, hm, hc⟩ := hw.parent_child _ hlt hne
        rw [hpar, he] at hc
        have := hla m hm
        change u.child m a = _ at hc
        rw [this] at hc
        exact hne hc.symm
    rcases Nat.le_total (u.level a) (u.level b) with hl | hl
    · exact key a b ha1 hb1 ha2 (hw.inCell_anc ha1 hb1 hxa hxb hl)
    · exact (key b a hb1 ha1 hb2 (hw.inCell_anc hb1 ha1 hxb hxa hl)).symm

/-- The bounding box of the concrete history is square and the history succeeds (see above), and it
has points. -/
example : (0 : ℚ) < 16 ∧ (∀ i, i < 2 → (16 : ℚ) - 0 = 16 - 0) ∧ ∃ x : Nat → ℚ, ∀ i, i < 2 →
    (0 : ℚ) ≤ x i ∧ x i < 16 := ⟨by norm_num, by simp, fun _ => 5, by intro i _; norm_num⟩

end Boxtree
