import Verif.Lemmas.AllocRel
import Verif.Lemmas.StateTree

/-! Level restriction on the flat arrays. -/

namespace Boxtree

/-- A walk depends on the box numbers only through the children and the visits. -/
structure WalkMap {α : Type} (t t' : BoxTree) (v v' : Nat → Nat → List α × Bool) (D : Nat → Prop)
    (e : Nat → Nat) : Prop where
  dims : t'.dims = t.dims
  nlevels : t'.nlevels = t.nlevels
  none : ∀ m b, D b → t.child m b = 0 → t'.child m (e b) = 0
  some : ∀ m b, D b → t.child m b ≠ 0 →
    D (t.child m b) ∧ t'.child m (e b) = e (t.child m b) ∧ e (t.child m b) ≠ 0
  visit : ∀ d c, D c → c ≠ 0 → v' d (e c) = v d c

namespace WalkMap
variable {α : Type} {t t' : BoxTree} {v v' : Nat → Nat → List α × Bool} {D : Nat → Prop}
  {e : Nat → Nat}

/-- The same walk variables with other box numbers. -/
def st (e : Nat → Nat) (s : WalkState) : WalkState :=
  ⟨s.stack.map fun x => (e x.1, x.2), e s.parent, s.morton, s.cont⟩

/-- All boxes of the walk variables are in `D`. -/
def InD (D : Nat → Prop) (s : WalkState) : Prop := D s.parent ∧ ∀ x ∈ s.stack, D x.1

theorem advance (nch : Nat) : ∀ (stk : List (Nat × Nat)) (p m : Nat),
    walkAdvance nch (stk.map fun x => (e x.1, x.2)) (e p) m = st e (walkAdvance nch stk p m) := by
  intro stk
  induction stk with
  | nil =>
    intro p m
    unfold walkAdvance
    simp only [List.map_nil]
    split <;> rfl
  | cons x stk ih =>
    intro p m
    obtain ⟨p', m'⟩ := x
    simp only [List.map_cons]
    unfold walkAdvance
    split
    · rfl
    · exact ih p' m'

theorem advance_inD (nch : Nat) : ∀ (stk : List (Nat × Nat)) (p m : Nat), D p →
    (∀ x ∈ stk, D x.1) → InD D (walkAdvance nch stk p m) := by
  intro stk
  induction stk with
  | nil =>
    intro p m hp _
    unfold walkAdvance
    split <;> exact ⟨hp, by simp⟩
  | cons x stk ih =>
    intro p m hp hs
    obtain ⟨p', m'⟩ := x
    unfold walkAdvance
    split
    · exact ⟨hp, hs⟩
    · exact ih p' m' (hs (p', m') (by simp)) fun x hx => hs x (by simp [hx])

theorem nch (h : WalkMap t t' v v' D e) : t'.nch = t.nch := by
  unfold BoxTree.nch; rw [h.dims]

theorem step (h : WalkMap t t' v v' D e) (s : WalkState) (hs : InD D s) :
    walkStep t' v' (st e s) = (st e (walkStep t v s).1, (walkStep t v s).2) ∧
      InD D (walkStep t v s).1 := by
  unfold walkStep
  by_cases hc : t.child s.morton s.parent = 0
  · have hc' : t'.child (st e s).morton (st e s).parent = 0 := h.none _ _ hs.1 hc
    simp only
    rw [if_pos hc, if_pos hc', h.nch]
    exact ⟨by rw [show (st e s).stack = s.stack.map fun x => (e x.1, x.2) from rfl,
      show (st e s).parent = e s.parent from rfl, show (st e s).morton = s.morton from rfl,
      advance], advance_inD _ _ _ _ hs.1 hs.2⟩
  · obtain ⟨h1, h2, h3⟩ := h.some _ _ hs.1 hc
    have h2' : t'.child (st e s).morton (st e s).parent = e (t.child s.morton s.parent) := h2
    have hv : v' (st e s).stack.length (e (t.child s.morton s.parent)) =
        v s.stack.length (t.child s.morton s.parent) := by
      rw [show (st e s).stack.length = s.stack.length from List.length_map ..]
      exact h.visit _ _ h1 hc
    simp only
    rw [h2', if_neg hc, if_neg h3, hv, h.nch]
    split
    · exact ⟨rfl, h1, by
        intro x hx
        rcases List.mem_cons.1 hx with rfl | hx
        · exact hs.1
        · exact hs.2 x hx⟩
    · exact ⟨by rw [show (st e s).stack = s.stack.map fun x => (e x.1, x.2) from rfl,
        show (st e s).parent = e s.parent from rfl, show (st e s).morton = s.morton from rfl,
        advance], advance_inD _ _ _ _ hs.1 hs.2⟩

theorem run (h : WalkMap t t' v v' D e) : ∀ (fuel : Nat) (s : WalkState) (acc : List α), InD D s →
    walkRun t' v' fuel (st e s) acc = walkRun t v fuel s acc := by
  intro fuel
  induction fuel with
  | zero =>
    intro s acc _
    unfold walkRun
    rfl
  | succ fuel ih =>
    intro s acc hs
    obtain ⟨h1, h2⟩ := h.step s hs
    unfold walkRun
    rw [show (st e s).cont = s.cont from rfl]
    split
    · simp only
      rw [h1]
      exact ih _ _ h2
    · rfl

theorem walk (h : WalkMap t t' v v' D e) {b : Nat} (hb : D b) :
    Boxtree.walk t' v' (e b) = Boxtree.walk t v b := by
  unfold Boxtree.walk walkFuel
  rw [h.nch, h.nlevels]
  have := h.run (t.nch * walkCost t.nch t.nlevels) (walkInit b) [] ⟨hb, by simp [walkInit]⟩
  rw [← this]
  rfl

end WalkMap

namespace Build
variable {P : Params} {level : Nat} {B : Buf} {s : State}

/-- Marks in the flat arrays. -/
structure FRel (level : Nat) (B : Buf) (s : State) (f : Nat → Bool) (g : Nat → Nat → Bool) :
    Prop where
  same : ∀ l < level, ∀ k < s.used l, f (B.lstart l + k) = g l k
  blank : ∀ b, Unused B.lstart s.used level b → f b = false

/-- Number of a box in the flat arrays from its number without padding. -/
def place (level : Nat) (B : Buf) (s : State) (b : Nat) : Nat :=
  B.lstart (locate s.used level 0 b).1 + (locate s.used level 0 b).2

theorem place_id {l k : Nat} (hl : l < level) (hk : k < s.used l) :
    place level B s (levelStart s.used l + k) = B.lstart l + k := by
  unfold place
  rw [locate_id s.used hl hk]

theorem Rel.walkMap (h : Rel P (level + 1) B s) (hi : Inv P (level + 1) s) {f : Nat → Bool}
    {g : Nat → Nat → Bool} (hf : FRel (level + 1) B s f g) {u k : Nat} (hu : u < level + 1)
    (hk : k < s.used u) :
    WalkMap (toTree P (level + 1) s) (B.tree P level)
      (restrictVisit P.fl (toTree P (level + 1) s)
        (fun b => s.stored (locate s.used (level + 1) 0 b).1 (locate s.used (level + 1) 0 b).2)
        (fun b => s.hasCh (locate s.used (level + 1) 0 b).1 (locate s.used (level + 1) 0 b).2)
        (fun b => g (locate s.used (level + 1) 0 b).1 (locate s.used (level + 1) 0 b).2) u
        (levelStart s.used u + k))
      (restrictVisit P.fl (B.tree P level) B.stored B.hasCh f u (B.lstart u + k))
      (fun b => b < levelStart s.used (level + 1)) (place (level + 1) B s) where
  dims := rfl
  nlevels := rfl
  none := by
    intro m b hb hc
    obtain ⟨l, k, hl, hk, rfl⟩ := exists_loc s.used hb
    rw [child_toTree hi hk] at hc
    rw [place_id hl hk]
    change B.child m _ = 0
    rw [(h.same l hl k hk).child]
    cases hx : s.child m l k with
    | none => rfl
    | some c =>
      rw [hx] at hc
      simp only at hc
      have := start_pos hi l
      omega
  some := by
    intro m b hb hc
    obtain ⟨l, k, hl, hk, rfl⟩ := exists_loc s.used hb
    rw [child_toTree hi hk] at hc ⊢
    rw [place_id hl hk]
    cases hx : s.child m l k with
    | some c =>
      simp only
      have hcu := (hi.child_ok hx).2.2.1
      have hl' := hi.used_level hcu
      refine ⟨id_lt _ hl' hcu, ?_, ?_⟩
      · rw [place_id hl' hcu]
        change B.child m _ = _
        rw [(h.same l hl k hk).child, hx]
      · rw [place_id hl' hcu]
        have := h.lay.in_level hl hk
        omega
    | none => rw [hx] at hc; exact absurd rfl hc
  visit := by
    intro d c hc _
    obtain ⟨l', k', hl', hk', rfl⟩ := exists_loc s.used hc
    rw [place_id hl' hk']
    unfold restrictVisit
    simp only
    have hne : (B.lstart l' + k' ≠ B.lstart u + k) =
        (levelStart s.used l' + k' ≠ levelStart s.used u + k) := by
      apply propext
      rw [not_iff_not]
      constructor
      · intro he
        obtain ⟨rfl, rfl⟩ := h.lay.emb_inj hl' hk' hu hk he
        rfl
      · intro he
        have h1 := locate_id s.used hl' hk'
        rw [he, locate_id s.used hu hk] at h1
        obtain ⟨rfl, rfl⟩ := Prod.mk.inj h1
        rfl
    have ec1 : B.stored (B.lstart l' + k') = s.stored l' k' :=
      funext (h.same l' hl' k' hk').stored
    have ec2 : B.stored (B.lstart u + k) = s.stored u k := funext (h.same u hu k hk).stored
    have ea : BoxTree.adjF P.fl (B.tree P level) = BoxTree.adjF P.fl (toTree P (level + 1) s) := rfl
    simp only [ec1, ec2, ea, locate_id s.used hl' hk', locate_id s.used hu hk,
      (h.same l' hl' k' hk').hasCh, hf.same l' hl' k' hk', hne]

theorem FRel.restrictLevel (h : Rel P (level + 1) B s) (hi : Inv P (level + 1) s)
    {f : Nat → Bool} {g : Nat → Nat → Bool} (hf : FRel (level + 1) B s f g) {u : Nat}
    (hu : u < level + 1) :
    FRel (level + 1) B s (B.restrictLevel P (B.tree P level) f u)
      (Build.restrictLevel P (toTree P (level + 1) s) s g u) where
  same := by
    intro l hl k hk
    unfold Buf.restrictLevel Build.restrictLevel
    rw [h.used]
    by_cases he : l = u
    · subst he
      rw [if_pos ⟨by omega, by omega⟩, if_pos rfl]
      have hw := (h.walkMap hi hf hl hk).walk (b := 0)
        (by have := start_pos hi level; omega)
      have h0 : place (level + 1) B s 0 = 0 := by
        have := place_id (B := B) (level := level + 1) (l := 0) (k := 0) (by omega)
          (by rw [hi.used_zero]; omega)
        rw [levelStart_zero, h.lay.start0] at this
        exact this
      rw [h0] at hw
      rw [hw, hf.same l hl k hk, (h.same l hl k hk).hasCh, decide_eq_true hk, Bool.true_and]
      rfl
    · rw [if_neg he, if_neg]
      · exact hf.same l hl k hk
      · rintro ⟨h1, h2⟩
        exact he (h.lay.inj (b := B.lstart l + k) hl hu (by omega) (h.lay.in_level hl hk) h1
          (by have := h.lay.len u hu; omega))
  blank := by
    intro b hb
    unfold Buf.restrictLevel
    rw [h.used, if_neg]
    · exact hf.blank b hb
    · rintro ⟨h1, h2⟩
      apply h.lay.not_unused hu (show b - B.lstart u < s.used u by omega)
      rw [show B.lstart u + (b - B.lstart u) = b by omega]
      exact hb

theorem FRel.anyForced (h : Rel P (level + 1) B s) {f : Nat → Bool} {g : Nat → Nat → Bool}
    (hf : FRel (level + 1) B s f g) {u : Nat} (hu : u < level + 1) :
    B.anyForced f u = Build.anyForced s g u := by
  unfold Buf.anyForced Build.anyForced
  rw [h.used, Bool.eq_iff_iff]
  simp only [List.any_eq_true, List.mem_range]
  constructor
  · rintro ⟨k, hk, hx⟩
    exact ⟨k, hk, by rw [← hf.same u hu k hk]; exact hx⟩
  · rintro ⟨k, hk, hx⟩
    exact ⟨k, hk, by rw [hf.same u hu k hk]; exact hx⟩

theorem FRel.upward (h : Rel P (level + 1) B s) (hi : Inv P (level + 1) s) : ∀ (u : Nat)
    (f : Nat → Bool) (g : Nat → Nat → Bool), u < level + 1 → FRel (level + 1) B s f g →
    FRel (level + 1) B s (B.upward P (B.tree P level) u f)
      (Build.upward P (toTree P (level + 1) s) s u g) := by
  intro u
  induction u with
  | zero => intro f g _ hf; exact hf
  | succ u ih =>
    intro f g hu hf
    have h1 := hf.restrictLevel h hi hu
    unfold Buf.upward Build.upward
    simp only
    rw [h1.anyForced h hu]
    split
    · exact ih _ _ (by omega) h1
    · exact h1

theorem Rel.restrict (h : Rel P (level + 1) B s) (hi : Inv P (level + 1) s) :
    Rel P (level + 1) (B.restrict P level) (Build.restrict P level s) := by
  have hF := FRel.upward h hi (level - 2) (fun _ => false) (fun _ _ => false) (by omega)
    ⟨fun _ _ _ _ => rfl, fun _ _ => rfl⟩
  exact { h with
    same := fun l hl k hk => { h.same l hl k hk with force := hF.same l hl k hk }
    blank := fun b hb => { h.blank b hb with force := hF.blank b hb } }

theorem Rel.didSplit (h : Rel P (level + 1) B s) : B.didSplit level = Build.didSplit level s := by
  unfold Buf.didSplit Build.didSplit
  congr 1
  have hF : FRel (level + 1) B s B.force s.force :=
    ⟨fun l hl k hk => (h.same l hl k hk).force, fun b hb => (h.blank b hb).force⟩
  exact hF.anyForced h (by omega)

theorem Rel.walkOK (h : Rel P (level + 1) B s) (hi : Inv P (level + 1) s) : B.WalkOK P level := by
  refine ⟨h.cap, ?_⟩
  intro b _ m _
  have h0 : 0 < B.lstart (level + 1) := by
    have := h.lay.lt_level (l := 0) (k := 0) (by omega) (by rw [hi.used_zero]; omega)
    omega
  rcases h.lay.cases b with hu | ⟨l, k, hl, hk, rfl⟩
  · rw [(h.blank b hu).child]; exact h0
  · rw [(h.same l hl k hk).child]
    split
    · rename_i c hc
      have hcu := (hi.child_ok hc).2.2.1
      exact h.lay.lt_level (hi.used_level hcu) hcu
    · exact h0

end Build
end Boxtree
