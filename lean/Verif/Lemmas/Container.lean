import Verif.Spec.Container

namespace Boxtree.Container

variable {α β : Type} {cls : String → Desc} {f : Leaf α → Except String (Leaf α)}

theorem attr_append (n : String) (a b : List (String × β)) :
    attr n (a ++ b) = (attr n a).or (attr n b) := by
  induction a with
  | nil => rfl
  | cons x a ih =>
    obtain ⟨m, y⟩ := x
    simp only [List.cons_append, attr]
    split
    · rfl
    · exact ih

theorem attr_recMapAttrs (n : String) (as : List (String × Val α)) :
    attr n (recMapAttrs cls f as) = (attr n as).map (recMap cls f) := by
  induction as with
  | nil => rfl
  | cons x as ih =>
    obtain ⟨m, y⟩ := x
    simp only [recMapAttrs, attr]
    split
    · rfl
    · exact ih

theorem mapM_cons_ok {γ δ : Type} (g : γ → Except String δ) (n : γ) (l : List γ) (r : List δ) :
    (n :: l).mapM g = .ok r ↔ ∃ y r', g n = .ok y ∧ l.mapM g = .ok r' ∧ r = y :: r' := by
  rw [List.mapM_cons]
  cases g n with
  | error e =>
    constructor
    · intro h; cases h
    · rintro ⟨_, _, h, _⟩; cases h
  | ok y =>
    cases h2 : l.mapM g with
    | error e =>
      constructor
      · intro h; cases h
      · rintro ⟨_, _, _, h, _⟩; cases h
    | ok r' =>
      constructor
      · intro h
        cases h
        exact ⟨y, r', rfl, rfl, rfl⟩
      · rintro ⟨_, _, h1, h3, rfl⟩
        cases h1; cases h3
        rfl

/-- Attributes collected with `mapM`. -/
theorem mapM_attr (g : String → Except String β) (l : List String) (r : List (String × β))
    (h : (l.mapM fun n => do return (n, ← g n)) = .ok r) :
    (∀ n ∈ l, ∃ y, g n = .ok y ∧ attr n r = some y) ∧ ∀ n, n ∉ l → attr n r = none := by
  induction l generalizing r with
  | nil =>
    cases h
    exact ⟨by simp, fun _ _ => rfl⟩
  | cons m l ih =>
    obtain ⟨y, r', h1, h2, rfl⟩ := (mapM_cons_ok _ _ _ _).1 h
    obtain ⟨i1, i2⟩ := ih r' h2
    cases hg : g m with
    | error e => rw [hg] at h1; cases h1
    | ok z =>
      rw [hg] at h1
      cases h1
      refine ⟨fun n hn => ?_, fun n hn => ?_⟩
      · by_cases e : m = n
        · subst e
          exact ⟨z, hg, by simp [attr]⟩
        · obtain ⟨y, y1, y2⟩ := i1 n (by
            rcases List.mem_cons.1 hn with h | h
            · exact absurd h.symm e
            · exact h)
          exact ⟨y, y1, by simp only [attr]; rw [if_neg e]; exact y2⟩
      · have e : m ≠ n := fun e => hn (by simp [e])
        simp only [attr]
        rw [if_neg e]
        exact i2 n fun h => hn (List.mem_cons_of_mem _ h)

theorem mapM_error {γ δ : Type} {g : γ → Except String δ} {l : List γ} {E : String}
    (h : ∀ n ∈ l, (∃ y, g n = .ok y) ∨ g n = .error E) :
    (∃ r, l.mapM g = .ok r) ∨ (l.mapM g = .error E ∧ ∃ n ∈ l, g n = .error E) := by
  induction l with
  | nil => exact Or.inl ⟨[], rfl⟩
  | cons m l ih =>
    rcases h m (by simp) with ⟨y, hy⟩ | hy
    · rcases ih fun n hn => h n (List.mem_cons_of_mem _ hn) with ⟨r, hr⟩ | ⟨hr, n, hn, hg⟩
      · exact Or.inl ⟨y :: r, (mapM_cons_ok _ _ _ _).2 ⟨y, r, hy, hr, rfl⟩⟩
      · refine Or.inr ⟨?_, n, List.mem_cons_of_mem _ hn, hg⟩
        rw [List.mapM_cons, hy, hr]
        rfl
    · refine Or.inr ⟨?_, m, by simp, hy⟩
      rw [List.mapM_cons, hy]
      rfl

/-- An instance that was mapped. -/
theorem recMap_inst {c : String} {as : List (String × Val α)} {w : Val α}
    (h : recMap cls f (.inst c as) = .ok w) :
    ∃ as', w = .inst c as' ∧
      (∀ n ∈ (cls c).others, ∃ v, attr n as = some v ∧ attr n as' = some v) ∧
      (∀ n ∈ (cls c).arrays, n ∉ (cls c).others →
        ∃ v v', attr n as = some v ∧ recMap cls f v = .ok v' ∧ attr n as' = some v') ∧
      ∀ n, n ∉ (cls c).arrays → n ∉ (cls c).others → attr n as' = none := by
  rw [recMap] at h
  cases h1 : ((cls c).arrays.mapM fun n => do
      return (n, ← (← getattr n (recMapAttrs cls f as)))) with
  | error e => simp only [h1] at h; cases h
  | ok ser =>
    cases h2 : ((cls c).others.mapM fun n => do return (n, ← getattr n as)) with
    | error e => simp only [h1, h2] at h; cases h
    | ok oth =>
      simp only [h1, h2] at h
      cases h
      obtain ⟨o1, o2⟩ := mapM_attr (fun n => getattr n as) _ _ h2
      have h1' : ((cls c).arrays.mapM fun n => do
          return (n, ← (do (← getattr n (recMapAttrs cls f as)) : Except String (Val α)))) = .ok ser := by
        rw [← h1]
        congr 1
        funext n
        cases getattr n (recMapAttrs cls f as) <;> rfl
      obtain ⟨s1, s2⟩ := mapM_attr _ _ _ h1'
      refine ⟨_, rfl, fun n hn => ?_, fun n hn ho => ?_, fun n hn ho => ?_⟩
      · obtain ⟨y, y1, y2⟩ := o1 n hn
        refine ⟨y, ?_, by rw [attr_append, y2]; rfl⟩
        unfold getattr at y1
        cases ha : attr n as with
        | none => rw [ha] at y1; cases y1
        | some v => rw [ha] at y1; cases y1; rfl
      · obtain ⟨y, y1, y2⟩ := s1 n hn
        unfold getattr at y1
        rw [attr_recMapAttrs] at y1
        cases ha : attr n as with
        | none => rw [ha] at y1; cases y1
        | some v =>
          rw [ha] at y1
          exact ⟨v, y, rfl, y1, by rw [attr_append, o2 n ho, y2]; rfl⟩
      · rw [attr_append, o2 n ho, s2 n hn]
        rfl

/-- An object array that was mapped. -/
theorem recMapList_ok {vs ws : List (Val α)} (h : recMapList cls f vs = .ok ws) :
    ws.length = vs.length ∧ ∀ (i : Nat) (v : Val α), vs[i]? = some v → ∃ w, recMap cls f v = .ok w ∧ ws[i]? = some w := by
  induction vs generalizing ws with
  | nil =>
    cases h
    exact ⟨rfl, fun i v h => by simp at h⟩
  | cons v vs ih =>
    rw [recMapList] at h
    cases h1 : recMap cls f v with
    | error e => simp only [h1] at h; cases h
    | ok w =>
      cases h2 : recMapList cls f vs with
      | error e => simp only [h1, h2] at h; cases h
      | ok ws' =>
        simp only [h1, h2] at h
        cases h
        obtain ⟨l, i1⟩ := ih h2
        refine ⟨by simp [l], fun i v' hv => ?_⟩
        cases i with
        | zero =>
          simp only [List.getElem?_cons_zero, Option.some.injEq] at hv ⊢
          subst hv
          exact ⟨w, h1, rfl⟩
        | succ i =>
          simp only [List.getElem?_cons_succ] at hv ⊢
          exact i1 i v' hv

theorem recMap_obj {vs : List (Val α)} {w : Val α} (h : recMap cls f (.obj vs) = .ok w) :
    ∃ ws, w = .obj ws ∧ recMapList cls f vs = .ok ws := by
  rw [recMap] at h
  cases h1 : recMapList cls f vs with
  | error e => rw [h1] at h; cases h
  | ok ws => rw [h1] at h; cases h; exact ⟨ws, rfl, rfl⟩

theorem recMap_leaf {x : Leaf α} {w : Val α} (h : recMap cls f (.leaf x) = .ok w) :
    ∃ y, f x = .ok y ∧ w = .leaf y := by
  rw [recMap] at h
  cases h1 : f x with
  | error e => rw [h1] at h; cases h
  | ok y => rw [h1] at h; cases h; exact ⟨y, rfl, rfl⟩

/-- No field is listed twice. -/
def Separate (cls : String → Desc) : Prop := ∀ c n, n ∈ (cls c).arrays → n ∉ (cls c).others

/-- Places that are transferred, forwards. -/
theorem recMap_get (hs : Separate cls) : ∀ (p : List Step) {v w u : Val α}, recMap cls f v = .ok w →
    v.transferred cls p = true → v.get p = some u →
    ∃ u', recMap cls f u = .ok u' ∧ w.transferred cls p = true ∧ w.get p = some u' := by
  intro p
  induction p with
  | nil =>
    intro v w u h _ hg
    simp only [Val.get, Option.some.injEq] at hg
    subst hg
    exact ⟨w, h, by simp [Val.transferred], by simp [Val.get]⟩
  | cons s p ih =>
    intro v w u h ht hg
    cases v with
    | leaf x => simp [Val.get] at hg
    | obj vs =>
      obtain ⟨ws, rfl, hl⟩ := recMap_obj h
      cases s with
      | attr n => simp [Val.get] at hg
      | index i =>
        simp only [Val.get, Option.bind_eq_some_iff] at hg
        obtain ⟨v, hv, hg⟩ := hg
        obtain ⟨w, hw, hwi⟩ := (recMapList_ok hl).2 i v hv
        simp only [Val.transferred, hv] at ht
        obtain ⟨u', u1, u2, u3⟩ := ih hw ht hg
        exact ⟨u', u1, by simp only [Val.transferred, hwi]; exact u2,
          by simp only [Val.get, hwi, Option.bind_some]; exact u3⟩
    | inst c as =>
      obtain ⟨as', rfl, _, ha, _⟩ := recMap_inst h
      cases s with
      | index i => simp [Val.get] at hg
      | attr n =>
        simp only [Val.get, Option.bind_eq_some_iff] at hg
        obtain ⟨v, hv, hg⟩ := hg
        simp only [Val.transferred, hv, Bool.and_eq_true, decide_eq_true_eq] at ht
        obtain ⟨v₁, w, hv₁, hw, hwn⟩ := ha n ht.1 (hs c n ht.1)
        rw [hv] at hv₁
        cases hv₁
        obtain ⟨u', u1, u2, u3⟩ := ih hw ht.2 hg
        exact ⟨u', u1, by
          simp only [Val.transferred, hwn, Bool.and_eq_true, decide_eq_true_eq]; exact ⟨ht.1, u2⟩,
          by simp only [Val.get, hwn, Option.bind_some]; exact u3⟩

/-- Places that are transferred, backwards. -/
theorem recMap_get_back (hs : Separate cls) : ∀ (p : List Step) {v w u' : Val α},
    recMap cls f v = .ok w → w.transferred cls p = true → w.get p = some u' →
    ∃ u, recMap cls f u = .ok u' ∧ v.transferred cls p = true ∧ v.get p = some u := by
  intro p
  induction p with
  | nil =>
    intro v w u h _ hg
    simp only [Val.get, Option.some.injEq] at hg
    subst hg
    exact ⟨v, h, by simp [Val.transferred], by simp [Val.get]⟩
  | cons s p ih =>
    intro v w u h ht hg
    cases v with
    | leaf x =>
      obtain ⟨y, _, rfl⟩ := recMap_leaf h
      simp [Val.get] at hg
    | obj vs =>
      obtain ⟨ws, rfl, hl⟩ := recMap_obj h
      cases s with
      | attr n => simp [Val.get] at hg
      | index i =>
        simp only [Val.get, Option.bind_eq_some_iff] at hg
        obtain ⟨w, hw, hg⟩ := hg
        obtain ⟨l, hall⟩ := recMapList_ok hl
        have hi : i < vs.length := by
          rw [← l]
          exact (List.getElem?_eq_some_iff.1 hw).1
        obtain ⟨w', hw', hwi⟩ := hall i vs[i] (List.getElem?_eq_getElem hi)
        rw [hw] at hwi
        cases hwi
        simp only [Val.transferred, hw] at ht
        obtain ⟨u', u1, u2, u3⟩ := ih hw' ht hg
        exact ⟨u', u1, by simp only [Val.transferred, List.getElem?_eq_getElem hi]; exact u2,
          by simp only [Val.get, List.getElem?_eq_getElem hi, Option.bind_some]; exact u3⟩
    | inst c as =>
      obtain ⟨as', rfl, _, ha, _⟩ := recMap_inst h
      cases s with
      | index i => simp [Val.get] at hg
      | attr n =>
        simp only [Val.get, Option.bind_eq_some_iff] at hg
        obtain ⟨w, hw, hg⟩ := hg
        simp only [Val.transferred, hw, Bool.and_eq_true, decide_eq_true_eq] at ht
        obtain ⟨v, w₁, hv, hvw, hwn⟩ := ha n ht.1 (hs c n ht.1)
        rw [hw] at hwn
        cases hwn
        obtain ⟨u', u1, u2, u3⟩ := ih hvw ht.2 hg
        exact ⟨u', u1, by
          simp only [Val.transferred, hv, Bool.and_eq_true, decide_eq_true_eq]; exact ⟨ht.1, u2⟩,
          by simp only [Val.get, hv, Option.bind_some]; exact u3⟩

theorem Val.Proper.attr {c n : String} {as : List (String × Val α)} {v : Val α}
    (h : (Val.inst c as).Proper cls) (hn : n ∈ (cls c).arrays) (hv : attr n as = some v) :
    v.Proper cls := by
  intro p c' as' ht hg
  exact h (.attr n :: p) c' as' (by simp [Val.transferred, hn, hv, ht])
    (by simp [Val.get, hv, hg])

theorem Val.Proper.entry {i : Nat} {vs : List (Val α)} {v : Val α}
    (h : (Val.obj vs).Proper cls) (hv : vs[i]? = some v) : v.Proper cls := by
  intro p c' as' ht hg
  exact h (.index i :: p) c' as' (by simp [Val.transferred, hv, ht]) (by simp [Val.get, hv, hg])

/-- All places that hold leaves. -/
theorem recMap_leaves (hs : Separate cls) : ∀ (p : List Step) {v w : Val α} {x : Leaf α},
    v.Proper cls → recMap cls f v = .ok w → v.get p = some (.leaf x) →
    (v.transferred cls p = true → ∃ y, f x = .ok y ∧ w.get p = some (.leaf y)) ∧
    (v.transferred cls p = false → w.get p = some (.leaf x)) := by
  intro p
  induction p with
  | nil =>
    intro v w x _ h hg
    simp only [Val.get, Option.some.injEq] at hg
    subst hg
    obtain ⟨y, hy, rfl⟩ := recMap_leaf h
    exact ⟨fun _ => ⟨y, hy, by simp [Val.get]⟩, fun h => by simp [Val.transferred] at h⟩
  | cons s p ih =>
    intro v w x hp h hg
    cases v with
    | leaf x => simp [Val.get] at hg
    | obj vs =>
      obtain ⟨ws, rfl, hl⟩ := recMap_obj h
      cases s with
      | attr n => simp [Val.get] at hg
      | index i =>
        simp only [Val.get, Option.bind_eq_some_iff] at hg
        obtain ⟨v, hv, hg⟩ := hg
        obtain ⟨w, hw, hwi⟩ := (recMapList_ok hl).2 i v hv
        simp only [Val.transferred, hv, Val.get, hwi, Option.bind_some]
        exact ih (hp.entry hv) hw hg
    | inst c as =>
      obtain ⟨as', rfl, ho, ha, _⟩ := recMap_inst h
      cases s with
      | index i => simp [Val.get] at hg
      | attr n =>
        simp only [Val.get, Option.bind_eq_some_iff] at hg
        obtain ⟨v, hv, hg⟩ := hg
        by_cases hn : n ∈ (cls c).arrays
        · obtain ⟨v₁, w, hv₁, hw, hwn⟩ := ha n hn (hs c n hn)
          rw [hv] at hv₁
          cases hv₁
          simp only [Val.transferred, hv, Val.get, hwn, Option.bind_some, hn, decide_true, Bool.true_and]
          exact ih (hp.attr hn hv) hw hg
        · have hno : n ∈ (cls c).others := by
            have := (hp [] c as (by simp [Val.transferred]) (by simp [Val.get]) n).1 (by rw [hv]; rfl)
            tauto
          obtain ⟨v₁, hv₁, hv₂⟩ := ho n hno
          rw [hv] at hv₁
          cases hv₁
          simp only [Val.transferred, hn, decide_false, Bool.false_and, Val.get, hv₂, Option.bind_some]
          exact ⟨fun h => by simp at h, fun _ => hg⟩

/-- The result has the attributes of its classes. -/
theorem recMap_proper (hs : Separate cls) {v w : Val α} (h : recMap cls f v = .ok w) : w.Proper cls := by
  intro p c as ht hg n
  obtain ⟨u, u1, u2, u3⟩ := recMap_get_back hs p h ht hg
  cases u with
  | leaf x => obtain ⟨_, _, e⟩ := recMap_leaf u1; cases e
  | obj vs => obtain ⟨_, e, _⟩ := recMap_obj u1; cases e
  | inst c' as' =>
    obtain ⟨as₂, e, h1, h2, h3⟩ := recMap_inst u1
    cases e
    constructor
    · intro hsome
      by_contra hc
      rw [not_or] at hc
      rw [h3 n hc.1 hc.2] at hsome
      cases hsome
    · rintro (hn | hn)
      · obtain ⟨_, _, _, _, e⟩ := h2 n hn (hs _ n hn)
        rw [e]; rfl
      · obtain ⟨_, _, e⟩ := h1 n hn
        rw [e]; rfl

mutual
/-- A mapping succeeds, or fails because of a leaf. -/
theorem recMap_total {E : String} (hf : ∀ x e, f x = .error e → e = E) : ∀ v : Val α, v.Proper cls →
    (∃ w, recMap cls f v = .ok w) ∨ (recMap cls f v = .error E ∧
      ∃ p x, v.transferred cls p = true ∧ v.get p = some (.leaf x) ∧ f x = .error E)
  | .leaf x, _ => by
    cases hx : f x with
    | ok y => exact Or.inl ⟨.leaf y, by rw [recMap, hx]; rfl⟩
    | error e =>
      rw [hf x e hx] at hx
      exact Or.inr ⟨by rw [recMap, hx]; rfl, [], x, by simp [Val.transferred], by simp [Val.get], hx⟩
  | .obj vs, hp => by
    rcases recMapList_total hf vs fun i v hv => hp.entry hv with ⟨ws, hw⟩ | ⟨hw, i, v, hv, p, x, h1, h2, h3⟩
    · exact Or.inl ⟨.obj ws, by rw [recMap, hw]; rfl⟩
    · exact Or.inr ⟨by rw [recMap, hw]; rfl, .index i :: p, x, by simp [Val.transferred, hv, h1],
        by simp [Val.get, hv, h2], h3⟩
  | .inst c as, hp => by
    have hself := hp [] c as (by simp [Val.transferred]) (by simp [Val.get])
    have hattr := recMapAttrs_total hf as
    have ho : ∃ oth, ((cls c).others.mapM fun n => do return (n, ← getattr n as)) = .ok oth := by
      rcases mapM_error (E := E) (l := (cls c).others)
        (g := fun n => do return (n, ← getattr n as)) (fun n hn => by
          left
          have := (hself n).2 (Or.inr hn)
          cases ha : attr n as with
          | none => rw [ha] at this; cases this
          | some v => exact ⟨(n, v), by simp only [getattr, ha]; rfl⟩) with h | ⟨_, n, hn, hg⟩
      · exact h
      · have := (hself n).2 (Or.inr hn)
        cases ha : attr n as with
        | none => rw [ha] at this; cases this
        | some v => simp only [getattr, ha] at hg; cases hg
    obtain ⟨oth, ho⟩ := ho
    have hcase : ∀ n ∈ (cls c).arrays, ∃ v, attr n as = some v ∧
        (do return (n, ← (← getattr n (recMapAttrs cls f as))) : Except String (String × Val α)) =
          (recMap cls f v).map fun w => (n, w) := by
      intro n hn
      have := (hself n).2 (Or.inl hn)
      cases ha : attr n as with
      | none => rw [ha] at this; cases this
      | some v =>
        refine ⟨v, rfl, ?_⟩
        simp only [getattr, attr_recMapAttrs, ha, Option.map_some]
        cases recMap cls f v <;> rfl
    rcases mapM_error (E := E) (l := (cls c).arrays)
        (g := fun n => do return (n, ← (← getattr n (recMapAttrs cls f as)))) (fun n hn => by
          obtain ⟨v, hv, he⟩ := hcase n hn
          rw [he]
          rcases hattr n v hv (hp.attr hn hv) with ⟨w, hw⟩ | ⟨hw, _⟩
          · exact Or.inl ⟨(n, w), by rw [hw]; rfl⟩
          · exact Or.inr (by rw [hw]; rfl)) with ⟨ser, hser⟩ | ⟨hser, n, hn, hg⟩
    · exact Or.inl ⟨.inst c (oth ++ ser), by rw [recMap]; simp only [hser, ho]; rfl⟩
    · obtain ⟨v, hv, he⟩ := hcase n hn
      rw [he] at hg
      rcases hattr n v hv (hp.attr hn hv) with ⟨w, hw⟩ | ⟨_, p, x, h1, h2, h3⟩
      · rw [hw] at hg; cases hg
      · exact Or.inr ⟨by rw [recMap]; simp only [hser]; rfl, .attr n :: p, x,
          by simp [Val.transferred, hn, hv, h1], by simp [Val.get, hv, h2], h3⟩

theorem recMapList_total {E : String} (hf : ∀ x e, f x = .error e → e = E) : ∀ vs : List (Val α),
    (∀ (i : Nat) v, vs[i]? = some v → v.Proper cls) →
    (∃ ws, recMapList cls f vs = .ok ws) ∨ (recMapList cls f vs = .error E ∧
      ∃ (i : Nat) (v : Val α), vs[i]? = some v ∧
        ∃ p x, v.transferred cls p = true ∧ v.get p = some (.leaf x) ∧ f x = .error E)
  | [], _ => Or.inl ⟨[], by rw [recMapList]⟩
  | v :: vs, hp => by
    rcases recMap_total hf v (hp 0 v rfl) with ⟨w, hw⟩ | ⟨hw, h⟩
    · rcases recMapList_total hf vs fun i u hu => hp (i + 1) u hu with ⟨ws, hws⟩ | ⟨hws, i, u, hu, h⟩
      · exact Or.inl ⟨w :: ws, by rw [recMapList, hw, hws]; rfl⟩
      · exact Or.inr ⟨by rw [recMapList, hw, hws]; rfl, i + 1, u, hu, h⟩
    · exact Or.inr ⟨by rw [recMapList, hw]; rfl, 0, v, rfl, h⟩

theorem recMapAttrs_total {E : String} (hf : ∀ x e, f x = .error e → e = E) :
    ∀ (as : List (String × Val α)) (n : String) (v : Val α), attr n as = some v → v.Proper cls →
    (∃ w, recMap cls f v = .ok w) ∨ (recMap cls f v = .error E ∧
      ∃ p x, v.transferred cls p = true ∧ v.get p = some (.leaf x) ∧ f x = .error E)
  | [], _, _, h, _ => by simp [attr] at h
  | (m, u) :: as, n, v, h, hp => by
    simp only [attr] at h
    split at h
    · cases h
      exact recMap_total hf u hp
    · exact recMapAttrs_total hf as n v h hp
end

end Boxtree.Container
