import Verif.Spec.CostFactory
import Verif.Props.Cost

/-! Evaluation of symbolic costs; what the cost kernels read. -/

namespace Boxtree.Cost

section
variable {K : Type} [CommSemiring K] {hp : K → Nat → K}

theorem mapM_okE {α β : Type} (f : α → Except String β) (g : α → β) : ∀ l : List α,
    (∀ a ∈ l, f a = .ok (g a)) → l.mapM f = .ok (l.map g)
  | [], _ => rfl
  | a :: l, h => by
    rw [List.mapM_cons, h a (by simp), mapM_okE f g l fun b hb => h b (by simp [hb])]
    rfl

theorem mapM_errE {α β : Type} (f : α → Except String β) (e : String) : ∀ l : List α, l ≠ [] →
    (∀ a ∈ l, f a = .error e) → l.mapM f = .error e
  | [], h, _ => absurd rfl h
  | a :: l, _, h => by
    rw [List.mapM_cons, h a (by simp)]
    rfl

/-- The dictionary with the orders on `n` levels. -/
def withOrders (n : Nat) (orders : List K) (ctx : Ctx K) : Ctx K := fun m => match m with
  | .order l => if l < n then orders[l]? else ctx m
  | .const _ => ctx m

omit [CommSemiring K] in
theorem setOrders_ok {n : Nat} {orders : List K} (h : n ≤ orders.length) (ctx : Ctx K) :
    setOrders n orders ctx = .ok (withOrders n orders ctx) := by
  unfold setOrders
  rw [if_neg (by omega)]
  rfl

theorem withOrders_order {n : Nat} {orders : List K} (h : n ≤ orders.length) (ctx : Ctx K) {l : Nat}
    (hl : l < n) : withOrders n orders ctx (.order l) = some (orders.getD l 0) := by
  show (if l < n then orders[l]? else _) = _
  rw [if_pos hl, List.getElem?_eq_getElem (by omega), List.getD_eq_getElem _ _ (by omega)]

theorem eval_ncoeffs {ctx : Ctx K} {F : Factory} {dim l : Nat} {p : K} (h : ctx (.order l) = some p) :
    ((F.make dim).ncoeffs l).eval hp ctx = .ok (ncoeffs F dim p) := by
  cases F <;> simp [Factory.make, Expr.eval, h, ncoeffs]

theorem eval_e2e {ctx : Ctx K} {F : Factory} {dim : Nat} {e f : Expr} {v w : K}
    (h1 : e.eval hp ctx = .ok v) (h2 : f.eval hp ctx = .ok w) :
    ((F.make dim).e2e e f).eval hp ctx = .ok (translation hp F dim v w) := by
  unfold Xlat.e2e translation
  cases F with
  | taylor =>
    simp only [Factory.make, Bool.false_eq_true, if_false, Expr.eval, h1, h2]
    rfl
  | pdeAware =>
    by_cases hd : dim = 3
    · subst hd
      simp only [Factory.make, decide_true, if_true, Expr.eval, h1, h2]
      rfl
    · rw [if_neg hd]
      simp only [Factory.make, hd, decide_false, Bool.false_eq_true, if_false, Expr.eval, h1, h2]
      rfl

theorem eval_mul {ctx : Ctx K} {n : Name} {e : Expr} {c v : K} (h1 : ctx n = some c)
    (h2 : e.eval hp ctx = .ok v) : (Expr.mul (.var n) e).eval hp ctx = .ok (c * v) := by
  simp only [Expr.eval, h1, h2]
  rfl

theorem evalList_ok {ctx : Ctx K} {n : Nat} {e : Nat → Expr} {g : Nat → K}
    (h : ∀ l < n, (e l).eval hp ctx = .ok (g l)) :
    evalList hp ctx n e = .ok ((List.range n).map g) :=
  mapM_okE _ _ _ fun l hl => h l (List.mem_range.1 hl)

theorem evalList_err {ctx : Ctx K} {n : Nat} {e : Nat → Expr} {m : String} (hn : 0 < n)
    (h : ∀ l < n, (e l).eval hp ctx = .error m) : evalList hp ctx n e = .error m :=
  mapM_errE _ _ _ (by simp; omega) fun l hl => h l (List.mem_range.1 hl)

theorem at0_map {n : Nat} {g : Nat → K} {l : Nat} (hl : l < n) :
    at0 ((List.range n).map g) l = g l := by
  unfold at0
  rw [List.getD_eq_getElem _ _ (by simpa using hl)]
  simp

/-- Factors that agree where they are read. -/
structure AgreeOn (n : Nat) (f g : Factors K) : Prop where
  p2m : ∀ l < n, f.p2m l = g.p2m l
  m2m : ∀ l, l + 1 < n → f.m2m l = g.m2m l
  p2p : f.p2p = g.p2p
  m2l : ∀ l < n, f.m2l l = g.m2l l
  m2p : ∀ l < n, f.m2p l = g.m2p l
  p2l : ∀ l < n, f.p2l l = g.p2l l
  l2l : ∀ l, l + 1 < n → f.l2l l = g.l2l l
  l2p : ∀ l < n, f.l2p l = g.l2p l

/-- The dictionary has what is needed for `n` levels. -/
structure GivesFor (n : Nat) (ctx : Ctx K) (c : Calib K) : Prop where
  p2m : ctx (.const "c_p2m") = some c.p2m
  m2m : 2 ≤ n → ctx (.const "c_m2m") = some c.m2m
  p2p : ctx (.const "c_p2p") = some c.p2p
  m2l : ctx (.const "c_m2l") = some c.m2l
  m2p : ctx (.const "c_m2p") = some c.m2p
  p2l : ctx (.const "c_p2l") = some c.p2l
  l2l : 2 ≤ n → ctx (.const "c_l2l") = some c.l2l
  l2p : ctx (.const "c_l2p") = some c.l2p

theorem evalFactors_ok {F : Factory} {dim n : Nat} {ctx : Ctx K} {c : Calib K} {p : Nat → K}
    (hc : GivesFor n ctx c) (hord : ∀ l < n, ctx (.order l) = some (p l)) :
    ∃ f, evalFactors hp (F.make dim) n ctx = .ok f ∧ AgreeOn n f (modelled hp F dim c p) := by
  have hn : ∀ l < n, ((F.make dim).ncoeffs l).eval hp ctx = .ok (ncoeffs F dim (p l)) :=
    fun l hl => eval_ncoeffs (hord l hl)
  have e1 := evalList_ok (e := (F.make dim).p2m) (n := n) fun l hl => eval_mul hc.p2m (hn l hl)
  have e2 := evalList_ok (e := fun l => (F.make dim).m2m (l + 1) l) (n := n - 1) fun l hl =>
    eval_mul (hc.m2m (by omega)) (eval_e2e (F := F) (dim := dim) (hn (l + 1) (by omega)) (hn l (by omega)))
  have e3 : Xlat.direct.eval hp ctx = .ok c.p2p := by
    unfold Xlat.direct Expr.eval
    rw [hc.p2p]
  have e4 := evalList_ok (e := fun l => (F.make dim).m2l l l) (n := n) fun l hl =>
    eval_mul hc.m2l (eval_e2e (F := F) (dim := dim) (hn l hl) (hn l hl))
  have e5 := evalList_ok (e := (F.make dim).m2p) (n := n) fun l hl => eval_mul hc.m2p (hn l hl)
  have e6 := evalList_ok (e := (F.make dim).p2l) (n := n) fun l hl => eval_mul hc.p2l (hn l hl)
  have e7 := evalList_ok (e := fun l => (F.make dim).l2l l (l + 1)) (n := n - 1) fun l hl =>
    eval_mul (hc.l2l (by omega)) (eval_e2e (F := F) (dim := dim) (hn l (by omega)) (hn (l + 1) (by omega)))
  have e8 := evalList_ok (e := (F.make dim).l2p) (n := n) fun l hl => eval_mul hc.l2p (hn l hl)
  have e : evalFactors hp (F.make dim) n ctx = .ok
      { p2m := at0 ((List.range n).map fun l => c.p2m * ncoeffs F dim (p l))
        m2m := at0 ((List.range (n - 1)).map fun l => c.m2m
          * translation hp F dim (ncoeffs F dim (p (l + 1))) (ncoeffs F dim (p l)))
        p2p := c.p2p
        m2l := at0 ((List.range n).map fun l => c.m2l
          * translation hp F dim (ncoeffs F dim (p l)) (ncoeffs F dim (p l)))
        m2p := at0 ((List.range n).map fun l => c.m2p * ncoeffs F dim (p l))
        p2l := at0 ((List.range n).map fun l => c.p2l * ncoeffs F dim (p l))
        l2l := at0 ((List.range (n - 1)).map fun l => c.l2l
          * translation hp F dim (ncoeffs F dim (p l)) (ncoeffs F dim (p (l + 1))))
        l2p := at0 ((List.range n).map fun l => c.l2p * ncoeffs F dim (p l)) } := by
    unfold evalFactors
    rw [e1, e2, e3, e4, e5, e6, e7, e8]
    rfl
  refine ⟨_, e, ?_⟩
  constructor
  · intro l hl; exact at0_map hl
  · intro l hl; exact at0_map (n := n - 1) (by omega)
  · rfl
  · intro l hl; exact at0_map hl
  · intro l hl; exact at0_map hl
  · intro l hl; exact at0_map hl
  · intro l hl; exact at0_map (n := n - 1) (by omega)
  · intro l hl; exact at0_map hl

theorem mapM_all_ok {α β : Type} {f : α → Except String β} : ∀ {l : List α} {r : List β},
    l.mapM f = .ok r → ∀ a ∈ l, ∃ b, f a = .ok b
  | [], _, _, a, ha => by cases ha
  | x :: l, r, h, a, ha => by
    rw [List.mapM_cons] at h
    cases hx : f x with
    | error e => rw [hx] at h; cases h
    | ok v =>
      cases hl : l.mapM f with
      | error e => rw [hx, hl] at h; cases h
      | ok w =>
        rcases List.mem_cons.1 ha with rfl | ha
        · exact ⟨v, hx⟩
        · exact mapM_all_ok hl a ha

theorem eval_mul_var {ctx : Ctx K} {n : Name} {e : Expr} {v : K}
    (h : (Expr.mul (.var n) e).eval hp ctx = .ok v) : ∃ c, ctx n = some c := by
  unfold Expr.eval at h
  cases hn : ctx n with
  | some c => exact ⟨c, rfl⟩
  | none =>
    simp only [Expr.eval, hn] at h
    cases h

theorem evalList_var {ctx : Ctx K} {n : Nat} {m : Name} {e : Nat → Expr} {r : List K} (hn : 0 < n)
    (h : evalList hp ctx n (fun l => .mul (.var m) (e l)) = .ok r) : ∃ c, ctx m = some c := by
  obtain ⟨b, hb⟩ := mapM_all_ok h 0 (List.mem_range.2 hn)
  exact eval_mul_var hb

theorem evalFactors_inv {x : Xlat} {n : Nat} {ctx : Ctx K} {f : Factors K} (hn : 0 < n)
    (h : evalFactors hp x n ctx = .ok f) : ∃ c, GivesFor n ctx c := by
  unfold evalFactors at h
  cases e1 : evalList hp ctx n x.p2m with
  | error e => rw [e1] at h; cases h
  | ok r1 =>
  cases e2 : evalList hp ctx (n - 1) fun l => x.m2m (l + 1) l with
  | error e => rw [e1, e2] at h; cases h
  | ok r2 =>
  cases e3 : Xlat.direct.eval hp ctx with
  | error e => rw [e1, e2, e3] at h; cases h
  | ok r3 =>
  cases e4 : evalList hp ctx n fun l => x.m2l l l with
  | error e => rw [e1, e2, e3, e4] at h; cases h
  | ok r4 =>
  cases e5 : evalList hp ctx n x.m2p with
  | error e => rw [e1, e2, e3, e4, e5] at h; cases h
  | ok r5 =>
  cases e6 : evalList hp ctx n x.p2l with
  | error e => rw [e1, e2, e3, e4, e5, e6] at h; cases h
  | ok r6 =>
  cases e7 : evalList hp ctx (n - 1) fun l => x.l2l l (l + 1) with
  | error e => rw [e1, e2, e3, e4, e5, e6, e7] at h; cases h
  | ok r7 =>
  cases e8 : evalList hp ctx n x.l2p with
  | error e => rw [e1, e2, e3, e4, e5, e6, e7, e8] at h; cases h
  | ok r8 =>
  obtain ⟨c1, h1⟩ := evalList_var hn e1
  have h3 : ∃ c, ctx (.const "c_p2p") = some c := by
    unfold Xlat.direct Expr.eval at e3
    cases hc : ctx (.const "c_p2p") with
    | some c => exact ⟨c, rfl⟩
    | none => rw [hc] at e3; cases e3
  obtain ⟨c3, h3⟩ := h3
  obtain ⟨c4, h4⟩ := evalList_var hn e4
  obtain ⟨c5, h5⟩ := evalList_var hn e5
  obtain ⟨c6, h6⟩ := evalList_var hn e6
  obtain ⟨c8, h8⟩ := evalList_var hn e8
  refine ⟨⟨c1, (ctx (.const "c_m2m")).getD 0, c3, c4, c5, c6, (ctx (.const "c_l2l")).getD 0, c8⟩,
    h1, fun h => ?_, h3, h4, h5, h6, fun h => ?_, h8⟩
  · obtain ⟨c, hc⟩ := evalList_var (by omega) e2
    rw [hc]; rfl
  · obtain ⟨c, hc⟩ := evalList_var (by omega) e7
    rw [hc]; rfl

/-! ### What the kernels read -/

section
variable {inp : TravInput} {trav : Traversal}

theorem foldl_congr_mem {α β : Type} {f g : β → α → β} : ∀ (l : List α) (b : β),
    (∀ b, ∀ a ∈ l, f b a = g b a) → l.foldl f b = l.foldl g b
  | [], _, _ => rfl
  | a :: l, b, h => by
    rw [List.foldl_cons, List.foldl_cons, h b a (by simp),
      foldl_congr_mem l _ fun b c hc => h b c (by simp [hc])]

theorem list3_congr (h : buildTraversal inp = .ok trav) {f g : Nat → K} (tc : Nat → Nat)
    (hfg : ∀ l < inp.tree.nlevels, f l = g l) : list3 trav tc f = list3 trav tc g := by
  have F := travFields h
  have hl3 : trav.list3.length = inp.tree.nlevels := by rw [F.list3]; simp
  unfold list3
  refine foldl_congr_mem _ _ fun a l hl => ?_
  rw [hl3, List.mem_range] at hl
  simp only [hfg l hl]

theorem list4_congr (hw : inp.tree.WF) (h : buildTraversal inp = .ok trav) {f g : Nat → K}
    (q : Particles) (hfg : ∀ l < inp.tree.nlevels, f l = g l) :
    list4 inp.tree q trav f = list4 inp.tree q trav g := by
  have F := travFields h
  unfold list4
  refine List.map_congr_left fun i hi => ?_
  have hi := List.mem_range.1 hi
  congr 1
  refine List.map_congr_left fun s hs => ?_
  rw [F.list4, row_build _ _ (by simpa using hi), List.getD_eq_getElem _ _ (by simpa using hi)] at hs
  simp only [List.getElem_map] at hs
  have hs' := list4_lt hw (fun b hb => F.row_slnws b hb) (F.ttp_lt (List.getElem_mem hi))
    (mem_sepPart.1 hs)
  rw [hfg _ (hw.level_lt _ (show s < inp.tree.nboxes from hs'))]

theorem nChildren_pos {t : BoxTree} {b : Nat} (h : nChildren t b ≠ 0) :
    ∃ m < t.nch, t.child m b ≠ 0 := by
  unfold nChildren at h
  obtain ⟨m, hm⟩ := List.exists_mem_of_length_pos (Nat.pos_of_ne_zero h)
  rw [List.mem_filter, List.mem_range] at hm
  exact ⟨m, hm.1, by simpa using hm.2⟩

theorem perStage_congr (hw : inp.tree.WF) (h : buildTraversal inp = .ok trav) (q : Particles)
    (tc : Nat → Nat) {f g : Factors K} (hfg : AgreeOn inp.tree.nlevels f g) :
    perStage inp.tree q trav tc f = perStage inp.tree q trav tc g := by
  have F := travFields h
  have hs : ∀ b ∈ trav.sourceBoxes, b < inp.tree.nboxes := by
    rw [F.sourceBoxes]; exact (boxListOK_of _ _).lt
  have hsp : ∀ b ∈ trav.sourceParentBoxes, b < inp.tree.nboxes := by
    rw [F.sourceParentBoxes]; exact (boxListOK_of _ _).lt
  have e1 : formMultipoles inp.tree q trav f.p2m = formMultipoles inp.tree q trav g.p2m := by
    unfold formMultipoles
    refine List.map_congr_left fun b hb => ?_
    rw [hfg.p2m _ (hw.level_lt b (hs b hb))]
  have e2 : coarsenMultipoles inp.tree trav f.m2m = coarsenMultipoles inp.tree trav g.m2m := by
    unfold coarsenMultipoles
    congr 1
    refine List.map_congr_left fun b hb => ?_
    by_cases hn : nChildren inp.tree b = 0
    · simp [hn]
    · obtain ⟨m, hm, hc⟩ := nChildren_pos hn
      have h1 := hw.level_child hm (hsp b hb) hc
      have h2 := hw.level_lt _ (hw.child_lt m hm b (hsp b hb))
      rw [hfg.m2m _ (by omega)]
  have e3 : list2 inp.tree trav f.m2l = list2 inp.tree trav g.m2l := by
    unfold list2
    refine List.map_congr_left fun i hi => ?_
    have hi := List.mem_range.1 hi
    rw [List.getD_eq_getElem _ _ hi, hfg.m2l _ (hw.level_lt _ (F.ttp_lt (List.getElem_mem hi)))]
  have e4 : refineLocals inp.tree trav f.l2l = refineLocals inp.tree trav g.l2l := by
    unfold refineLocals
    congr 1
    refine List.map_congr_left fun i hi => ?_
    rw [List.mem_range'_1] at hi
    rw [hfg.l2l _ (by omega)]
  have e5 : evalLocals inp.tree trav tc f.l2p = evalLocals inp.tree trav tc g.l2p := by
    unfold evalLocals
    refine List.map_congr_left fun b hb => ?_
    rw [hfg.l2p _ (hw.level_lt b (F.target_lt hb))]
  unfold perStage
  rw [e1, e2, e3, e4, e5, list3_congr h tc hfg.m2p, list4_congr hw h q hfg.p2l, hfg.p2p]

theorem perBox_congr (hw : inp.tree.WF) (h : buildTraversal inp = .ok trav) (q : Particles)
    (tc : Nat → Nat) {f g : Factors K} (hfg : AgreeOn inp.tree.nlevels f g) :
    perBox inp.tree q trav tc f = perBox inp.tree q trav tc g := by
  have F := travFields h
  have hs : ∀ b ∈ trav.sourceBoxes, b < inp.tree.nboxes := by
    rw [F.sourceBoxes]; exact (boxListOK_of _ _).lt
  have e1 : formMultipoles inp.tree q trav f.p2m = formMultipoles inp.tree q trav g.p2m := by
    unfold formMultipoles
    refine List.map_congr_left fun b hb => ?_
    rw [hfg.p2m _ (hw.level_lt b (hs b hb))]
  have e3 : list2 inp.tree trav f.m2l = list2 inp.tree trav g.m2l := by
    unfold list2
    refine List.map_congr_left fun i hi => ?_
    have hi := List.mem_range.1 hi
    rw [List.getD_eq_getElem _ _ hi, hfg.m2l _ (hw.level_lt _ (F.ttp_lt (List.getElem_mem hi)))]
  have e5 : evalLocals inp.tree trav tc f.l2p = evalLocals inp.tree trav tc g.l2p := by
    unfold evalLocals
    refine List.map_congr_left fun b hb => ?_
    rw [hfg.l2p _ (hw.level_lt b (F.target_lt hb))]
  unfold perBox
  rw [e1, e3, e5, list3_congr h tc hfg.m2p, list4_congr hw h q hfg.p2l, hfg.p2p]

end

/-! ### Linearity -/

section
variable (t : BoxTree) (q : Particles) (trav : Traversal) (tc : Nat → Nat)

theorem sum_map_scale {α : Type} (l : List α) (c : K) (f g : α → K) (h : ∀ a ∈ l, f a = c * g a) :
    (l.map f).sum = c * (l.map g).sum := by
  induction l with
  | nil => simp
  | cons a l ih =>
    rw [List.map_cons, List.map_cons, List.sum_cons, List.sum_cons, h a (by simp),
      ih fun b hb => h b (by simp [hb]), mul_add]

theorem list3_scale (c : K) (m : Nat → K) (b : Nat) :
    list3 trav tc (fun l => c * m l) b = c * list3 trav tc m b := by
  unfold list3
  have inner : ∀ (boxes : List Nat) (starts : List Nat) (l : Nat) (is : List Nat) (a a' : Nat → K),
      (∀ b, a b = c * a' b) → ∀ b,
      is.foldl (fun a i =>
        let b := boxes.getD i 0
        Function.update a b (a b + ((tc b * (starts.getD (i + 1) 0 - starts.getD i 0) : Nat) : K)
          * (c * m l))) a b
      = c * is.foldl (fun a i =>
        let b := boxes.getD i 0
        Function.update a b (a b + ((tc b * (starts.getD (i + 1) 0 - starts.getD i 0) : Nat) : K)
          * m l)) a' b := by
    intro boxes starts l is
    induction is with
    | nil => intro a a' h b; exact h b
    | cons i is ih =>
      intro a a' h b
      rw [List.foldl_cons, List.foldl_cons]
      refine ih _ _ (fun b' => ?_) b
      simp only [Function.update_apply]
      split
      · rw [h, mul_add]; ring
      · exact h b'
  have outer : ∀ (ls : List Nat) (a a' : Nat → K), (∀ b, a b = c * a' b) → ∀ b,
      ls.foldl (fun a l =>
        let boxes := trav.list3Targets.getD l []
        let starts := (trav.list3.getD l ⟨[], []⟩).starts
        (List.range boxes.length).foldl (fun a i =>
          let b := boxes.getD i 0
          Function.update a b
            (a b + ((tc b * (starts.getD (i + 1) 0 - starts.getD i 0) : Nat) : K) * (c * m l))) a) a b
      = c * ls.foldl (fun a l =>
        let boxes := trav.list3Targets.getD l []
        let starts := (trav.list3.getD l ⟨[], []⟩).starts
        (List.range boxes.length).foldl (fun a i =>
          let b := boxes.getD i 0
          Function.update a b
            (a b + ((tc b * (starts.getD (i + 1) 0 - starts.getD i 0) : Nat) : K) * m l)) a) a' b := by
    intro ls
    induction ls with
    | nil => intro a a' h b; exact h b
    | cons l ls ih =>
      intro a a' h b
      rw [List.foldl_cons, List.foldl_cons]
      exact ih _ _ (inner _ _ l _ a a' h) b
  exact outer _ _ _ (fun _ => (mul_zero c).symm) b

theorem perStage_scale (c : Calib K) {f g : Factors K} (h1 : ∀ l, f.p2m l = c.p2m * g.p2m l)
    (h2 : ∀ l, f.m2m l = c.m2m * g.m2m l) (h3 : f.p2p = c.p2p * g.p2p)
    (h4 : ∀ l, f.m2l l = c.m2l * g.m2l l) (h5 : ∀ l, f.m2p l = c.m2p * g.m2p l)
    (h6 : ∀ l, f.p2l l = c.p2l * g.p2l l) (h7 : ∀ l, f.l2l l = c.l2l * g.l2l l)
    (h8 : ∀ l, f.l2p l = c.l2p * g.l2p l) :
    perStage t q trav tc f = (perStage t q trav tc g).times c := by
  have e1 : (formMultipoles t q trav f.p2m).sum = c.p2m * (formMultipoles t q trav g.p2m).sum :=
    sum_map_scale _ _ _ _ fun b _ => by rw [h1]; ring
  have e2 : coarsenMultipoles t trav f.m2m = c.m2m * coarsenMultipoles t trav g.m2m :=
    sum_map_scale _ _ _ _ fun b _ => by
      split
      · rw [mul_zero]
      · rw [h2]; ring
  have e3 : (direct trav tc (nDirect q trav) f.p2p).sum
      = c.p2p * (direct trav tc (nDirect q trav) g.p2p).sum :=
    sum_map_scale _ _ _ _ fun b _ => by rw [h3]; ring
  have e4 : (list2 t trav f.m2l).sum = c.m2l * (list2 t trav g.m2l).sum :=
    sum_map_scale _ _ _ _ fun b _ => by rw [h4]; ring
  have e5 : ((List.range t.nboxes).map (list3 trav tc f.m2p)).sum
      = c.m2p * ((List.range t.nboxes).map (list3 trav tc g.m2p)).sum :=
    sum_map_scale _ _ _ _ fun b _ => by
      rw [show f.m2p = fun l => c.m2p * g.m2p l from funext h5]; exact list3_scale trav tc _ _ b
  have e6 : (list4 t q trav f.p2l).sum = c.p2l * (list4 t q trav g.p2l).sum :=
    sum_map_scale _ _ _ _ fun i _ => sum_map_scale _ _ _ _ fun s _ => by rw [h6]; ring
  have e7 : refineLocals t trav f.l2l = c.l2l * refineLocals t trav g.l2l :=
    sum_map_scale _ _ _ _ fun i _ => by rw [h7]; ring
  have e8 : (evalLocals t trav tc f.l2p).sum = c.l2p * (evalLocals t trav tc g.l2p).sum :=
    sum_map_scale _ _ _ _ fun b _ => by rw [h8]; ring
  unfold perStage Stages.times
  rw [e1, e2, e3, e4, e5, e6, e7, e8]

end
end

/-! ### Monotonicity -/

section
variable {K : Type} [CommSemiring K] [PartialOrder K] [IsOrderedRing K]
variable (t : BoxTree) (q : Particles) (trav : Traversal) (tc : Nat → Nat)

theorem sum_map_mono {α : Type} (l : List α) (f g : α → K) (h : ∀ a ∈ l, f a ≤ g a) :
    (l.map f).sum ≤ (l.map g).sum := by
  induction l with
  | nil => simp
  | cons a l ih =>
    rw [List.map_cons, List.map_cons, List.sum_cons, List.sum_cons]
    exact add_le_add (h a (by simp)) (ih fun b hb => h b (by simp [hb]))

theorem natCast_mul_le (n : Nat) {x y : K} (h : x ≤ y) : (n : K) * x ≤ (n : K) * y :=
  mul_le_mul_of_nonneg_left h (Nat.cast_nonneg n)

theorem list3_mono {m m' : Nat → K} (h : ∀ l, m l ≤ m' l) (b : Nat) :
    list3 trav tc m b ≤ list3 trav tc m' b := by
  unfold list3
  have inner : ∀ (boxes : List Nat) (starts : List Nat) (l : Nat) (is : List Nat) (a a' : Nat → K),
      (∀ b, a b ≤ a' b) → ∀ b,
      is.foldl (fun a i =>
        let b := boxes.getD i 0
        Function.update a b (a b + ((tc b * (starts.getD (i + 1) 0 - starts.getD i 0) : Nat) : K)
          * m l)) a b
      ≤ is.foldl (fun a i =>
        let b := boxes.getD i 0
        Function.update a b (a b + ((tc b * (starts.getD (i + 1) 0 - starts.getD i 0) : Nat) : K)
          * m' l)) a' b := by
    intro boxes starts l is
    induction is with
    | nil => intro a a' h b; exact h b
    | cons i is ih =>
      intro a a' h' b
      rw [List.foldl_cons, List.foldl_cons]
      refine ih _ _ (fun b' => ?_) b
      simp only [Function.update_apply]
      split
      · exact add_le_add (h' _) (natCast_mul_le _ (h l))
      · exact h' b'
  have outer : ∀ (ls : List Nat) (a a' : Nat → K), (∀ b, a b ≤ a' b) → ∀ b,
      ls.foldl (fun a l =>
        let boxes := trav.list3Targets.getD l []
        let starts := (trav.list3.getD l ⟨[], []⟩).starts
        (List.range boxes.length).foldl (fun a i =>
          let b := boxes.getD i 0
          Function.update a b
            (a b + ((tc b * (starts.getD (i + 1) 0 - starts.getD i 0) : Nat) : K) * m l)) a) a b
      ≤ ls.foldl (fun a l =>
        let boxes := trav.list3Targets.getD l []
        let starts := (trav.list3.getD l ⟨[], []⟩).starts
        (List.range boxes.length).foldl (fun a i =>
          let b := boxes.getD i 0
          Function.update a b
            (a b + ((tc b * (starts.getD (i + 1) 0 - starts.getD i 0) : Nat) : K) * m' l)) a) a' b := by
    intro ls
    induction ls with
    | nil => intro a a' h b; exact h b
    | cons l ls ih =>
      intro a a' h b
      rw [List.foldl_cons, List.foldl_cons]
      exact ih _ _ (inner _ _ l _ a a' h) b
  exact outer _ _ _ (fun _ => le_refl _) b

theorem perStage_mono {f g : Factors K} (h1 : ∀ l, f.p2m l ≤ g.p2m l)
    (h2 : ∀ l, f.m2m l ≤ g.m2m l) (h3 : f.p2p ≤ g.p2p) (h4 : ∀ l, f.m2l l ≤ g.m2l l)
    (h5 : ∀ l, f.m2p l ≤ g.m2p l) (h6 : ∀ l, f.p2l l ≤ g.p2l l) (h7 : ∀ l, f.l2l l ≤ g.l2l l)
    (h8 : ∀ l, f.l2p l ≤ g.l2p l) :
    (perStage t q trav tc f).le (perStage t q trav tc g) where
  formMultipoles := sum_map_mono _ _ _ fun b _ => natCast_mul_le _ (h1 _)
  coarsenMultipoles := sum_map_mono _ _ _ fun b _ => by
    split
    · exact le_refl _
    · exact natCast_mul_le _ (h2 _)
  evalDirect := sum_map_mono _ _ _ fun b _ => natCast_mul_le _ h3
  multipoleToLocal := sum_map_mono _ _ _ fun b _ => natCast_mul_le _ (h4 _)
  evalMultipoles := sum_map_mono _ _ _ fun b _ => list3_mono trav tc h5 b
  formLocals := sum_map_mono _ _ _ fun i _ => sum_map_mono _ _ _ fun s _ => natCast_mul_le _ (h6 _)
  refineLocals := sum_map_mono _ _ _ fun i _ => natCast_mul_le _ (h7 _)
  evalLocals := sum_map_mono _ _ _ fun b _ => natCast_mul_le _ (h8 _)

end
end Boxtree.Cost
