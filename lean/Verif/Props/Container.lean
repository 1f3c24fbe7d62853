import Verif.Lemmas.Container

/-!
# C82: results can be moved between host and device without loss
-/

namespace Boxtree.Container

variable {α : Type}

/-- The registered containers list no field twice. -/
theorem separate_classes : Separate classes := by
  have h : ∀ d ∈ builtListDesc :: dataclasses.map (fun x =>
      match dataclassArrayContainer x.2 with | .ok d => d | .error _ => ⟨[], []⟩),
      ∀ n ∈ d.arrays, n ∉ d.others := by decide +kernel
  intro c n hn ho
  unfold classes at hn ho
  split at hn
  · rename_i hc
    rw [if_pos hc] at ho
    exact h _ (by simp) n hn ho
  · rename_i hc
    rw [if_neg hc] at ho
    have hmem : ∀ (l : List (String × List Field)) fs, attr c l = some fs → ∃ m, (m, fs) ∈ l := by
      intro l
      induction l with
      | nil => intro fs hfs; cases hfs
      | cons x l ih =>
        intro fs hfs
        simp only [attr] at hfs
        split at hfs
        · cases hfs
          exact ⟨x.1, by simp⟩
        · obtain ⟨m, hm⟩ := ih fs hfs
          exact ⟨m, List.mem_cons_of_mem _ hm⟩
    cases ha : attr c dataclasses with
    | none => rw [ha] at hn; simp at hn
    | some fs =>
      rw [ha] at hn ho
      obtain ⟨m, hm⟩ := hmem _ fs ha
      exact h _ (List.mem_cons_of_mem _ (List.mem_map.2 ⟨(m, fs), hm, rfl⟩)) n hn ho

/-- Every field of the results that can hold an array, with the exception of `bounding_box` (a pair of
host arrays), is transferred; every other field is copied; and nothing is forgotten. -/
theorem C82_fields : ∀ x ∈ dataclasses, ∀ f ∈ x.2,
    (holdsArrays f.ty = true → f.name ∈ (classes x.1).arrays) ∧
    (holdsArrays f.ty = false → f.name ∈ (classes x.1).others) := by
  decide +kernel

/-- **C82**, names: for each class of results exactly the attributes documented as arrays or containers are
transferred, and exactly the others are copied. -/
theorem C82_attributes : ∀ d ∈ documentedAttributes,
    (classes d.1).arrays.Perm d.2.1 ∧ (classes d.1).others.Perm d.2.2 := by
  decide +kernel

/-- The table has every class that is registered. -/
theorem C82_all_classes : ∀ c : String, c = "BuiltList" ∨ c ∈ dataclasses.map (·.1) ↔
    c ∈ documentedAttributes.map (·.1) := by
  intro c
  simp only [dataclasses, documentedAttributes, List.map_cons, List.map_nil, List.mem_cons, List.not_mem_nil,
    or_false]
  tauto

theorem wrapper_error {a : Allowed} {g : Leaf α → Leaf α} {d : Option ℚ} (x : Leaf α) (e : String)
    (h : wrapper a g d x = .error e) : e = "TypeError" := by
  cases x <;> cases a <;> cases d <;> simp [wrapper] at h <;> exact h.symm

/-- A mapping that accepts the leaves `P` and turns them into `g`. -/
theorem recMapContainer_ok {a : Allowed} {func g : Leaf α → Leaf α} {P : Leaf α → Prop}
    (hw : ∀ x, P x → wrapper a func none x = .ok (g x)) (v : Val α) (hp : v.Proper classes)
    (hl : v.Leaves classes P) :
    ∃ w, recMapContainer classes func v a = .ok w ∧ SameUpTo classes g v w ∧ w.Proper classes ∧
      (∀ p x, v.get p = some (.leaf x) → w.transferred classes p = v.transferred classes p) ∧
      ∀ p y, w.transferred classes p = true → w.get p = some (.leaf y) → ∃ x, P x ∧ y = g x := by
  rcases recMap_total (cls := classes) (f := wrapper a func none) wrapper_error v hp with
    ⟨w, h⟩ | ⟨_, p, x, h1, h2, h3⟩
  · refine ⟨w, h, fun p x hg => ?_, recMap_proper separate_classes h, fun p x hg => ?_,
      fun p y ht hg => ?_⟩
    · obtain ⟨l1, l2⟩ := recMap_leaves separate_classes p hp h hg
      split
      · rename_i ht
        obtain ⟨y, hy, hgy⟩ := l1 ht
        rw [hw x (hl p x ht hg)] at hy
        cases hy
        exact hgy
      · rename_i ht
        exact l2 (by simpa using ht)
    · cases ht : v.transferred classes p with
      | true =>
        obtain ⟨_, _, e, _⟩ := recMap_get separate_classes p h ht hg
        exact e
      | false =>
        have hwg := (recMap_leaves separate_classes p hp h hg).2 ht
        cases hwt : w.transferred classes p with
        | false => rfl
        | true =>
          obtain ⟨_, _, e, _⟩ := recMap_get_back separate_classes p h hwt hwg
          rw [ht] at e
          cases e
    · obtain ⟨u, hu, hut, hug⟩ := recMap_get_back separate_classes p h ht hg
      cases u with
      | obj vs => obtain ⟨_, e, _⟩ := recMap_obj hu; cases e
      | inst c as => obtain ⟨_, e, _⟩ := recMap_inst hu; cases e
      | leaf x =>
        obtain ⟨y', hy, e⟩ := recMap_leaf hu
        cases e
        have hx := hl p x hut hug
        rw [hw x hx] at hy
        cases hy
        exact ⟨x, hx, rfl⟩
  · rw [hw x (hl p x h1 h2)] at h3
    cases h3

theorem recMapContainer_error {a : Allowed} {func : Leaf α → Leaf α} {P : Leaf α → Prop}
    (hw : ∀ x, ¬ P x → wrapper a func none x = .error "TypeError") (v : Val α) (hp : v.Proper classes)
    (hl : ¬ v.Leaves classes P) : recMapContainer classes func v a = .error "TypeError" := by
  unfold Val.Leaves at hl
  push Not at hl
  obtain ⟨p, x, ht, hg, hx⟩ := hl
  rcases recMap_total (cls := classes) (f := wrapper a func none) wrapper_error v hp with
    ⟨w, h⟩ | ⟨h, _⟩
  · obtain ⟨y, hy, _⟩ := (recMap_leaves separate_classes p hp h hg).1 ht
    rw [hw x hx] at hy
    cases hy
  · exact h

/-- **C82**, `to_numpy` of a result on the device: the same object with every array on the host; absent
arrays stay absent, all other fields are the same. -/
theorem C82_to_numpy (v : Val α) (hp : v.Proper classes) (hd : v.Leaves classes OnDevice) :
    ∃ h, toNumpy classes v = .ok h ∧ SameUpTo classes toHost v h ∧ h.Proper classes ∧
      h.Leaves classes OnHost := by
  obtain ⟨h, h1, h2, h3, _, h4⟩ := recMapContainer_ok (a := .device) (g := toHost) (P := OnDevice)
    (func := fun | .device _ _ x => .numpy x | y => y)
    (fun x hx => by cases x <;> simp_all [wrapper, toHost, OnDevice]) v hp hd
  refine ⟨h, h1, h2, h3, fun p y ht hg => ?_⟩
  obtain ⟨x, hx, rfl⟩ := h4 p y ht hg
  cases x <;> simp_all [OnHost, OnDevice, toHost]

/-- **C82**, `from_numpy` of a result on the host. -/
theorem C82_from_numpy (v : Val α) (hp : v.Proper classes) (hd : v.Leaves classes OnHost) :
    ∃ d, fromNumpy classes v = .ok d ∧ SameUpTo classes toDevice v d ∧ d.Proper classes ∧
      d.Leaves classes OnDevice := by
  obtain ⟨h, h1, h2, h3, _, h4⟩ := recMapContainer_ok (a := .numpy) (g := toDevice) (P := OnHost)
    (func := fun | .numpy x => .device true true x | y => y)
    (fun x hx => by cases x <;> simp_all [wrapper, toDevice, OnHost]) v hp hd
  refine ⟨h, h1, h2, h3, fun p y ht hg => ?_⟩
  obtain ⟨x, hx, rfl⟩ := h4 p y ht hg
  cases x <;> simp_all [OnHost, OnDevice, toDevice]

/-- **C82**, `freeze`, the last step of the builders. -/
theorem C82_freeze (v : Val α) (hp : v.Proper classes) (hd : v.Leaves classes OnDevice) :
    ∃ w, freeze classes v = .ok w ∧ SameUpTo classes unbound v w ∧ w.Proper classes ∧
      w.Leaves classes OnDevice := by
  obtain ⟨h, h1, h2, h3, _, h4⟩ := recMapContainer_ok (a := .device) (g := unbound) (P := OnDevice)
    (func := fun | .device t _ x => .device t false x | y => y)
    (fun x hx => by cases x <;> simp_all [wrapper, unbound, OnDevice]) v hp hd
  refine ⟨h, h1, h2, h3, fun p y ht hg => ?_⟩
  obtain ⟨x, hx, rfl⟩ := h4 p y ht hg
  cases x <;> simp_all [OnDevice, unbound]

/-- **C82**, to the host and back: nothing is lost. -/
theorem C82_round_trip (v : Val α) (hp : v.Proper classes) (hd : v.Leaves classes OnDevice) :
    ∃ h d, toNumpy classes v = .ok h ∧ fromNumpy classes h = .ok d ∧ SameUpTo classes retagged v d := by
  obtain ⟨h, h1, h2, h3, ht, h4⟩ := recMapContainer_ok (a := .device) (g := toHost) (P := OnDevice)
    (func := fun | .device _ _ x => .numpy x | y => y)
    (fun x hx => by cases x <;> simp_all [wrapper, toHost, OnDevice]) v hp hd
  obtain ⟨d, d1, d2, _⟩ := C82_from_numpy h h3 (by
    intro p y ht hg
    obtain ⟨x, hx, rfl⟩ := h4 p y ht hg
    cases x <;> simp_all [OnHost, OnDevice, toHost])
  refine ⟨h, d, h1, d1, fun p x hg => ?_⟩
  rw [d2 p _ (h2 p x hg), ht p x hg]
  split
  · rename_i htr
    have := hd p x htr hg
    cases x <;> simp_all [OnDevice, toDevice, toHost, retagged]
  · rfl

/-- **C82**, to the device and back: the same object at every place. -/
theorem C82_round_trip_host (v : Val α) (hp : v.Proper classes) (hd : v.Leaves classes OnHost) :
    ∃ d h, fromNumpy classes v = .ok d ∧ toNumpy classes d = .ok h ∧
      ∀ p x, v.get p = some (.leaf x) → h.get p = some (.leaf x) := by
  obtain ⟨d, h1, h2, h3, ht, h4⟩ := recMapContainer_ok (a := .numpy) (g := toDevice) (P := OnHost)
    (func := fun | .numpy x => .device true true x | y => y)
    (fun x hx => by cases x <;> simp_all [wrapper, toDevice, OnHost]) v hp hd
  obtain ⟨h, d1, d2, _⟩ := C82_to_numpy d h3 (by
    intro p y ht hg
    obtain ⟨x, hx, rfl⟩ := h4 p y ht hg
    cases x <;> simp_all [OnHost, OnDevice, toDevice])
  refine ⟨d, h, h1, d1, fun p x hg => ?_⟩
  rw [d2 p _ (h2 p x hg), ht p x hg]
  split
  · rename_i htr
    have := hd p x htr hg
    cases x <;> simp_all [OnHost, toDevice, toHost]
  · rfl

/-- **C82**, `TypeError` exactly for objects with something else in an array field, for instance an array
that is already on the other side. -/
theorem C82_type_error (v : Val α) (hp : v.Proper classes) :
    (toNumpy classes v = .error "TypeError" ↔ ¬ v.Leaves classes OnDevice) ∧
    (fromNumpy classes v = .error "TypeError" ↔ ¬ v.Leaves classes OnHost) := by
  refine ⟨⟨fun h hd => ?_, fun h => ?_⟩, ⟨fun h hd => ?_, fun h => ?_⟩⟩
  · obtain ⟨w, hw, _⟩ := C82_to_numpy v hp hd
    rw [hw] at h
    cases h
  · exact recMapContainer_error (P := OnDevice)
      (fun x hx => by cases x <;> simp_all [wrapper, OnDevice]) v hp h
  · obtain ⟨w, hw, _⟩ := C82_from_numpy v hp hd
    rw [hw] at h
    cases h
  · exact recMapContainer_error (P := OnHost)
      (fun x hx => by cases x <;> simp_all [wrapper, OnHost]) v hp h

/-! ### The results of the builders -/

/-- A value all of whose transferred places are as they should be. -/
def Good (v : Val α) : Prop := v.Proper classes ∧ v.Leaves classes OnDevice

theorem proper_leaf (x : Leaf α) : (Val.leaf x).Proper classes := by
  intro p c as _ hg
  cases p <;> simp [Val.get] at hg

theorem good_leaf {x : Leaf α} (h : OnDevice x) : Good (.leaf x) := by
  constructor
  · exact proper_leaf x
  · intro p y _ hg
    cases p with
    | nil => simp only [Val.get, Option.some.injEq, Val.leaf.injEq] at hg; rw [← hg]; exact h
    | cons s p => simp [Val.get] at hg

theorem good_obj {vs : List (Val α)} (h : ∀ v ∈ vs, Good v) : Good (.obj vs) := by
  constructor
  · intro p c as ht hg
    cases p with
    | nil => simp [Val.get] at hg
    | cons s p =>
      cases s with
      | attr n => simp [Val.get] at hg
      | index i =>
        simp only [Val.get, Option.bind_eq_some_iff] at hg
        obtain ⟨v, hv, hg⟩ := hg
        simp only [Val.transferred, hv] at ht
        exact (h v (List.mem_of_getElem? hv)).1 p c as ht hg
  · intro p x ht hg
    cases p with
    | nil => simp [Val.get] at hg
    | cons s p =>
      cases s with
      | attr n => simp [Val.get] at hg
      | index i =>
        simp only [Val.get, Option.bind_eq_some_iff] at hg
        obtain ⟨v, hv, hg⟩ := hg
        simp only [Val.transferred, hv] at ht
        exact (h v (List.mem_of_getElem? hv)).2 p x ht hg

theorem attr_isSome {β : Type} (n : String) (as : List (String × β)) :
    (attr n as).isSome = true ↔ n ∈ as.map Prod.fst := by
  induction as with
  | nil => simp [attr]
  | cons x as ih =>
    obtain ⟨m, y⟩ := x
    simp only [attr]
    split
    · rename_i h; simp [h]
    · rename_i h
      rw [ih]
      simp [Ne.symm h]

theorem attr_mem {β : Type} {n : String} {as : List (String × β)} {y : β} (h : attr n as = some y) :
    (n, y) ∈ as := by
  induction as with
  | nil => cases h
  | cons x as ih =>
    simp only [attr] at h
    split at h
    · rename_i hn; cases h; rw [← hn]; simp
    · exact List.mem_cons_of_mem _ (ih h)

theorem proper_inst {c : String} {as : List (String × Val α)}
    (hn : ∀ n, n ∈ as.map Prod.fst ↔ n ∈ (classes c).arrays ∨ n ∈ (classes c).others)
    (h : ∀ x ∈ as, x.1 ∈ (classes c).arrays → x.2.Proper classes) :
    (Val.inst c as).Proper classes := by
  intro p c' as' ht hg
  cases p with
  | nil =>
    simp only [Val.get, Option.some.injEq, Val.inst.injEq] at hg
    obtain ⟨rfl, rfl⟩ := hg
    intro n
    rw [attr_isSome]
    exact hn n
  | cons s p =>
    cases s with
    | index i => simp [Val.get] at hg
    | attr n =>
      simp only [Val.get, Option.bind_eq_some_iff] at hg
      obtain ⟨v, hv, hg⟩ := hg
      simp only [Val.transferred, hv, Bool.and_eq_true, decide_eq_true_eq] at ht
      exact h _ (attr_mem hv) ht.1 p c' as' ht.2 hg

theorem good_inst {c : String} {as : List (String × Val α)}
    (hn : ∀ n, n ∈ as.map Prod.fst ↔ n ∈ (classes c).arrays ∨ n ∈ (classes c).others)
    (h : ∀ x ∈ as, x.1 ∈ (classes c).arrays → Good x.2) : Good (.inst c as) := by
  constructor
  · exact proper_inst hn fun x hx hm => (h x hx hm).1
  · intro p x ht hg
    cases p with
    | nil => simp [Val.get] at hg
    | cons s p =>
      cases s with
      | index i => simp [Val.get] at hg
      | attr n =>
        simp only [Val.get, Option.bind_eq_some_iff] at hg
        obtain ⟨v, hv, hg⟩ := hg
        simp only [Val.transferred, hv, Bool.and_eq_true, decide_eq_true_eq] at ht
        exact (h _ (attr_mem hv) ht.1).2 p x ht.2 hg

theorem names_dev (x : String → α) (ns : List String) : (dev x ns).map Prod.fst = ns := by
  simp [dev, Function.comp_def]

theorem names_plain (ns : List String) : (plain (α := α) ns).map Prod.fst = ns := by
  simp [plain, Function.comp_def]

theorem names_devIf (b : Bool) (x : String → α) (ns : List String) :
    (devIf b x ns).map Prod.fst = ns := by
  cases b <;> simp [devIf, dev, Function.comp_def]

theorem names_devObj (n : String) (y : String → Nat → α) (k : Nat) :
    (devObj n y k).map Prod.fst = [n] := rfl

theorem good_dev {x : String → α} {ns : List String} {e : String × Val α} (h : e ∈ dev x ns) :
    Good e.2 := by
  obtain ⟨n, _, rfl⟩ := List.mem_map.1 h
  exact good_leaf trivial

theorem good_devIf {b : Bool} {x : String → α} {ns : List String} {e : String × Val α}
    (h : e ∈ devIf b x ns) : Good e.2 := by
  cases b with
  | true => exact good_dev h
  | false =>
    obtain ⟨n, _, rfl⟩ := List.mem_map.1 h
    exact good_leaf trivial

theorem good_devObj {n : String} {y : String → Nat → α} {k : Nat} {e : String × Val α}
    (h : e ∈ devObj n y k) : Good e.2 := by
  rw [List.mem_singleton.1 h]
  refine good_obj fun v hv => ?_
  obtain ⟨i, _, rfl⟩ := List.mem_map.1 hv
  exact good_leaf trivial

/-- The tree of the tree builder. -/
theorem good_tree (x : String → α) (y : String → Nat → α) (axes : Nat) (r : ℚ) (s t : Bool) :
    Good (assembleTree x y axes r s t) := by
  have hno : ∀ n ∈ ["sources_are_targets", "sources_have_extent", "targets_have_extent",
      "particle_id_dtype", "box_id_dtype", "coord_dtype", "box_level_dtype", "bounding_box",
      "stick_out_factor", "extent_norm", "_is_pruned"], n ∉ (classes "Tree").arrays := by decide +kernel
  refine good_inst (fun n => ?_) fun e he hn => ?_
  · simp only [List.map_append, names_dev, names_plain, names_devIf, names_devObj, List.map_cons,
      List.map_nil]
    rw [← List.mem_append]
    revert n
    have : ∀ l₁ l₂ : List String, (∀ n ∈ l₁, n ∈ l₂) → (∀ n ∈ l₂, n ∈ l₁) → ∀ n, n ∈ l₁ ↔ n ∈ l₂ :=
      fun _ _ h1 h2 n => ⟨h1 n, h2 n⟩
    exact this _ _ (by decide +kernel) (by decide +kernel)
  · simp only [List.mem_append] at he
    rcases he with (((((he | he) | he) | he) | he) | he) | he
    · obtain ⟨n, hm, rfl⟩ := List.mem_map.1 he
      exact absurd hn (hno n hm)
    · rw [List.mem_singleton.1 he]
      exact good_leaf trivial
    · exact good_devObj he
    · exact good_devObj he
    · exact good_dev he
    · exact good_devIf he
    · exact good_devIf he

theorem good_builtList (x : String → α) : Good (assembleBuiltList x) := by
  refine good_inst (fun n => ?_) fun e he hn => ?_
  · simp only [List.map_append, names_dev, names_plain]
    rw [List.mem_append, or_comm]
    rfl
  · rcases List.mem_append.1 he with he | he
    · obtain ⟨n, hm, rfl⟩ := List.mem_map.1 he
      exact absurd hn (by
        have : ∀ n ∈ ["count", "num_nonempty_lists"], n ∉ (classes "BuiltList").arrays := by decide +kernel
        exact this n hm)
    · exact good_dev he

/-- The traversal of the traversal builder. -/
theorem good_traversal {tree : Val α} (ht : Good tree) (x : String → α) (y : String → Nat → α)
    (z : Nat → String → α) (nlevels : Nat) (ext : Bool) :
    Good (assembleTraversal tree x y z nlevels ext) := by
  have hno : "well_sep_is_n_away" ∉ (classes "FMMTraversalInfo").arrays := by decide +kernel
  refine good_inst (fun n => ?_) fun e he hn => ?_
  · simp only [List.map_append, names_dev, names_plain, names_devIf, names_devObj, List.map_cons,
      List.map_nil]
    rw [← List.mem_append]
    revert n
    have : ∀ l₁ l₂ : List String, (∀ n ∈ l₁, n ∈ l₂) → (∀ n ∈ l₂, n ∈ l₁) → ∀ n, n ∈ l₁ ↔ n ∈ l₂ :=
      fun _ _ h1 h2 n => ⟨h1 n, h2 n⟩
    exact this _ _ (by decide +kernel) (by decide +kernel)
  · simp only [List.mem_append] at he
    rcases he with ((((he | he) | he) | he) | he) | he
    · rw [List.mem_singleton.1 he]
      exact ht
    · obtain ⟨n, hm, rfl⟩ := List.mem_map.1 he
      rw [List.mem_singleton.1 hm] at hn
      exact absurd hn hno
    · exact good_dev he
    · rw [List.mem_singleton.1 he]
      refine good_obj fun v hv => ?_
      obtain ⟨i, _, rfl⟩ := List.mem_map.1 hv
      exact good_builtList _
    · exact good_devObj he
    · exact good_devIf he

/-- **C82** for what the builders return: the tree and the traversal can be frozen, moved to the host, and
moved back, for all contents and all shapes. -/
theorem C82_builders (x x' : String → α) (y y' : String → Nat → α) (z : Nat → String → α)
    (axes nlevels : Nat) (r : ℚ) (s t ext : Bool) :
    ∃ w h d, freeze classes (assembleTraversal (assembleTree x y axes r s t) x' y' z nlevels ext) = .ok w ∧
      toNumpy classes w = .ok h ∧ fromNumpy classes h = .ok d ∧
      SameUpTo classes toHost w h ∧ SameUpTo classes retagged w d := by
  obtain ⟨g1, g2⟩ := good_traversal (good_tree x y axes r s t) x' y' z nlevels ext
  obtain ⟨w, w1, _, w3, w4⟩ := C82_freeze _ g1 g2
  obtain ⟨h, h1, h2, _⟩ := C82_to_numpy w w3 w4
  obtain ⟨h', d, d1, d2, d3⟩ := C82_round_trip w w3 w4
  rw [h1] at d1
  cases d1
  exact ⟨w, h, d, w1, h1, d2, h2, d3⟩

/-! ### The local tree -/

/-- The attributes of the global tree that are copied, in order. -/
def copiedNames : List String :=
  ["sources_are_targets", "sources_have_extent", "targets_have_extent", "particle_id_dtype",
    "box_id_dtype", "coord_dtype", "box_level_dtype", "root_extent", "stick_out_factor", "extent_norm",
    "bounding_box", "level_start_box_nrs", "box_parent_ids", "box_child_ids", "box_centers", "box_levels",
    "box_source_bounding_box_min", "box_source_bounding_box_max", "box_target_bounding_box_min",
    "box_target_bounding_box_max", "_is_pruned"]

theorem mapM_names {β : Type} (g : String → Except String β) (l : List String) (r : List (String × β))
    (h : (l.mapM fun n => do return (n, ← g n)) = .ok r) :
    r.map Prod.fst = l ∧ ∀ e ∈ r, e.1 ∈ l ∧ g e.1 = .ok e.2 := by
  induction l generalizing r with
  | nil => cases h; simp
  | cons m l ih =>
    obtain ⟨y, r', h1, h2, rfl⟩ := (mapM_cons_ok _ _ _ _).1 h
    obtain ⟨i1, i2⟩ := ih r' h2
    cases hg : g m with
    | error e => rw [hg] at h1; cases h1
    | ok z =>
      rw [hg] at h1
      cases h1
      refine ⟨by simp [i1], fun e he => ?_⟩
      rcases List.mem_cons.1 he with rfl | he
      · exact ⟨by simp, hg⟩
      · exact ⟨List.mem_cons_of_mem _ (i2 e he).1, (i2 e he).2⟩

theorem getattr_some {β : Type} {n : String} {as : List (String × β)} (h : (attr n as).isSome = true) :
    ∃ v, attr n as = some v ∧ getattr n as = .ok v := by
  cases ha : attr n as with
  | none => rw [ha] at h; cases h
  | some v => exact ⟨v, rfl, by simp [getattr, ha]⟩

/-- **C82** for the distributed setup: the local tree of a rank can be frozen, provided that the list of
responsible boxes is on the device (the documentation asks for a `numpy` array) and the sources are
points.

Partial: for sources with extent see `C82_local_tree_source_extent`. -/
theorem C82_local_tree_partial (tree : List (String × Val α)) (hg : Good (.inst "Tree" tree))
    (targetExt : Bool) (r : Leaf α) (x : String → α) (y : String → Nat → α) (axes : Nat) :
    (OnDevice r → ∃ w, generateLocalTree tree false targetExt r x y axes = .ok w ∧ Good w ∧
      (∀ n ∈ ["bounding_box", "extent_norm", "stick_out_factor", "_is_pruned"], ∀ p z,
        (Val.inst "Tree" tree).get (.attr n :: p) = some (.leaf z) →
          w.get (.attr n :: p) = some (.leaf z)) ∧
      w.get [.attr "user_source_ids"] = some (.leaf .none)) ∧
    (¬ OnDevice r → generateLocalTree tree false targetExt r x y axes = .error "TypeError") := by
  have hself := hg.1 [] "Tree" tree (by simp [Val.transferred]) (by simp [Val.get])
  have hno : ∀ n ∈ copiedNames, n ∈ (classes "Tree").arrays ∨ n ∈ (classes "Tree").others := by
    decide +kernel
  have hsub : ∀ n ∈ copiedNames, n ∈ (classes "LocalTree").arrays → n ∈ (classes "Tree").arrays := by
    decide +kernel
  have htr : ∃ v, getattr "target_radii" tree = .ok v := by
    obtain ⟨v, _, h⟩ := getattr_some ((hself "target_radii").2 (by decide +kernel))
    exact ⟨v, h⟩
  obtain ⟨copied, hc⟩ : ∃ copied, (copiedNames.mapM fun n => do return (n, ← getattr n tree)) =
      .ok copied := by
    rcases mapM_error (E := "") (l := copiedNames) (g := fun n => do return (n, ← getattr n tree))
      (fun n hn => by
        obtain ⟨v, _, h⟩ := getattr_some ((hself n).2 (hno n hn))
        exact Or.inl ⟨(n, v), by rw [h]; rfl⟩) with h | ⟨_, n, hn, h⟩
    · exact h
    · obtain ⟨v, _, h'⟩ := getattr_some ((hself n).2 (hno n hn))
      rw [h'] at h
      cases h
  obtain ⟨c1, c2⟩ := mapM_names _ _ _ hc
  have cgood : ∀ e ∈ copied, e.1 ∈ (classes "LocalTree").arrays → Good e.2 := by
    intro e he hn
    obtain ⟨m, hm⟩ := c2 e he
    have ha := hsub _ m hn
    obtain ⟨v, hv, h'⟩ := getattr_some ((hself e.1).2 (hno _ m))
    rw [hm] at h'
    cases h'
    exact ⟨hg.1.attr ha hv, fun p z ht hz => hg.2 (.attr e.1 :: p) z
      (by simp [Val.transferred, ha, hv, ht]) (by simp [Val.get, hv, hz])⟩
  set as := copied ++ devObj "sources" y axes ++ devObj "targets" y axes ++
    devIf false x ["source_radii"] ++ devIf targetExt x ["target_radii"] ++
    dev x ["box_source_starts", "box_source_counts_nonchild", "box_source_counts_cumul",
      "box_target_starts", "box_target_counts_nonchild", "box_target_counts_cumul", "box_flags",
      "responsible_boxes_mask", "ancestor_mask", "box_to_user_rank_starts", "box_to_user_rank_lists"] ++
    [("user_source_ids", .leaf .none), ("sorted_target_ids", .leaf .none),
     ("responsible_boxes_list", .leaf r)] with has
  have hrun : generateLocalTree tree false targetExt r x y axes =
      freeze classes (.inst "LocalTree" as) := by
    unfold generateLocalTree
    unfold copiedNames at hc
    obtain ⟨v, hv⟩ := htr
    simp only [hc, hv, has]
    cases targetExt <;> rfl
  rw [hrun]
  have hnames : ∀ n, n ∈ as.map Prod.fst ↔
      n ∈ (classes "LocalTree").arrays ∨ n ∈ (classes "LocalTree").others := by
    intro n
    rw [has]
    simp only [List.map_append, c1, names_dev, names_devIf, names_devObj, List.map_cons, List.map_nil]
    rw [← List.mem_append]
    revert n
    have : ∀ l₁ l₂ : List String, (∀ n ∈ l₁, n ∈ l₂) → (∀ n ∈ l₂, n ∈ l₁) → ∀ n, n ∈ l₁ ↔ n ∈ l₂ :=
      fun _ _ h1 h2 n => ⟨h1 n, h2 n⟩
    exact this _ _ (by decide +kernel) (by decide +kernel)
  have hparts : ∀ e ∈ as, e.1 ∈ (classes "LocalTree").arrays → e.2 ≠ .leaf r → Good e.2 := by
    intro e he hn hne
    simp only [has, List.mem_append] at he
    rcases he with (((((he | he) | he) | he) | he) | he) | he
    · exact cgood e he hn
    · exact good_devObj he
    · exact good_devObj he
    · exact good_devIf he
    · exact good_devIf he
    · exact good_dev he
    · simp only [List.mem_cons, List.not_mem_nil, or_false] at he
      rcases he with rfl | rfl | rfl
      · exact good_leaf trivial
      · exact good_leaf trivial
      · exact absurd rfl hne
  have hattr : ∀ n ∈ copiedNames, attr n as = attr n tree := by
    intro n hn
    obtain ⟨v, v1, v2⟩ := (mapM_attr _ _ _ hc).1 n hn
    have : attr n tree = some v := by
      obtain ⟨v', hv, h'⟩ := getattr_some ((hself n).2 (hno n hn))
      rw [v1] at h'
      cases h'
      exact hv
    simp only [has, attr_append, v2, this, Option.some_or]
  have hnot : ∀ n ∈ ["user_source_ids", "responsible_boxes_list"], attr n copied = none := fun n hn =>
    (mapM_attr _ _ _ hc).2 n (by
      have : ∀ n ∈ ["user_source_ids", "responsible_boxes_list"], n ∉ copiedNames := by decide +kernel
      exact this n hn)
  have huser : attr "user_source_ids" as = some (.leaf .none) := by
    simp only [has, attr_append, hnot "user_source_ids" (by simp)]
    cases targetExt <;> simp [devObj, devIf, dev, attr]
  have hresp : attr "responsible_boxes_list" as = some (.leaf r) := by
    simp only [has, attr_append, hnot "responsible_boxes_list" (by simp)]
    cases targetExt <;> simp [devObj, devIf, dev, attr]
  constructor
  · intro hr
    have hgood : Good (Val.inst "LocalTree" as) := good_inst hnames fun e he hn => by
      by_cases e0 : e.2 = .leaf r
      · rw [e0]; exact good_leaf hr
      · exact hparts e he hn e0
    obtain ⟨w, w1, w2, w3, w4⟩ := C82_freeze _ hgood.1 hgood.2
    refine ⟨w, w1, ⟨w3, w4⟩, fun n hn p z hz => ?_, ?_⟩
    · have hcn : ∀ n ∈ ["bounding_box", "extent_norm", "stick_out_factor", "_is_pruned"],
          n ∈ copiedNames ∧ n ∉ (classes "LocalTree").arrays := by decide +kernel
      have := w2 (.attr n :: p) z (by
        simp only [Val.get] at hz ⊢
        rw [hattr n (hcn n hn).1]
        exact hz)
      simpa [Val.transferred, (hcn n hn).2] using this
    · have := w2 [.attr "user_source_ids"] .none (by simp [Val.get, huser])
      rw [this]
      split <;> rfl
  · intro hr
    refine recMapContainer_error (P := OnDevice)
      (fun x hx => by cases x <;> simp_all [wrapper, OnDevice]) _ (proper_inst hnames fun e he hn => ?_)
      fun hl => hr (hl [.attr "responsible_boxes_list"] r ?_ (by simp [Val.get, hresp]))
    · by_cases e0 : e.2 = .leaf r
      · rw [e0]; exact proper_leaf r
      · exact (hparts e he hn e0).1
    · have : "responsible_boxes_list" ∈ (classes "LocalTree").arrays := by decide +kernel
      simp [Val.transferred, hresp, this]

/-- Line 357 of `local_tree.py` asks for an attribute that no tree has: `generate_local_tree` fails for
every tree whose sources have extent. -/
theorem C82_local_tree_source_extent (tree : List (String × Val α))
    (hg : (Val.inst "Tree" tree).Proper classes) (targetExt : Bool) (r : Leaf α) (x : String → α)
    (y : String → Nat → α) (axes : Nat) :
    generateLocalTree tree true targetExt r x y axes = .error "AttributeError" := by
  have hself := hg [] "Tree" tree (by simp [Val.transferred]) (by simp [Val.get])
  have : attr "sources_radii" tree = none := by
    cases h : attr "sources_radii" tree with
    | none => rfl
    | some v =>
      have := (hself "sources_radii").1 (by rw [h]; rfl)
      exact absurd this (by decide +kernel)
  unfold generateLocalTree
  simp only [getattr, this]
  rfl

namespace Ex

/-- The hypothesis of the theorems about the local tree holds for what the tree builder returns. -/
example (x : String → α) (y : String → Nat → α) (r : α) : ∃ tree w,
    assembleTree x y 2 8 false true = .inst "Tree" tree ∧
    generateLocalTree tree false true (.device true true r) x y 2 = .ok w ∧
    generateLocalTree tree false true (.numpy r) x y 2 = .error "TypeError" ∧
    generateLocalTree tree true true (.device true true r) x y 2 = .error "AttributeError" := by
  have hg := good_tree x y 2 8 false true
  unfold assembleTree at hg ⊢
  obtain ⟨w, hw, _⟩ := (C82_local_tree_partial _ hg true (.device true true r) x y 2).1 trivial
  exact ⟨_, w, rfl, hw, (C82_local_tree_partial _ hg true (.numpy r) x y 2).2 id,
    C82_local_tree_source_extent _ hg.1 true _ x y 2⟩

/-- A place deep in a traversal on the host: list 3 of level 1, its starts; absent radii; the bounding box;
and an array that is already on the host. -/
example : (match toNumpy classes (assembleTraversal (assembleTree (fun n => n) (fun n i => n ++ toString i)
      2 8 true false) (fun n => n) (fun n _ => n) (fun i n => n ++ toString i) 3 false) with
    | .ok h => [h.get [.attr "from_sep_smaller_by_level", .index 1, .attr "starts"],
        h.get [.attr "tree", .attr "sources", .index 1], h.get [.attr "tree", .attr "target_radii"],
        h.get [.attr "tree", .attr "source_radii"], h.get [.attr "tree", .attr "root_extent"],
        h.get [.attr "tree", .attr "bounding_box"]].map fun
          | some (.leaf l) => some l
          | _ => none
    | .error _ => []) =
    [some (.numpy "starts1"), some (.numpy "sources1"), some .none, some (.numpy "source_radii"),
      some (.scalar 8), some (.py "bounding_box")] := by decide +kernel

end Ex

end Boxtree.Container
