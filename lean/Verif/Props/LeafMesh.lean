import Verif.Spec.LeafMesh
import Verif.Props.TreeOfBoxes
import Mathlib.Tactic.IntervalCases

/-!
# C94: the mesh of the leaves of a tree of boxes
-/

namespace Boxtree
open Tob

theorem length_npRepeat {α : Type} (a : List α) (k : Nat) : (npRepeat a k).length = a.length * k := by
  unfold npRepeat
  simp [List.length_flatMap]

theorem length_npTile {α : Type} (a : List α) (k : Nat) : (npTile a k).length = k * a.length := by
  unfold npTile
  simp

theorem npRepeat_get {α : Type} (a : List α) (n e k : Nat) (hk : k < n) :
    (npRepeat a n)[e * n + k]? = a[e]? := by
  induction a generalizing e with
  | nil => simp [npRepeat]
  | cons c a ih =>
    have hu : npRepeat (c :: a) n = List.replicate n c ++ npRepeat a n := by
      unfold npRepeat; rw [List.flatMap_cons]
    rw [hu]
    cases e with
    | zero => rw [List.getElem?_append_left (by simp; omega)]; simp [hk]
    | succ e =>
      rw [List.getElem?_append_right (by rw [List.length_replicate, Nat.succ_mul]; omega),
        List.length_replicate, show (e + 1) * n + k - n = e * n + k by rw [Nat.succ_mul]; omega, ih]
      rfl

theorem npTile_get {α : Type} (a : List α) (m e k : Nat) (he : e < m) (hk : k < a.length) :
    (npTile a m)[e * a.length + k]? = a[k]? := by
  induction m generalizing e with
  | zero => omega
  | succ m ih =>
    have hu : npTile a (m + 1) = a ++ npTile a m := by
      unfold npTile; rw [List.replicate_succ, List.flatten_cons]
    rw [hu]
    cases e with
    | zero => rw [List.getElem?_append_left (by omega), Nat.zero_mul, Nat.zero_add]
    | succ e =>
      rw [List.getElem?_append_right (by rw [Nat.succ_mul]; omega),
        show (e + 1) * a.length + k - a.length = e * a.length + k by rw [Nat.succ_mul]; omega,
        ih e (by omega)]

/-- Vertex `k` of element `e` is a corner of the box of the element. -/
theorem Tob.leafMesh_corner (t : Tob) (nodes : List (Nat → ℚ)) (hl : nodes.length = 2 ^ t.dims)
    (e k : Nat) :
    (t.leafMesh nodes).corner e k =
      (t.leafBoxes[e]?).bind fun b => (nodes[k]?).map fun s => fun i =>
        t.center b i + t.leafRadius b * s i := by
  unfold LeafMesh.corner leafMesh
  simp only [bind]
  by_cases he : e < t.leafBoxes.length
  · by_cases hk : k < 2 ^ t.dims
    · have h1 := npRepeat_get (t.leafBoxes.map t.center) (2 ^ t.dims) e k hk
      have h2 := npRepeat_get (t.leafBoxes.map t.leafRadius) (2 ^ t.dims) e k hk
      have h3 := npTile_get nodes t.leafBoxes.length e k he (by omega)
      rw [hl] at h3
      simp [he, hk, List.getElem?_zipWith, h1, h2, h3,
        List.getElem?_eq_getElem (show k < nodes.length by omega)]
    · simp [he, hk, List.getElem?_eq_none (show nodes.length ≤ k by omega)]
  · simp [he]

/-- **C94.** After any history of refinements and coarsenings, the mesh of the leaves has one element for
each leaf, in the order of the returned vector of box numbers; its vertices are not shared between elements,
and those of an element are the `2^d` corners of its box, each once, with the half width
`root_extent / 2^(level + 1)`.  The elements tile the given bounding box: each of its points lies in exactly
one of them, other points in none. -/
theorem C94_leaf_mesh (dims bits : Nat) (lo hi : Nat → ℚ) (hd : 0 < dims)
    (hpos : lo 0 < hi 0) (hsq : ∀ i, i < dims → hi i - lo i = hi 0 - lo 0) (hbits : 2 < bits)
    (reqs : List Request) (hs : ∀ r ∈ reqs, IsArgsort r.argsort)
    (hsh : (root dims bits true lo hi).Shallow reqs) (u : Tob)
    (h : (root dims bits true lo hi).history reqs = .ok u)
    (nodes : List (Nat → ℚ)) (hnodes : IsTensorNodes dims nodes) :
    let M := u.leafMesh nodes
    M.elementBoxes = u.leafBoxes ∧ M.vertexIndices.length = u.leafBoxes.length ∧
    M.vertexIndices.flatten = List.range M.vertices.length ∧
    (∀ e b : Nat, M.elementBoxes[e]? = some b → ∀ s : Nat → Bool, ∃! k, ∃ v, M.corner e k = some v ∧
      ∀ i, i < dims → v i = u.center b i + (if s i then 1 else -1) * ((hi 0 - lo 0) / 2 ^ (u.level b + 1))) ∧
    ∀ x : Nat → ℚ, ((∃ e, M.InElement dims e x) ↔ ∀ i, i < dims → lo i ≤ x i ∧ x i < hi i) ∧
      ∀ e e', M.InElement dims e x → M.InElement dims e' x → e = e' := by
  have hI := (root_inv hd hpos hbits).history hs hsh h
  have hdims : u.dims = dims := hI.dims
  have hext : u.rootExtent = hi 0 - lo 0 := hI.ext
  have hlen : nodes.length = 2 ^ u.dims := by rw [hdims]; exact hnodes.length
  have hcorner := u.leafMesh_corner nodes hlen
  have hrad : ∀ b, b < u.nboxes → u.leafRadius b = (hi 0 - lo 0) / 2 ^ (u.level b + 1) ∧
      0 < u.leafRadius b := by
    intro b hb
    have e : u.leafRadius b = (hi 0 - lo 0) / 2 ^ (u.level b + 1) := by
      unfold leafRadius
      rw [lvPow_eq (by have := hI.level b hb; omega), hext]
      push_cast
      rw [pow_succ]; field_simp
    refine ⟨e, ?_⟩
    rw [e]
    have : 0 < hi 0 - lo 0 := by linarith
    positivity
  have hlt : ∀ e b : Nat, u.leafBoxes[e]? = some b → b < u.nboxes := by
    intro e b hb
    exact List.mem_range.1 (List.mem_filter.1 (List.mem_of_getElem? hb)).1
  have hnode : ∀ s : Nat → Bool, ∃ (k : Nat) (v : Nat → ℚ), nodes[k]? = some v ∧
      ∀ i, i < dims → v i = if s i then 1 else -1 := by
    intro s
    obtain ⟨k, ⟨v, h1, h2⟩, _⟩ := hnodes.once s
    exact ⟨k, v, h1, h2⟩
  have hin : ∀ e x, (u.leafMesh nodes).InElement dims e x ↔
      ∃ b, u.leafBoxes[e]? = some b ∧ u.InLeafCell b x := by
    intro e x
    constructor
    · intro hx
      obtain ⟨⟨k, v, hv, _⟩, _⟩ := hx 0 hd
      rw [hcorner] at hv
      cases hb : u.leafBoxes[e]? with
      | none => rw [hb] at hv; simp at hv
      | some b =>
        refine ⟨b, rfl, ?_⟩
        intro i hi'
        rw [hdims] at hi'
        obtain ⟨⟨k1, v1, hv1, hx1⟩, ⟨k2, v2, hv2, hx2⟩⟩ := hx i hi'
        rw [hcorner, hb] at hv1 hv2
        simp only [Option.bind_some, Option.map_eq_some_iff] at hv1 hv2
        obtain ⟨s1, hs1, rfl⟩ := hv1
        obtain ⟨s2, hs2, rfl⟩ := hv2
        have hp := (hrad b (hlt e b hb)).2
        constructor
        · rcases hnodes.signs s1 (List.mem_of_getElem? hs1) i hi' with h' | h' <;>
            · simp only [h'] at hx1; linarith
        · rcases hnodes.signs s2 (List.mem_of_getElem? hs2) i hi' with h' | h' <;>
            · simp only [h'] at hx2; linarith
    · rintro ⟨b, hb, hx⟩ i hi'
      obtain ⟨h1, h2⟩ := hx i (by rw [hdims]; exact hi')
      obtain ⟨k, v, hk, hv⟩ := hnode fun _ => false
      obtain ⟨k', v', hk', hv'⟩ := hnode fun _ => true
      refine ⟨⟨k, _, by rw [hcorner, hb, hk]; rfl, ?_⟩, ⟨k', _, by rw [hcorner, hb, hk']; rfl, ?_⟩⟩
      · simp only [hv i hi', Bool.false_eq_true, if_false]; linarith
      · simp only [hv' i hi', if_true]; linarith
  refine ⟨rfl, by simp [leafMesh], ?_, ?_, ?_⟩
  · have hvl : (u.leafMesh nodes).vertices.length = u.leafBoxes.length * 2 ^ u.dims := by
      simp [leafMesh, length_npRepeat, length_npTile, hlen]
    rw [hvl]
    change ((List.range u.leafBoxes.length).map fun e =>
      (List.range (2 ^ u.dims)).map fun k => e * 2 ^ u.dims + k).flatten = _
    generalize u.leafBoxes.length = n
    induction n with
    | zero => simp
    | succ n ih =>
      rw [List.range_succ, List.map_append, List.flatten_append, ih, Nat.succ_mul, List.range_add]
      simp
  · intro e b hb s
    change u.leafBoxes[e]? = some b at hb
    obtain ⟨k, ⟨v, h1, h2⟩, huniq⟩ := hnodes.once s
    obtain ⟨hr, hp⟩ := hrad b (hlt e b hb)
    refine ⟨k, ⟨_, by rw [hcorner, hb, h1]; rfl, ?_⟩, ?_⟩
    · intro i hi'
      simp only [h2 i hi', ← hr]; ring
    · rintro k' ⟨v', hv', h'⟩
      apply huniq
      rw [hcorner, hb] at hv'
      simp only [Option.bind_some, Option.map_eq_some_iff] at hv'
      obtain ⟨s', hs', rfl⟩ := hv'
      refine ⟨s', hs', ?_⟩
      intro i hi'
      have := h' i hi'
      rw [← hr, add_right_inj, mul_comm] at this
      exact mul_right_cancel₀ hp.ne' this
  · intro x
    have h15 := C15_leaves_tile_root dims bits lo hi hd hpos hsq hbits reqs hs hsh u h x
    constructor
    · rw [← h15.1]
      constructor
      · rintro ⟨e, he⟩
        obtain ⟨b, hb, hx⟩ := (hin e x).1 he
        exact ⟨b, List.mem_of_getElem? hb, hx⟩
      · rintro ⟨b, hb, hx⟩
        obtain ⟨e, he⟩ := List.getElem?_of_mem hb
        exact ⟨e, (hin e x).2 ⟨b, he, hx⟩⟩
    · intro e e' he he'
      obtain ⟨b, hb, hx⟩ := (hin e x).1 he
      obtain ⟨b', hb', hx'⟩ := (hin e' x).1 he'
      have hbb := h15.2 b (List.mem_of_getElem? hb) b' (List.mem_of_getElem? hb') hx hx'
      subst hbb
      have hnd : u.leafBoxes.Nodup := List.Nodup.filter _ List.nodup_range
      obtain ⟨l1, e1⟩ := List.getElem?_eq_some_iff.1 hb
      obtain ⟨l2, e2⟩ := List.getElem?_eq_some_iff.1 hb'
      exact (hnd.getElem_inj_iff).1 (e1.trans e2.symm)

/-- The hypotheses are met by the history of C14 (see there) and nodes in two dimensions. -/
example : IsTensorNodes 2 [fun _ => -1, fun i => if i = 0 then 1 else -1,
    fun i => if i = 0 then -1 else 1, fun _ => 1] := by
  refine ⟨rfl, ?_, ?_⟩
  · intro v hv i hi
    simp only [List.mem_cons, List.not_mem_nil, or_false] at hv
    rcases hv with rfl | rfl | rfl | rfl <;> interval_cases i <;> simp
  · intro s
    refine ⟨(if s 0 then 1 else 0) + 2 * (if s 1 then 1 else 0), ?_, ?_⟩
    · cases h0 : s 0 <;> cases h1 : s 1 <;> refine ⟨_, rfl, ?_⟩ <;> intro i hi <;>
        interval_cases i <;> simp [h0, h1]
    · rintro k ⟨v, hv, h⟩
      have hk : k < 4 := by
        have := (List.getElem?_eq_some_iff.1 hv).1
        simpa using this
      have e0 := h 0 (by omega)
      have e1 := h 1 (by omega)
      interval_cases k <;> simp at hv <;> subst hv <;> cases h0 : s 0 <;> cases h1 : s 1 <;>
        simp [h0, h1] at e0 e1 ⊢ <;>
        first | (norm_num at e0; done) | norm_num at e1

end Boxtree
