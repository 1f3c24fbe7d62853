import Verif.Props.TreeBuild

/-!
# Parallel segmented scans

The tree builder's scans (`/repo/boxtree/tree_build_kernels.py:1555-1581`, `:612-640`, `:1722-1744`)
are run by `pyopencl.scan.GenericScanKernel` in parallel: neighboring ranges of items are combined
pairwise with `scan_expr(a, b, across_seg_boundary)`, in an order that depends on the device, where
`across_seg_boundary` tells whether a segment starts in the range of `b`.
-/

namespace Boxtree.Build

/-- The results a parallel segmented scan may compute for the range of `len` items from `lo` on: one
constructor for a single item, one for two neighboring ranges that are combined.  A result is whether
a segment starts in the range, and the value of `scan_expr`. -/
inductive ScanResult {A : Type} (op : A → A → A) (segStart : Nat → Bool) (item : Nat → A) :
    Nat → Nat → Bool × A → Prop
  | item (i : Nat) : ScanResult op segStart item i 1 (segStart i, item i)
  | combine {lo n m : Nat} {a b : Bool × A} : ScanResult op segStart item lo n a →
      ScanResult op segStart item (lo + n) m b →
      ScanResult op segStart item lo (n + m) (a.1 || b.1, if b.1 then b.2 else op a.2 b.2)

/-- The sequential scan with restart at segment starts. -/
def seqScan {A : Type} (op : A → A → A) (segStart : Nat → Bool) (item : Nat → A) : Nat → A
  | 0 => item 0
  | i + 1 => if segStart (i + 1) then item (i + 1) else op (seqScan op segStart item i) (item (i + 1))

/-- From `lo` on. -/
def seqFrom {A : Type} (op : A → A → A) (segStart : Nat → Bool) (item : Nat → A) (lo : Nat) :
    Nat → Bool × A
  | 0 => (segStart lo, item lo)
  | i + 1 =>
    let r := seqFrom op segStart item lo i
    (r.1 || segStart (lo + i + 1),
      if segStart (lo + i + 1) then item (lo + i + 1) else op r.2 (item (lo + i + 1)))

section
variable {A : Type} {op : A → A → A} {segStart : Nat → Bool} {item : Nat → A}

theorem ScanResult.pos {lo n : Nat} {r : Bool × A} (h : ScanResult op segStart item lo n r) :
    0 < n := by
  induction h <;> omega

theorem seqFrom_append (hop : ∀ a b c, op (op a b) c = op a (op b c)) (lo n : Nat) (m : Nat) :
    seqFrom op segStart item lo (n + 1 + m) =
      ((seqFrom op segStart item lo n).1 || (seqFrom op segStart item (lo + (n + 1)) m).1,
        if (seqFrom op segStart item (lo + (n + 1)) m).1 then
          (seqFrom op segStart item (lo + (n + 1)) m).2
        else op (seqFrom op segStart item lo n).2 (seqFrom op segStart item (lo + (n + 1)) m).2) := by
  induction m with
  | zero =>
    simp only [seqFrom, Nat.add_assoc]
    rfl
  | succ m ih =>
    have e : lo + (n + 1) + m + 1 = lo + (n + 1 + m) + 1 := by omega
    show seqFrom op segStart item lo (n + 1 + m + 1) = _
    simp only [seqFrom, ih, e]
    cases segStart (lo + (n + 1 + m) + 1) <;>
      cases (seqFrom op segStart item (lo + (n + 1)) m).1 <;> simp [hop]

theorem ScanResult.eq_seqFrom (hop : ∀ a b c, op (op a b) c = op a (op b c)) {lo n : Nat}
    {r : Bool × A} (h : ScanResult op segStart item lo n r) :
    r = seqFrom op segStart item lo (n - 1) := by
  induction h with
  | item i => rfl
  | @combine lo n m a b h₁ h₂ ih₁ ih₂ =>
    obtain ⟨n, rfl⟩ : ∃ k, n = k + 1 := ⟨n - 1, by have := h₁.pos; omega⟩
    obtain ⟨m, rfl⟩ : ∃ k, m = k + 1 := ⟨m - 1, by have := h₂.pos; omega⟩
    have e : n + 1 + (m + 1) - 1 = n + 1 + m := by omega
    rw [e, seqFrom_append hop]
    simp only [Nat.add_sub_cancel] at ih₁ ih₂
    rw [← ih₁, ← ih₂]

theorem seqFrom_zero (i : Nat) : (seqFrom op segStart item 0 i).2 = seqScan op segStart item i := by
  induction i with
  | zero => rfl
  | succ i ih => simp only [seqFrom, seqScan, Nat.zero_add, ih]

end

theorem addSat_assoc (a b c : Nat) : addSat (addSat a b) c = addSat a (addSat b c) := by
  simp only [addSat]; omega

theorem Bins.add_assoc (a b c : Bins) : (a.add b).add c = a.add (b.add c) := by
  simp only [Bins.add, addSat_assoc, Nat.add_assoc]

/-- **C54**, general: with an associative operation a parallel segmented scan has only one result,
that of the sequential scan, however the device combines the ranges. -/
theorem C54_scan_any_order {A : Type} (op : A → A → A) (hop : ∀ a b c, op (op a b) c = op a (op b c))
    (segStart : Nat → Bool) (item : Nat → A) (i : Nat) (r : Bool × A)
    (h : ScanResult op segStart item 0 (i + 1) r) : r.2 = seqScan op segStart item i := by
  rw [h.eq_seqFrom hop, Nat.add_sub_cancel, seqFrom_zero]

/-- **C54**, the scan over the particles: with the saturating sums of weights, every order of
combination gives the counts that the model of the level loop uses. -/
theorem C54_morton_scan (P : Params) (s : State) (i : Nat) (r : Bool × Bins)
    (h : ScanResult Bins.add s.flag (fun j => fromParticle P (s.ids j) (s.box j).1) 0 (i + 1) r) :
    r.2 = scanItem P s i := by
  rw [C54_scan_any_order _ Bins.add_assoc _ _ _ _ h]
  clear h
  induction i with
  | zero => rfl
  | succ i ih => simp only [seqScan, scanItem, ih]

/-- `is_segment_start_expr` of the scan over the boxes,
`/repo/boxtree/tree_build_kernels.py:634`: boxes are numbered level by level, with room for `len l`
boxes on level `l`, and a segment starts where the level changes. -/
def boxSegStart (len : Nat → Nat) (nlevels i : Nat) : Bool :=
  decide (i = 0 ∨ (locate len nlevels 0 i).1 ≠ (locate len nlevels 0 (i - 1)).1)

/-- `count_new_boxes_needed` without its side effects,
`/repo/boxtree/tree_build_kernels.py:549-612`. -/
def boxItem (P : Params) (level : Nat) (s : State) (len : Nat → Nat) (nlevels i : Nat) : Nat :=
  let p := locate len nlevels 0 i
  (if i = levelStart len p.1 then levelStart len (p.1 + 1) + s.used (p.1 + 1) else 0)
    + if want P level s p.1 p.2 then P.nch else 0

/-- **C54**, the scan over the boxes: every order of combination gives box `k` on level `l` the end
of its children that the model of the level loop uses. -/
theorem C54_split_scan (P : Params) (level : Nat) (s : State) (len : Nat → Nat) (nlevels l k : Nat)
    (hl : l < nlevels) (hk : k < len l) (r : Bool × Nat)
    (h : ScanResult (· + ·) (boxSegStart len nlevels) (boxItem P level s len nlevels) 0
      (levelStart len l + k + 1) r) :
    r.2 = levelStart len (l + 1) + splitEnd P level s l k := by
  rw [C54_scan_any_order _ Nat.add_assoc _ _ _ _ h]
  clear h
  induction k with
  | zero =>
    have hi : boxItem P level s len nlevels (levelStart len l + 0) =
        levelStart len (l + 1) + splitEnd P level s l 0 := by
      simp only [boxItem, locate_id len hl hk, splitEnd, Nat.count_succ, Nat.count_zero]
      split <;> simp_all
      all_goals omega
    have hb : boxSegStart len nlevels (levelStart len l + 0) = true := by
      simp only [boxSegStart, decide_eq_true_eq, locate_id len hl hk]
      rcases Nat.eq_zero_or_pos (levelStart len l) with h0 | h0
      · exact .inl (by omega)
      · right
        obtain ⟨l', k', h1, h2, h3⟩ := exists_loc len (d := l) (b := levelStart len l + 0 - 1)
          (by omega)
        rw [h3, locate_id len (by omega) h2]
        simp only; omega
    rw [← hi]
    generalize levelStart len l + 0 = i at hb
    cases i with
    | zero => rfl
    | succ i => simp only [seqScan, hb, if_true]
  | succ k ih =>
    have ih := ih (by omega)
    have hb : boxSegStart len nlevels (levelStart len l + k + 1) = false := by
      have e : levelStart len l + k + 1 - 1 = levelStart len l + k := by omega
      have e' : levelStart len l + k + 1 = levelStart len l + (k + 1) := by omega
      simp only [boxSegStart, e, decide_eq_false_iff_not]
      rw [e', locate_id len hl hk, locate_id len hl (by omega : k < len l)]
      simp
    show seqScan _ _ _ (levelStart len l + k + 1) = _
    simp only [seqScan, hb, ih]
    have e' : levelStart len l + k + 1 = levelStart len l + (k + 1) := by omega
    simp only [boxItem, e', locate_id len hl hk, splitEnd, Nat.count_succ _ (k + 1)]
    rw [if_neg (by simp), if_neg (by omega)]
    by_cases hw : want P level s l (k + 1) = true
    · simp only [hw, if_true]; rw [Nat.mul_add]; omega
    · simp only [hw]; simp

/-- Two bracketings of four items in two segments. -/
example : ScanResult Nat.add (fun i => i == 2) (fun i => 10 ^ i) 0 4 (true, 1100) ∧
    seqScan Nat.add (fun i => i == 2) (fun i => 10 ^ i) 3 = 1100 := by
  refine ⟨?_, rfl⟩
  exact .combine (n := 1) (m := 3) (a := (false, 1)) (b := (true, 1100)) (.item 0)
    (.combine (n := 1) (m := 2) (a := (false, 10)) (b := (true, 1100)) (.item 1)
      (.combine (n := 1) (m := 1) (a := (true, 100)) (b := (false, 1000)) (.item 2) (.item 3)))

example : ScanResult Nat.add (fun i => i == 2) (fun i => 10 ^ i) 0 4 (true, 1100) :=
  .combine (n := 3) (m := 1) (a := (true, 100)) (b := (false, 1000))
    (.combine (n := 2) (m := 1) (a := (false, 11)) (b := (true, 100))
      (.combine (n := 1) (m := 1) (a := (false, 1)) (b := (false, 10)) (.item 0) (.item 1))
      (.item 2)) (.item 3)

end Boxtree.Build
