import Verif.Model.DeviceTests32
import Verif.Model.Morton32
import Verif.Model.AreaQuery
import Verif.Model.TranslationClasses

/-!
# Area queries and translation vectors with rounding and 32-bit shifts

As in `Model/AreaQuery` and `Model/TranslationClasses`, with `1 << (level + 1)` and
`1U << (1 + level)` evaluated as OpenCL does.  The conversion of the integers to `coord_t` is exact.
-/

namespace Boxtree

/-- `get_normalized_translation_vector`, `/repo/boxtree/translation_classes.py:66-84`. -/
def normVecF32 (fl : ℚ → ℚ) (t : BoxTree) (c0 : Nat → ℚ) (level src tgt axis : Nat) : ℤ :=
  rint (fl (fl (t.storedCenter32 fl c0 tgt axis - t.storedCenter32 fl c0 src axis) /
    (2 * t.radF32 fl level)))

namespace Area
variable (t : BoxTree)

/-- `is_adjacent_or_overlapping` in the peer list finder, `/repo/boxtree/area_query.py:423-425`,
`/repo/boxtree/traversal.py:307-319`. -/
def adjacentF32 (fl : ℚ → ℚ) (c0 : Nat → ℚ) : AdjTest := fun a la b lb =>
  t.adjF32 fl (t.storedCenter32 fl c0 a) la 1 (t.storedCenter32 fl c0 b) lb

/-- `level_morton_number`, `/repo/boxtree/area_query.py:258-277`. -/
def queryMortonF32 (fl : ℚ → ℚ) (bmin : Nat → ℚ) (x : Nat → ℚ) (level : Nat) : Nat :=
  (List.range t.dims).foldl (fun acc i =>
    let offsetScaled := fl (fl (x i - bmin i) / t.rootExtent)
    let bits := ⌊fl (offsetScaled * (Build.shift32 level : ℚ))⌋.toNat
    acc ||| ((bits &&& 1) <<< (t.dims - 1 - i))) 0

/-- `find_guiding_box`, `/repo/boxtree/area_query.py:172-292`. -/
def guidingBoxF32 (fl hf : ℚ → ℚ) (bmin : Nat → ℚ) (ball : Ball) : Nat :=
  let qc := clampF t fl hf bmin ball.center
  let qr := queryRadiusF t fl hf bmin ball
  if t.radF32 fl 0 / 2 ≥ qr then
    (guidingLoopBy t (t.radF32 fl) (queryMortonF32 t fl bmin qc) qr (t.nlevels + 1) 0 0).getD 0
  else 0

/-- `check_l_infty_ball_overlap`, `/repo/boxtree/traversal.py:200-214`. -/
def ballOverlapsF32 (fl : ℚ → ℚ) (c0 : Nat → ℚ) (ball : Ball) (b : Nat) : Bool :=
  let sizeSum := fl (t.radF32 fl (t.level b) + ball.radius)
  decide (t.linfF fl ball.center (t.storedCenter32 fl c0 b) ≤ sizeSum)

end Area
end Boxtree
