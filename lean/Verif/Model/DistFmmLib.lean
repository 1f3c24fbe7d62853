import Verif.Model.DistFmm
import Verif.Model.FmmLib

/-!
# The distributed FMM with the `pyfmmlib` wrangler

Model of `drive_fmm` (`/repo/boxtree/fmm.py:342-533`) with `DistributedFMMLibExpansionWrangler`
(`/repo/boxtree/distributed/calculation.py:419-453`) on every rank.  The reduction of the multipole
expansions is the one of `Model/Communicate.lean`, with the number of coefficients per level of the
wrangler.
-/

namespace Boxtree.FmmLib
open Boxtree Dist

variable {A W D C P : Type}

section
variable (V : World) (R : Lib A W D C P) (w : Wrangler A D) (dip : Nat → Option (Nat → D))
  (rot : Nat → Option (List ℤ × List A)) (travs : Nat → Traversal) (weights : Nat → W)

/-- The wrangler of rank `r`, `/repo/boxtree/distributed/calculation.py:422-434`.  `w` holds what is
the same on all ranks (kernel, orders per level, memory cutoff) and the coordinates of the global
tree, `dip r` and `rot r` are the arguments `dipole_vec` and `rotation_data` on rank `r`.  The
coordinates are those of the local tree,
`/repo/boxtree/distributed/local_tree.py:335-347,419-441`. -/
def rankWrangler (r : Nat) : Wrangler A D :=
  let masks := (V.localTree r).masks
  { w with
    sources := fun k => (constructLocal (fun _ => 0) V.g.nsources V.inp.tree.nboxes masks.pointSrc
      w.sources V.g.srcStart V.g.srcCount V.g.srcCumul).particles.getD k (fun _ => 0)
    targets := fun k => (constructLocal (fun _ => 0) V.g.ntargets V.inp.tree.nboxes
      masks.responsible w.targets V.g.tgtStart V.g.tgtCount V.g.tgtCumul).particles.getD k
        (fun _ => 0)
    dipoleVec := dip r
    rotation := rot r }

/-- The sources of the local tree of rank `r` with the weights received in
`distribute_source_weights`, `/repo/boxtree/distributed/calculation.py:85-107`, after
`reorder_sources` on the root, `:437-441`. -/
def rankSrc (r : Nat) : Nat → Src W D :=
  let sorted := fun i => weights (V.g.userSourceIds i)
  fun k =>
    { pos := (rankWrangler V w dip rot r).sources k
      weight := sorted ((V.localTree r).sources.particleIdx.getD k 0)
      dipole := (dip r).map fun d => d k }

variable [AddCommMonoid C] [AddCommMonoid P]

/-- The flat multipole array of rank `r` before the reduction, `/repo/boxtree/fmm.py:392-409`. -/
def rankMpoles (r : Nat) : Nat → C :=
  upward (V.localTree r).tree (V.localParticles r) R (rankWrangler V w dip rot r)
    (rankSrc V w dip rot weights r) (travs r)

/-- The flat array seen through `multipole_expansions_view`,
`/repo/boxtree/pyfmmlib_integration.py:473-481`: coefficient `i` of box `b`. -/
def viewOf (t : BoxTree) (a : Nat → C) : Nat → Nat → C := fun b i =>
  if i < w.size t (t.level b) then a (offset t w (t.level b) b + i) else 0

/-- The flat array whose views are `mp`: `_update_mpoles` writes through the views.
`/repo/boxtree/distributed/calculation.py:173-202`, `/repo/boxtree/pyfmmlib_integration.py:473-481`.
-/
def packOf (t : BoxTree) (mp : Nat → Nat → C) : Nat → C := fun p =>
  match (List.range t.nboxes).find? fun b => decide (offset t w (t.level b) b ≤ p ∧
      p < offset t w (t.level b) b + w.size t (t.level b)) with
  | some b => mp b (p - offset t w (t.level b) b)
  | none => 0

/-- What `communicate_mpoles` reads.  `/repo/boxtree/distributed/calculation.py:271-335`. -/
def distSetup : Setup :=
  { V.setup with
    layout := ⟨V.inp.tree.nlevels, V.inp.tree.levelStart, fun l => w.size V.inp.tree l⟩ }

/-- All ranks at the beginning of `communicate_mpoles`.
`/repo/boxtree/distributed/calculation.py:271-335`. -/
def distStart : NetState C :=
  start (distSetup V w)
    (fun r => viewOf w V.inp.tree (rankMpoles V R w dip rot travs weights r))
    (fun r => (V.localTree r).masks.ancestor) V.boxes

/-- Potentials of the local targets of rank `r`, `/repo/boxtree/fmm.py:415-514`. -/
def rankPotentials (mp : Nat → Nat → Nat → C) (r : Nat) : Nat → P :=
  evaluate (V.localTree r).tree (V.localParticles r) R (rankWrangler V w dip rot r)
    (rankSrc V w dip rot weights r) (travs r) (packOf w V.inp.tree (mp r))

/-- What `drive_fmm` returns on the root, given the multipole arrays of all ranks after the
reduction: `gather_potential_results` (`/repo/boxtree/distributed/calculation.py:109-145`; `junk` is
the content of `np.empty`), `reorder_potentials` (`:443-447`) and `finalize_potentials`
(`:449-453`).  With dipole vectors and without `dipoles_already_reordered` the constructor calls
`reorder_sources`, which asks for the rank before `self.comm` has been assigned (`:427-431`,
`/repo/boxtree/pyfmmlib_integration.py:379-380`): `AttributeError`. -/
def distResult (mp : Nat → Nat → Nat → C) (junk : Nat → P) : Except String (Nat → P) :=
  if V.inp.tree.dims = 2 ∨ V.inp.tree.dims = 3 then
    if (List.range V.size).any fun r => (dip r).isSome && !w.dipolesAlreadyReordered then
      .error "AttributeError: comm"
    else
      let gathered := (List.range V.size).foldl (fun out r =>
        World.assignAt out (V.localTree r).targets.particleIdx
          (rankPotentials V R w dip rot travs weights mp r)) junk
      .ok fun i => R.scale w.kernel V.inp.tree.dims (gathered (V.g.sortedTargetIds i))
  else .error "ValueError: unsupported dimensionality"

end
end Boxtree.FmmLib
