# Formal model of inducer/boxtree in Lean 4

Contents: 1 layout, 2 trusted base, 3 what is and is not modelled, 4 how arrays, kernels and
schedules are modelled, 5 the properties one by one, 6 defects found, 7 mutation tests.

## 1. Layout

* `lean/Verif/Model/*`: the model.  Total, computable functions that follow the code function by
  function (OpenCL kernel by OpenCL kernel).  Each definition cites the file and lines it models and
  says where it simplifies.
* `lean/Verif/Spec/*`: small specifications that do not mention the model's helpers (touching boxes,
  subtree, permutation, tight bounding box, ...).
* `lean/Verif/Lemmas/*`: helper lemmas.
* `lean/Verif/Props/*`: the property theorems `Cnn_*`, with concrete instances of their hypotheses
  beside them (`example`s and the `Ex` namespaces; trees used in several places are in
  `Verif/Examples.lean`).
* `properties.jsonl`: the properties in English.  `MANIFEST.json`: property → theorems and status.
  `seeded/LOG.jsonl`: wrong programs the theorems were tried against.

A theorem whose name ends in `_partial` proves less than the property; its docstring and section 5
say what is missing.  Where the property is false of the code, a second theorem proves the negation
for a concrete input (section 6 lists them).

## 2. Trusted base

* The kernel of Lean 4.33.0.  Theorems depend on at most the axioms `propext`, `Classical.choice`
  and `Quot.sound` (check with `#print axioms`).  No axioms of our own, no `sorry`, no
  `native_decide`/`bv_decide`.  Concrete examples use `decide` or `decide +kernel`, i.e. kernel
  evaluation of the model.
* That the model mirrors the cited code (reading, not execution: the code cannot be run here).
* The contracts of the libraries below boxtree, stated where they are used:
  * pyopencl `ElementwiseKernel`: one work item per index, in any order; loads and stores of different work
    items may be interleaved (C88);
  * pyopencl `GenericScanKernel`: inclusive scan with an associative operation;
  * pyopencl `ListOfListsBuilder`: rows of appended values, concatenated in CSR form;
  * pyopencl `ReductionKernel`: some bracketing of the operands and neutral elements;
  * `KeyValueSorter`/numpy `argsort`: some permutation that sorts the keys (not assumed stable);
  * MPI: messages between two ranks with one tag arrive in order; `Allreduce`/`gather`/`bcast`/
    `scatter` do what the standard says; any delay otherwise.

## 3. What is and is not modelled

| File of `/repo/boxtree` | Model | Not modelled |
|---|---|---|
| `traversal.py` | `Geometry`, `Walk`, `Lists`, `Traversal`, `Csr`, `MaskKernels` (all list kernels, role lists, level starts, list merger, `merge_close_lists`), `GetBoxList`, `TobTraversal`, `FlatIndex`, `TravCommands` (wait lists), `Kernels32` (32-bit shifts), `DeviceTests32` (32-bit shifts and rounding) | `to_device_array` of `FMMTraversalInfo`, profiling |
| `tree_build.py`, `tree_build_kernels.py` | `BuildArgs` (argument checks, bounding box), `Morton` (scan preamble), `Morton32`, `DeepCenters` (Morton numbers and box centers with 32-bit shifts), `TreeBuild` (level loop), `Alloc` (the same loop on flat arrays that grow and are renumbered), `WorkItems`, `LoopKernels`, `FinishKernels` (the kernels as programs of work items), `Commands` (wait lists of the extents finder), `BuildCommands` (when the particles are read), `TreeFinish` (post-processing, pruning, extents) | failing allocations, srcntgts `namespace` dtypes, wait lists of other launches (they follow each other as in an in-order queue) |
| `tree.py` | tree attributes in `Geometry`/`Fmm`, `Filter` (`ParticleListFilter`, `link_point_sources`, lookup), `Lookup` (index conversion, `get_box_extent`) | `plot`, device transfer |
| `tree_of_boxes.py` | `TreeOfBoxes`, `LeafMesh` | what `meshmode` does with the vertices |
| `area_query.py` | `AreaQuery`, `AreaCommands` (wait lists), `Kernels32` (32-bit shifts), `AreaF32` (32-bit shifts and rounding) | template generation for user-supplied code |
| `tools.py` | `Tools`, `Csr` (`AllReduceCommPattern`, `MaskCompressorKernel`, `reverse_index_array`, `GappyCopyAndMapKernel`, `MapValuesKernel`, `realloc_array`, inline binary search) | random particle generators, `AXIS_NAMES`, device dataclass plumbing, `run_mpi` |
| `bounding_box.py` | `Tools`, `BuildArgs` | |
| `translation_classes.py` | `TranslationClasses`, `MaskKernels` (work items) | |
| `rotation_classes.py` | `RotationClasses` | |
| `cost.py` | `Cost` (both implementations, calibration), `CostFactory` (the two factories, evaluation of the symbolic costs, `cost_per_box`, `cost_per_stage`) | `pymbolic` itself beyond the five operations that occur |
| `fmm.py`, `constant_one.py` | `Fmm` (`drive_fmm` with the constant-one wrangler) | timing futures, logging |
| `distributed/*` | `Partition`, `LocalTree`, `MaskKernels` (their kernels as programs of work items), `Communicate`, `DistFmm`, `DistFmmLib` | pickling of the broadcast objects, MPI error handling |
| `pyfmmlib_integration.py` | `FmmLib`, `FmmLibGrad` (output arrays with and without gradients), `FmmLibCtor` (constructors), `FmmLibErr` (error codes): level views into flat arrays, scalings, orders, all stages, rotation matrices, reordering, `finalize_potentials` | the Fortran routines (parameters, see C58), timing, the lookup of routines by name |
| `array_context.py` | `Container` (container fields, leaf wrapper, `BuiltList`) | `transform_loopy_program`, test factories |
| `visualization.py` | `Visualization` (Roman numerals with rounded division, TikZ export, paths of boxes, marks of `draw_box_lists`) | `matplotlib`, text formatting, line widths, transparency, the random shrink factor, `draw_box_numbers` |
| `version.py` | – | version number |

Simplifications common to all modules:

* Coordinates are rationals (`ℚ`).  In the tree builder the arithmetic by which the device obtains
  the bounding box and Morton numbers and decides the stick-out test is a parameter (`Arith`): `exact` has no rounding,
  `rounded fl rt` rounds with `fl` after each operation in the order of the kernel source.  C21 is
  about `exact`, C64 about `rounded`; theorems that do not mention `Arith` hold for every arithmetic.
  In the traversal the geometric tests of the list kernels are a parameter (`Tests`): `exact` or any
  `device` functions, of which `Device.rounded fl rt` computes stored box centers, radii and tests with
  rounding in the order of the kernel source (C65).  Traversal theorems hold for all tests that satisfy
  `TravInput.TestsOK` (adjacency decided correctly, list-4 test monotone in the ancestors), which
  `exact` does and which is proved of `Device.rounded` for trees that are `FineEnough`; C13 is about
  `exact`.  The rounding guards of the kernels (`8*COORD_T_MACH_EPS`) are a parameter.  Overflow,
  underflow and fused multiply-add are not modelled.  The tree builder stores the centers of boxes and the
  bounding boxes of their particles twice, once as the code computes them with rounding (`stored`,
  `srcMinF`, …; the level restriction kernel reads these) and once without rounding (`center`,
  `srcMin`, …; nothing in the builder reads these); C70 relates them.  The translation class kernel and the distances
  of classes take the arithmetic as a parameter; C41 and C42 are about exact, C67 about rounded values.
  Likewise the area queries: C31–C34 exact, C68 rounded (`(float)` of the space invader distance is part
  of the monotone `asInt`, the OpenCL `distance` of two numbers is the absolute value of the rounded
  difference).
* Integers are unbounded.  Exceptions: `1 << level` in the radius macro (`IntShift`, C51), `1U << level` in the
  Morton numbers and `1 << level` in the box splitter (`Morton32`, C98, `DeepCenters`, C99; both in the list kernels and area queries, `Kernels32`, C100; the other theorems about the builder have the true power), the level
  dtype in `tree_of_boxes.py` (C14), the class numbers of `translation_classes.py` (C41), the size
  estimate of rotation matrices (C59), positions in arrays of boxes (C93), refine weights, which saturate at the greatest 32-bit integer as `add_sat` does (C22, C23).
* Weights and expansion coefficients live in an arbitrary commutative monoid (exact addition).

## 4. Arrays, kernels, schedules, failures

* A numpy/device array is a list or a total function on indices.  Functions are used where the
  code's own length bookkeeping is not what the property is about; `WF`-like predicates restrict what
  is known to indices below the length.
* An element-wise kernel without conflicting writes is a map.  For the kernels of the tree builder, which
  access other places than their own index, this is proved (C88), also for those that mark boxes or particles,
  find translation classes or find where levels start (C90).  Kernels with colliding stores
  (`link_point_sources`, list merger, gappy scatter, space invader atomics) take the order of the
  work items as an argument, and theorems quantify over all orders.
* A scan is its mathematical prefix fold.  C54 (Props/Scans) shows that every
  way a device may combine adjacent ranges in the tree builder's scans gives that fold.
* The multipole reduction (C36, C40) is a small-step transition system over all ranks with a network
  of message queues; theorems quantify over every run, with sends that may or may not wait.
* Exceptions are values (`Except`), with the exception's name where it matters.
* Loops without a bound in the code have fuel in the model, and termination is a theorem
  (C11, C23, C36, C38, C47).

## 5. The properties

C01 **Exactly once.** `C01_exactly_once`: number of paths (list 1, close lists, list 2/4 at an
ancestor-or-self, list 3 naming an ancestor-or-self, list 2 naming an ancestor) is 1.  The walk of each
kernel equals a depth-first search (C11); `isSep` tests are monotone along ancestor chains; case
analysis on the level at which the chains of `tgt` and `s` stop being near neighbours.

C02 **FMM sum.** `C02_drive_fmm_total`: C01 plus invariants of the upward and downward loops.

C03–C08 **Lists.** One `..._exact` theorem per list, membership plus `Nodup`, in terms of boxes
touching as closed sets (`Spec/Geometry`); symmetry (C04, C05) and duality (C08) follow.

C09 **Merger.** CSR algebra; any order of the copy kernel's work items.

C10 **Level starts.** Induction over the level-sorted list; includes empty levels.

C11 **Walk.** The explicit stack machine of `walk_init`/`walk_advance` is simulated by structural
recursion; fuel bound `nboxes`; stack bound `nlevels`.

C12 **Role lists.** Filter of the flag kernels' contracts.

C13 **Separation with extents.** Distances of centers to all points of the enlarged box, for all three
criteria; `C13_static_l2_is_sqrt_test` relates the squared test of the model to the square root in
the code.

C14–C18 **Tree of boxes.** Invariant over every history of the four public functions, for every
level-sorting permutation.  C14 holds for signed level dtypes as long as `2**(1+level)` does not
overflow; both limits are sharp (`C14_unsigned_levels_break`, `C14_center_flips_when_deep`).

C19–C27, C52 **Tree builder.** `Morton.Input.build` composes `buildLevels` (level loop) and `finish`.
The loop invariant `Inv` (Lemmas/TreeLoop) describes flat numbering, ranges, flags of box starts,
parents, centers and paths of the particles; `trip` (one pass of the loop, with splitter, renumberer
and level restriction) preserves it.  `FinOK` (Lemmas/Finish*) describes the arrays after pruning and
post-processing.
* C19 permutation: the renumberer moves particles to distinct positions; counting sort argument.
* C20 nested ranges (partial: not for level restriction with extents, where it is false).
* C21 inside boxes: bits of the floor function; stick-out in both norms, the l2 test with squares.
  Partial: particles strictly below the upper faces of the bounding box.  This is automatic for the
  automatic bounding box, and false for a given bounding box with a particle on its upper face.
* C22 weight limit: for limits below 2^31−1.  Held-back particles are described geometrically.
* C23 termination: every trip goes one level down; exact characterisation of failure without extents.
* C24 pruning: compares two runs of the builder (`skip_prune` on and off) on the same input.
* C25 flags: exact for own particles; the has-child flags are only an over-approximation
  (`C25_child_flags_not_exact`).
* C26 tight bounding boxes: induction over levels from below.  Partial as C20.
* C27 2:1 balance: invariant `Bal` – all touching leaf pairs differ by at most one level, or the
  coarser one is marked.  Partial: without extents; with extents it is false.  With rounding, the
  adjacency test of the kernel is right if the boxes are large enough (`AdjOK`, `adjOK_of_fine`, from
  the error analysis of C65), else it is false (`C27_tiny_boxes_unbalanced`).
* C52 well-formedness, all modes.

C28–C30, C49 **Filters, links, lookup.** Scan algebra.  C30 is partial: false for sources without
point sources (colliding stores).

C31–C34 **Area queries.** Peer lists by DFS characterisation; guiding box argument for balls
anywhere; argsort arbitrary; atomics in any order.  C32 assumes that every leaf reaches into the
unstretched bounding box – true for automatic bounding boxes, and needed
(`C32_leaf_in_margin_missed`).

C35–C36 **Reduction.** Pattern by halving; runs by an invariant on stages and queues.

C37 **Partition.** Unconditional: assigned segments concatenate to the depth-first order.  The full
claim is false if costs are concentrated in the last boxes.

C38–C40 **Distributed FMM.** Masks are exact and suffice; local trees hold the masked particles;
then the traversal of a local tree restricted to responsible boxes has the same lists as the global
one and C36 gives the multipoles.

C41–C42 **Translation/rotation classes.** Mixed radix; angles over ℝ.

C43–C44 **Cost.** Sums over lists; calibration by completing the square.

C45–C48 **Tools.** Reduction trees, mask compression with strides, binary search, index maps.

C50 **Arguments.** Decision logic of all checks and the bounding box.  `rootBox fl` rounds after each
operation; with monotone rounding and representable coordinates the automatic box contains the rounded
ends of all particles, and no center is below it (`C50_auto_bbox_rounded`).

C51 **Radii.** 32-bit evaluation of `1 << (level+1)`.  The radius is right exactly up to level 29.

C53 **End to end.** C52 + C19–C21 + C25–C26 give the hypotheses of C02 for built trees.

C54 **Scans.** `ScanResult` is the relation "some bracketing of adjacent ranges gives this value";
with an associative operation it is a function, equal to the sequential scan used in the model.

C55 **Level starts.** Invariant of the level loop: the deepest level has an occupied box.  Partial:
false for pruned non-adaptive trees with extents.

C56 **Documented calls.** `Call.run` composes the checks, the bounding box and the level loop; the
documented conditions imply `Input.OK` (structure of the arguments), the hypothesis of C19, C20, C22–C27,
C52, C53, C55.  Where the particles are is separate: `Input.Placed` (in the bounding box, hypothesis of
C21) without rounding, `Input.NearlyPlaced` (up to two rounding errors, hypothesis of C64) with rounding;
both are derived for documented calls (`C56_placed`, `C56_particles_placed`).  `Call.Documented` asks of
the arithmetic that rounding is monotone with a relative error of at most 1/40000 and that coordinates
and given box corners are representable.

C57 **Distributed, end to end.** C55 + C20 + C37 give the hypotheses `World.OK` of C40 for built
trees; with C36 (every maximal run finishes) and C53 the root gets the sums.

C58 **pyfmmlib wrangler.** The library is a record of functions; `Respects` (Spec/FmmLib) says that
its routines keep relations between expansions, potentials and sets of sources in the situations in
which an FMM may call them.  The flat-array wrangler is run in parallel with the constant-one
wrangler whose weights are singleton multisets of source numbers; C02 gives the set of all sources.

C59 **Rotation matrix cutoff.** Sorting and search over the orders; partial because of `np.int32`.

C60 **Chains and errors.** `Respects` with the relation "sum with one summand per source, each made by
a chain"; linearity of the routines is the only hypothesis on the library.

C61 **User's arrays to potentials.** C56 gives C58's and C60's hypotheses on tree and particles.

C62 **pyfmmlib wrangler on many ranks.** Every rank's flat-array run is related, as in C58, to the
constant-one run on its local tree with singleton multisets as weights (C40); the sum of the partial
multipole expansions (C36) is related to the sum of the multisets.  Same `Respects`, so exactness and
the error bound of C60 follow, also with `Allreduce`.

C63 **User's arrays to potentials on many ranks.** C56, C57's world and C62.

C64 **Tree building with rounding.** `Model/Morton` with `Arith.rounded`.  `Spec/Rounding` says what a
rounding is (relative error `u`, multiplication by powers of two exact); `roundTo p`, rounding to `p`
bits, is one (`roundTo_rounds`).  The scaled coordinate of a particle is then `û·2^(1+l)` with one
number `û` for all levels, near the exact one (`Input.frac_core`), so the path of a particle through
the tree is the exact path of a point near it; the stick-out tests are compared with the exact ones
with the errors of centers, radii, sums and root added up (`Lemmas/RoundedBits`, `RoundedL2`).
Hypothesis: the particles keep a few rounding errors distance to the upper faces (`Input.Room`); for
the automatic bounding box it is derived from the spread of the particles (`C64_call_partial`), and
without it the property is false (`C64_automatic_box_wraps`, `C64_automatic_box_fails`,
`C64_given_box_wraps`).

C65 **Traversal with rounding.** `Model/DeviceTests` is the arithmetic of the kernels with rounding: the
stored centers are accumulated from the root center level by level, radii are exact powers of two
times the root extent.  Centers of boxes lie on a grid, so that two boxes either touch or are at least
the radius of the smallest box apart (`WF.touch_or_apart`); if the accumulated errors are smaller the
rounded adjacency test is the exact one, and the guard of the list-4 test makes it monotone
(`C65_rounded_tests`).  All traversal and FMM theorems then apply.  Separation: error bounds for the
three criteria and list 4.  For `precise_linf` the accuracy of the stored bounding boxes of the
targets is a hypothesis, which C70 proves for built trees.  `C65_tiny_boxes_lose_pairs` shows what happens without `FineEnough`.

C66 **Growing arrays.** `Model/TreeBuild` numbers boxes per level; `Model/Alloc` is the same loop with
the flat arrays of the code: guessed length, level starts, padding of levels for later forced splits,
enlarging, moving and renumbering of all boxes (then the trip starts again), and `IndexError` whenever a
kernel would access an entry that does not exist.  Refinement: `Rel` says that the flat arrays hold the
state, box `(l, k)` at `level_start_box_nrs[l] + k` and zeros elsewhere.  Every kernel preserves it
(`Lemmas/Alloc*`), a trip is repeated at most once (`loop_match`), pruning removes the padding, so the
returned trees are equal (`C66_growing_arrays`).  With `C66_documented_call` all theorems about
`Call.run` hold for the call with flat arrays.

C67 **Classes with rounding.** `normVecF` is the quotient of the class kernel with rounding, from stored
centers.  List 2 boxes are an integer number of widths apart; on `FineEnough` trees the error of the
quotient is below one half, so `rint` finds this integer (`normVecF_eq`) and the classes are the exact
ones.  The numbering loop is the same whatever computes the distances (`SameNumbers`).
`C67_small_boxes_fail` shows wrong classes and a raised `ValueError` without `FineEnough`.

C68 **Area queries with rounding.** The adjacency test, guiding box finder and overlap test of the model
are parameters; the versions with suffix `F` round in the order of the kernel source.  Peer lists depend on
the adjacency test only, which is exact on `FineEnough` trees (`peerLists_rounded`).  The Morton numbers
of the rounded guiding box finder are the exact ones of a nearby point (`shadow`); its errors are small
compared with the distance of boxes that do not touch, so the leaf still lies below a peer of the
guiding box (`RoundedArea.exists_peer`).  The overlap test is exact up to `ballTol`.

C69 **Area queries on built trees.** C31–C34 and C68 ask that the flags for children are exact and that
every leaf reaches below the margin of the bounding box.  Both are proved of the trees of `Call.run`:
`Fruitful` (a box marked as split has a child with particles) is an invariant of the level loop in
adaptive mode; without extents it follows from the counts.  Every box of a pruned tree has a particle
(`exists_particle`), which is inside by C21 or near by C64, and below the margin since an automatic
bounding box is stretched.  `C69_finds_particles_partial` adds that leaves own all particles.

C70 **Stored centers and bounding boxes.** The level loop computes `stored` with rounding; an invariant says
that the center of a child is one rounded step from that of its parent, so the array is the one C65
assumes (`C70_stored_path`), with its error bound.  The bounding box kernel with rounding gives the least
boxes around stored centers and rounded ends (`TightAround`), and tight boxes around things that are near
are near (`TightAround.near`).  This discharges the hypothesis of C65 on bounding boxes
(`C70_list3_precise_linf_partial`).  Partial as C26: not for level restriction with extents.

C71 **From a call to potentials with rounding.** `Call.TravOf` (`Spec/RoundedCall`) says that a traversal is
built from the tree a call returned, on the stored arrays and with the rounding of the call.  C56, C65 and C70
compose: the hypothesis of C65 on the device is `LargeBoxes`, a condition on the tree only, and
`C71_large_boxes` derives it from the spread of the particles and the number of levels.
`C71_tiny_boxes_lose_pairs` is a documented call that violates it and whose FMM omits a source.

C72 **Sizes of the interaction lists.** Boxes are mapped to integer grid cells (`Lemmas/GridPos`); boxes of
which none contains another have disjoint cells, so rows are bounded by the number of cells of a region.
Per box, with separation n in d dimensions: near neighbours (2n+1)^d - 1, list 2 (4n+2)^d - (2n+1)^d, list 4
(2n+2)^d - 3^d, list 1 of a 2:1 balanced tree 4^d - 2^d + 1; in total, list 1 2·3^d and list 3 (2n+1)^d per
box of the tree (double counting). `C72_nboxes` bounds the boxes of a level by the particles, and
`C72_list_entries` puts this together for documented calls without radii; `C72_restricted_list1` is the
balanced case with rounding. List 1 and list 3 rows of unbalanced trees have no bound.

C73 **Order of the particles.** `Input.reorder` and `Call.reorder` (`Spec/Order`) are the same particles in
another order, `SameUpToOrder` says that two trees are equal except for the order of the particles in the
boxes. The level loop is run on both orders side by side: its state is equal except for the particle lists,
because the splitting decisions are sums over the particles of a box (`Lemmas/Order`); the returned counts
and bounding boxes are equal because no box owns particles on both sides of a box boundary
(`Lemmas/OrderFin`). The checks and the automatic bounding box are also the same (`C73_call_partial`).
`C73_boxes` holds for every kind of tree; the rest fails for level-restricted trees with extents
(`C73_restricted_extent_order`).

C74 **No needless splits.** Invariant of the level loop (`Lemmas/Splits`): every split box has to be split
(`Needs`), because it is too heavy or because it touches a box of half its size that has to be split. By
induction this leads to a box that is too heavy at a distance of at most three times the difference of the
sizes (`Heavier`). `C74_split` says it of the finished tree. `C74_canonical` combines it with C22 and the
grid cells of C23, by induction on the level. `C74_depth` is an invariant of its own (`Lemmas/Depth`):
the loop goes on only if a new box is too heavy.

C75 **Non-adaptive trees.** Invariant of the level loop (`Lemmas/Depth`): all boxes above the newest level
are split; the loop ends when no new box is too heavy.

C76 **Coarsest tree.** By induction on `Needs`: a box that has to be split is split in every tree over the
same root box with light leaves and balanced sizes. The cells of two trees over the same root box are nested
or apart (`Lemmas/Coarsest`, parity of the positions on the grid); a leaf of the other tree that contains the
box would be too heavy, or would touch a leaf two levels finer.

C77 **Backward stability.** The scaled coordinate that the kernel computes is, times a power of two, the
exact one of a nearby point, on all levels at once (`Scaled`). Two runs of the level loop side by side
(`Lemmas/Backward`): same Morton numbers, and adjacency tests that are right in both runs by C27's bounds on
the stored centers, give states that differ only in the stored centers. `C77_coarsest_nearby` applies C76 to
the exact run. `C77_other_tree` shows that the given points themselves can have another exact tree.

C78 **Calibrated cost models.** `Model/CostFactory` has the symbolic costs of both factories as expression
trees, their evaluation in a dictionary (a missing variable is an error) and the two entry points, which write
the orders into the dictionary of the caller. The array `m2m` has `nlevels - 1` entries; a lemma shows that the
kernels read no entry out of bounds, so that the cost is that of the formulas in `Spec/CostFactory`. Linearity
and monotonicity go through the sums of the kernels. `C78_calibration_recovers` combines linearity with the
least squares formula. The power with exponent `k/2` is a parameter; `C78_translation_3d` fixes it to the real
power.

C79 **Linear work.** No new model: the cost model of C78 applied to the trees and traversals of C52 and C72.
`own_le_limit` turns C22 with unit weights into a bound on the own particles of a box, `Lemmas/Work` sums rows:
the own ranges are disjoint (C20), so Σ own ≤ n; the lists have the totals of C72. `C79_linear_work` adds up.

C80 **Geometric convergence.** The wrangler model of C58/C60 is run with a concrete library, `Spec/CauchyLib`:
truncated Laurent and Taylor series of `w/(y-x)` with the `rscale` convention of `pyfmmlib`. The library stands
for Fortran code outside of `/repo` and is trusted as a specification; its arithmetic is exact. The proof goes
along the chains of C60, for which the wrangler must pass matching centers, scalings and orders. A multipole
expansion of a chain is exact up to coefficient `p` and bounded by powers of the radius of the disk around the
box (`IsMP`); a local expansion is close to a polynomial of degree `p` that is close to the field (`IsLoc`).
Both survive shifts between levels without loss, so the only error is made in the conversion, where
`Lemmas/Separation` gives the distance of centers: `n + 1` box widths for list 2, three radii for lists 3 and 4.
The sum over sources is C60. Particles may stick out of boxes by `ε`; `C21` gives `ε = 0` in exact arithmetic
and `C64` the rounding error.

C81 **Following a particle into the tree.** `Model/Lookup` models the conversions of numbers with the indexing of
`numpy` (negative numbers, `IndexError`), `find_box_nr_for_*` and `get_box_extent`. The inverse table is computed
by `C56`'s permutation; the box by the nested ranges of C20; the extent by C21 and C70.

C82 **Moving results between host and device.** `Model/Container` models `array_context.py`: which annotations
make an array field, the leaf wrapper with its errors, and the containers of boxtree with their fields. The
recursion over containers and `to_numpy`, `from_numpy`, `freeze` belong to `arraycontext`, outside of `/repo`;
they are modelled after their documentation and trusted. The specification speaks about accesses `v.a[i].b`
(`Val.get`), so that it does not repeat the recursion; a table in the specification names the attributes of every
class that are documented as arrays (`C82_attributes`). `recMap_total` goes by structural induction on values,
the other lemmas by induction on the access.

C83 **Output arrays and gradients.** `Model/FmmLibGrad` models `output_zeros`, `add_potgrad_onto_output` and
`reorder_potentials` with both shapes of the output and the index errors of `numpy`. `C83_without_gradients`
is a refinement: with `ifgrad=False` the run is the one of `Model/FmmLib`, so C58, C60, C61 and C80 apply.
With `ifgrad=True` the first target box raises.

C84 **Convergence for charges.** As C80 with `Spec/LogLib`: the expansions of `log |y-x|` of Greengard and
Rokhlin, the total charge being coefficient 0, and the scaling and real part of `finalize_potentials`. Multiplied
with `k`, coefficient `k` of a multipole expansion is one of C80 (`dcoef`), and the translation from child to
parent becomes that of C80 (`dfac_up`), so `IsMP` is reused. Local expansions are compared through real parts
(`IsRe`), which avoids branches of the logarithm. The conversion rests on the double series of `log (1-u-v)`
(`Lemmas/LogSeries`). The library stands for Fortran code outside of `/repo` and is trusted as a specification.

C85 **Exports and plots.** `Model/Visualization` models `int_to_roman` (with the quotient rounded to double
precision before truncation), the TikZ export as one record per box, the path of a box, and the patches of
`draw_box_lists` as marks (box, color, hatch, filled). The numerals are read back by the usual rule
(`romanValue`): the loop splits into four decimal blocks, and the value is additive where digits do not
increase. The marks are compared with the rows of the lists as C03 to C07 read them.

C86 **Construction of the pyfmmlib wrangler.** `Model/FmmLibCtor` models the two constructors with their
exceptions and warnings. `Documented` restates the documentation of the arguments; acceptance is shown equivalent
to it by cases, and that reordered dipoles give the run of `Model/FmmLib` by unfolding both runs.

C87 **Error codes.** `Model/FmmLibErr` repeats the stages of `Model/FmmLib` in an exception monad with the tests
of `ier`; which calls fail is an arbitrary function of the arguments (`Status`). `Sim m v` (fails or gives `v`) is
preserved by monadic folds and `bind`, so a run that returns agrees with `Model/FmmLib`; a step that fails in every
state makes a fold fail. The failing call is described with the expansions of the run without failures.

C88 **Schedules.** `Model/WorkItems`: a work item is a program of loads and atomic changes of cells, a launch
interleaves the programs as a list of turns says.  `Model/LoopKernels`: the box splitter, the particle
renumberer and the level restriction as such programs, and the level loop with a schedule for every launch.
`launch_eq`: without conflicts every schedule gives the result of the work items one after the other.  The
splitter runs over the new boxes too, whose entries other work items store; they have no children and no
mark, so nothing of theirs is loaded.  The level restriction loads marks of the level below only.  Loads
that the code repeats are done once, and all before the stores.  `AllocLoop` is stated for kernels that do
what `Model/Alloc` says (`Steps.OK`), which is shown of the scheduled ones.  `Model/FinishKernels`: the source
and target index finder, the reversal of the index array and the extents finder; a cell of the first two has
one writer, and the last loads only what the launch before has stored, since children are on another level.

C89 **Launches ordered by events.** `Model/Commands`: a command has a wait list, and a launch does not record its
event in its arguments (an assumption about pyopencl); `Runs` is any order in which a
command comes after those it waits for.  The launches of the extents finder with the wait lists of the code.
The launches whose event is kept form a chain, by an invariant over `Runs`: those of the first `k` levels are
complete and the rest of the sweep gives the result.  For the sources with separate targets a concrete run is
evaluated that gives a wrong bounding box.

C90 **Schedules of the other kernels.** `Model/MaskKernels`: the kernels that mark boxes and particles, fetch local
particles, find translation classes and mark where levels start, as programs of work items.  Marks are stores
of one value or `atomic_or`, so they commute; fetched particles go to different cells because a scan of a
mask is strictly increasing where the mask is set; on a level-ordered list one work item leads each level.

C91 **`get_box_list`.** `Model/GetBoxList`: slices of Python with negative bounds.  Two bounds are read, or fewer;
linear arithmetic on the clamped bounds.

C92 **Traversal of a tree of boxes.** `Model/TobTraversal`: the builder on the arrays of a `TreeOfBoxes`, the kernel
for list 2 with indices as computed and the word of memory in front of an array as a parameter.  On all boxes
but the root the kernel is the one of C05; on the root the loop is empty or leaves the array, depending on
the sign of the word.  Then C14, C15 and C01.

C93 **Positions in arrays of boxes.** `Model/FlatIndex`: rows padded to a multiple of 32, positions in 32-bit
integers.  Induction on rows; for the converse the first row whose last box lies beyond `2^31`.

C94 **Mesh of the leaves.** `Model/LeafMesh`: `np.repeat`, `np.tile`, vertex numbers; the order of the nodes of the
reference cell (`modepy`) is arbitrary.  Entry `e*2^d+k` of the arrays, then C15.

C95 **Wait lists of the traversal builder.** `Model/TravCommands`: each launch of `__call__` with its wait list and
what it stores as a function of the memory; orders of launches that respect the wait lists; the arrays returned.
With level starts every such order in which the returned event is complete gives `buildTraversal` (the set of
completed launches is closed under waiting, hence contains what a launch reads).  Without level starts (trees of
boxes) the wait list is empty after the role lists: negation, and the theorem for orders in which the role lists
come first.  Simplifications: launches do not overlap; the passes of a list builder are one launch.  That
builder (pyopencl) may itself wait on the host for the sizes of its lists, which hides the missing events.

C96 **Wait lists of the area query builders.** `Model/AreaCommands`: the launches of the four builders with their
wait lists, and the caller's launch that writes the balls, whose event is in `wait_for`.  Area and space invader
query: all orders.  Leaves-to-balls lookup: the starts expander is launched without `wait_for`; negation, and the
theorem for orders in which the query comes before the expander.  Same simplifications as C95; in particular
`actx.freeze` of the query result is taken not to wait (it waits for the events recorded in the arrays only).

C97 **Events of the caller of the tree builder.** `Model/BuildCommands`: the caller's launch that writes the
particles, the copies of sources and targets, and the rest of the builder from the bounding box finder on, which is
the first launch that is given `wait_for`.  Without copies: all orders.  With copies (targets given, or particles
not in an object array): negation (the tree is that of the previous contents), and the theorem for orders in which
the caller's launch runs first.

C98 **Depth of the tree builder.** `Model/Morton32`: the Morton numbers with `1U << (1 + level)` evaluated as OpenCL
does, shift amount modulo 32.  `Lemmas/Morton32` proves that the level loop reads the Morton numbers of the levels of
the tree only, so that trees of at most 31 levels are the same.  Beyond, particles that agree in 31 binary digits are
never separated (`group_weight` of C23), and the plain adaptive builder is the one with limit 33 (`C98_limit`).

C99 **Stored centers of deep boxes.** `Model/DeepCenters`: the center of the box of a particle along one axis, level by
level, with `1 << (1 + new_level)` as a 32-bit `int` (`shl32` of C51) and the bits of C98.  By induction the center
is that of the true cell up to level 29; on level 30 the sign is wrong, on level 31 the shift wraps around.

C100 **Integer width in the list kernels and area queries.** `Model/Kernels32`: the tests of all list kernels, the guiding
box, the peer lists, the overlap test and the translation vectors with 32-bit shifts (`rad32` of C51, `shift32` of C98).  On well-formed trees
of at most 30 levels each kernel only asks about levels below 30 (`walk_congr`), so all results are equal.  On level 30
a box is not adjacent to itself; the other lists never hold a box for itself, whatever the tests answer
(`list2_struct`, `list3_struct`, `list4_struct`), so no path is left.
`Model/DeviceTests32`: the rounded tests of C65 and the stored centers with 32-bit shifts.  Two devices that agree on
boxes and levels of the tree build the same traversal (`buildTraversal_same`), which gives the same result with
rounding, and with C65 and C71 exactly-once, potentials and separation.  The builder may use 32-bit integers as well
(`rounded32` of C98): C71 asks nothing of the Morton numbers, and an example has them on both sides.
`Model/AreaF32` does the same for the rounded area queries of C68 and the translation vectors of C67.

## 6. Defects and deviations found while modelling

Each entry with a theorem is proved of the model.

| | Finding | Theorem |
|---|---|---|
| a | Root of a `TreeOfBoxes` has `parent = -1`, the list 2 kernel only guards `parent == box_id`: it reads `starts[-1]`, and negative entries of the lists if that word is negative | `C92_negative_word` |
| b | Unsigned `box_level_dtype`: `np.diff < 0` is never true, the sort by level is skipped | `C14_unsigned_levels_break` |
| c | `argsort` without `kind="stable"`: box numbers after refinement are not determined | modelled as arbitrary |
| d | `link_point_sources` with a source without point sources: colliding stores | `C30_empty_source_breaks` |
| e | Area query's guiding box finder clamps to the unstretched box | `C32_leaf_in_margin_missed` |
| f | Refine plus coarsen on mixed siblings raises by default, documented to ignore | `C18_default_rejects_mixed_siblings` |
| g | `make_tree_of_boxes_root` sets `level_start_box_nrs = [0]`, one entry too few | – |
| h | Non-adaptive split condition `>= 0` is always true | modelled |
| i | Has-child flags set on every box with children | `C25_child_flags_not_exact` |
| j | `partition_work` leaves segments of `np.empty` uninitialised | `C37_last_ranks_uninitialised` |
| k | Distributed, target extents and `_from_sep_smaller_min_nsources_cumul > 0`: sources lost | `C40_min_nsources_loses_sources` |
| l | `TranslationClassesInfo`: number of classes is the dimension; shared numbering stores level 0 vectors | `C41_nclasses_is_dimension`, `C41_shared_classes_not_scaled` |
| m | Cost of list 4 uses the source box's level; missing stages give 0.0, documented NaN; small costs count as zero | `C43_list4_uses_source_level`, `C44_missing_stage_is_zero`, `C44_small_costs_not_optimal` |
| n | `generate_local_tree` refers to `sources_radii` (typo): `AttributeError` for sources with extent | `C82_local_tree_source_extent` |
| o | `1 << (level+1)` overflows from level 30 on | `C51_radius_exact_iff`, `C51_radius_level30`, `C51_radius_level31`, `C51_level30_not_adjacent_to_itself` |
| p | `MaskCompressorKernel` ignores the stride of a one-dimensional mask | `C46_one_dim_stride_ignored` |
| q | `2**(1+box_levels)` overflows int32 at level 30 in `tree_of_boxes.py` | `C14_center_flips_when_deep` |
| r | Level restriction with extents: boxes marked as split without children, particles owned by no box; tree not balanced | `C20_restricted_extent_loses_particles`, `C27_restricted_extent_unbalanced` |
| s | Particle on the upper face of a given bounding box is put into the wrong box | `C21_particle_on_upper_face` |
| t | Non-adaptive, with extents, all particles held back: stale box counts of the last level | `C55_stale_level_counts` |
| u | `max_leaf_refine_weight` = greatest int: assertion fails; automatic bounding box of coincident particles has extent 0 (division 0/0) | `C23_int_max_limit`, `C50_auto_bbox` (last clause) |
| z | All refine weights zero: documented as allowed, but `nboxes_guess` is 0 and an assertion fails | `C56_zero_weights_rejected` |
| v | Comment in `rotation_classes.py` bounds the number of distinct angles, not positions | – |
| w | `max_particles_in_box` with one of the other limits is accepted; number of weights unchecked | `C50_mixed_limit_accepted`, `C50_weight_count_unchecked` |
| x | Nearly square bounding box accepted, root box misses particles | `C50_nearly_square_bbox_loses` |
| y | Level restriction can raise `MaxLevelsExceeded` at the level limit although all leaves fit | cf. `C23_fails_iff` (converse only without level restriction) |
| aa | Memory estimate for rotation matrices is computed in `np.int32`: with NumPy 2 it wraps, and matrices far above the cutoff are computed (orders 140–175 with 49 angles) | `C59_cutoff_overflow` |
| cc | `DistributedFMMLibExpansionWrangler` with `dipole_vec` and without `dipoles_already_reordered=True`: the constructor asks for the MPI rank before `self.comm` is assigned, `AttributeError` | `C62_unsorted_dipoles_rejected` |
| dd | The stretch of the automatic bounding box (1e-4) is lost by rounding if the particles are far from the origin compared with their spread: in single precision the particles 8192, 8192.5, 8193 give a tree in which the last one is in the lowest box, and 8192, 8193 with one particle per box give `MaxLevelsExceeded`.  With a given bounding box the same happens in double precision to the greatest number below the upper face of [-1, 1] | `C64_automatic_box_wraps`, `C64_automatic_box_fails`, `C64_given_box_wraps` |
| ee | Single precision, bounding box [2^23, 2^23+4], four particles at consecutive floating point numbers, one per box (a documented call): the stored centers of touching leaves round apart, the adjacency test fails and the sources of one leaf never reach the targets of the other | `C65_tiny_boxes_lose_pairs`, `C71_tiny_boxes_lose_pairs` |
| ff | Box widths near the spacing of the floating point numbers: list 2 pairs at different distances share a translation class, or the class builder raises `ValueError` | `C67_small_boxes_fail` |
| gg | Area query in single precision, root box [65536, 65552]: the stretch 1e-4 is lost when `bbox_max` is rounded, a ball center at the upper face is not moved inside, its Morton numbers wrap around and the leaf around it is not found, although boxes are large compared with rounding errors | `C68_no_stretch_fails` |
| hh | Non-adaptive tree of particles with extents that are too large for any child: one box without children, flagged as having children; an area query does not find it | `C69_held_back_fails` |
| ii | Single precision, level-restricted, two particles at the consecutive numbers 2^23+3, 2^23+4 in a bounding box of width 10: the rounded centers of touching leaves on levels 1 and 3 appear separated and the tree is not balanced | `C27_tiny_boxes_unbalanced` |
| jj | Level-restricted builder with extents: which particles of a box that is marked but not split are its own, and so the bounding boxes, depend on the order in which the user gives the particles | `C73_restricted_extent_order` |
| kk | `generate_local_tree` documents `responsible_boxes_list` as a `numpy` array, but freezing the local tree then raises `TypeError`; the caller in boxtree passes a device array | `C82_local_tree_partial` (second clause) |
| ll | `get_tikz_for_tree` names macros by Roman numerals, which end at 3999: trees with more than 4000 boxes raise `ValueError` | `C85_tikz_large` |
| mm | `_draw_box_list` reads `getattr(kwargs, "facecolor", …)` of a dictionary: the outline that marks a missing list is always blue, whatever the color of the list | `C85_draw_box_lists` (next to last clause) |
| nn | Box extents with separate targets: of the two launches per level only the event of the second (targets) is kept, so with a queue that follows events only the sources of a box may be found before those of its children, and the returned event does not cover them; an in-order queue is needed | `C89_sources_unordered`, `C89_event_without_sources` |
| oo | `get_box_list(what, -m)` is an exception for `m = 1, 2` and gives the list after the one that `-m` means in Python for larger `m` | `C91_negative` |
| pp | Positions `row * aligned_nboxes + box_id` are computed in 32 bits: trees with more than 2^28 boxes in three (2^29 in two) dimensions are not rejected, and kernels access memory in front of `box_child_ids` | `C93_too_many_boxes`, `C93_limits` |
| qq | Traversal of a tree without `level_start_box_nrs` (a tree of boxes): `wait_for` is empty after the role lists are enqueued, so nothing orders the list kernels, nor the returned event, after the kernel that finds the role lists | `C95_without_level_starts` |
| rr | `LeavesToBallsLookupBuilder`: the starts expander is launched without `wait_for` (and the list of events is overwritten by its own), so the lookup, and the returned event, are not ordered after the area query nor after the caller's events; an in-order queue is needed | `C96_expander_unordered` |
| ss | `TreeBuilder.__call__`: `wait_for` reaches only the bounding box finder (the list made of it is overwritten at `tree_build.py:649`); sources and targets are copied, and the refine weights are reduced, before, without waiting for the caller's events | `C97_copied_too_early` |
| tt | `1U << (1 + particle_level)` wraps around from level 31 on: particles closer than `2^-31` of the bounding box are never separated, and the builder runs to `nlevels_max` and raises `MaxLevelsExceeded`, although 106 levels are allowed and double precision tells the particles apart | `C98_not_separated`, `C98_deep_fails`, `C98_limit` |
| uu | The box splitter divides by the `int` `1 << (1 + new_level)`: on level 30 siblings get each other's centers, on level 31 the center is one root extent away; the builder makes such levels (limit 33, see tt) | `C99_center_level30`, `C99_center_level31`, `C99_deep_tree` |
| vv | With 31 levels the 32-bit radius macro loses the interaction of every box on level 30 with itself in the traversal, and area queries with small balls miss every leaf there; translation vectors are reversed | `C100_vector_reversed`, `C100_own_sources_lost`, `C100_own_sources_lost_rounded`, `C100_small_ball_misses_leaf`, `C100_rounded_small_ball`, `C100_31_levels`, `C100_31_levels_area`, `C100_built_tree` |
| bb | `ifgrad=True`: `output_zeros` makes a one-dimensional object array that `output[0, …] +=` indexes with two indices: every run with a target raises `IndexError` | `C83_gradients_rejected`, `C83_calls_rejected` |

## 7. Mutation tests

`seeded/LOG.jsonl` has one line per wrong program tried: the definition and edit, the claim it breaks,
the theorems that failed to build, and the theorems tightened in response.
