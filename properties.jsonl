{"id": "C01", "title": "Every source reaches every target exactly once", "statement": "For a traversal built by FMMTraversalBuilder, for every target box t and every source box s, s is accounted for at t by exactly one entry over all interaction lists, where an entry of list 2 or list 4 at an ancestor of t counts for t (downward propagation), and an entry of list 2 or list 3 naming an ancestor of s counts for s (upward propagation), and list 1 / list 3 close / list 4 close entries count directly.", "quantifier": "every valid box tree of any depth and dimension, every assignment of source/target flags, every well_sep_is_n_away >= 1, with or without target extents, every stick-out factor, every from_sep_smaller criterion, every min_nsources threshold, every pair (t, s)", "why_tests_cant": "test_fmm_completeness samples a few random particle clouds; a lost or double-counted interaction can need a particular adaptive refinement pattern around one pair of boxes.", "anchors": ["boxtree/traversal.py:FMMTraversalBuilder.__call__", "boxtree/traversal.py:TRAVERSAL_PREAMBLE_TEMPLATE", "boxtree/traversal.py:NEIGHBOR_SOURCE_BOXES_TEMPLATE", "boxtree/traversal.py:FROM_SEP_SIBLINGS_TEMPLATE", "boxtree/traversal.py:FROM_SEP_SMALLER_TEMPLATE", "boxtree/traversal.py:FROM_SEP_BIGGER_TEMPLATE"]}
{"id": "C02", "title": "FMM driver delivers the full sum to every target", "statement": "drive_fmm with an expansion wrangler whose translations are exact for a constant kernel (ConstantOneExpansionWrangler) returns, for every target in user order, the sum of all source weights.", "quantifier": "every tree/traversal as in C01, every weight vector over any commutative monoid, every target", "why_tests_cant": "tests use floating point weights and random clouds and compare within tolerance; the order of the nine stages, the level ranges of the upward and downward passes and the index permutations must be right for every tree shape.", "anchors": ["boxtree/fmm.py:drive_fmm", "boxtree/constant_one.py:ConstantOneExpansionWrangler"]}
{"id": "C03", "title": "List 1 is exactly the set of touching source boxes", "statement": "For each target box, neighbor_source_boxes lists exactly the source boxes (of any size) that are adjacent to or overlap it, each once.", "quantifier": "every valid tree, all source/target flags, every target box", "why_tests_cant": "needs all relative positions and size ratios of two boxes in an arbitrarily deep adaptive tree.", "anchors": ["boxtree/traversal.py:NEIGHBOR_SOURCE_BOXES_TEMPLATE", "boxtree/traversal.py:HELPER_FUNCTION_TEMPLATE"]}
{"id": "C04", "title": "Same-level near-neighbour lists are exact and symmetric", "statement": "For each box b, same_level_non_well_sep_boxes lists exactly the boxes on b's level, other than b, whose centers are within the n-away neighbourhood of b, each once; a lists b iff b lists a.", "quantifier": "every valid tree, every n_away >= 1, every box", "why_tests_cant": "the kernel finds them by a pruned tree walk; correctness of the pruning must hold at every depth.", "anchors": ["boxtree/traversal.py:SAME_LEVEL_NON_WELL_SEP_BOXES_TEMPLATE"]}
{"id": "C05", "title": "List 2 is exactly the separated children of near neighbours of the parent", "statement": "For each target-or-target-parent box b that is not the root, from_sep_siblings lists exactly the boxes on b's level that are well-separated from b and whose parent is not well-separated from b's parent, each once; the relation is symmetric.", "quantifier": "every valid tree, every n_away >= 1, every box pair", "why_tests_cant": "tests only check that listed boxes are far apart, not that none is missing or repeated.", "anchors": ["boxtree/traversal.py:FROM_SEP_SIBLINGS_TEMPLATE"]}
{"id": "C06", "title": "List 3 contains only finer, non-touching, separated boxes", "statement": "Every entry of from_sep_smaller for source level L at target box t is a box on level L, strictly finer than t, not adjacent to t, meeting the separation criterion and the source count threshold; every ancestor of it finer than t either touches t or fails the criterion or threshold; no box is listed twice.", "quantifier": "every valid tree, criterion, threshold, target box and source level", "why_tests_cant": "depends on the whole path from the near neighbour of t down to the entry; random trees exercise few combinations of threshold, extent and path.", "anchors": ["boxtree/traversal.py:FROM_SEP_SMALLER_TEMPLATE"]}
{"id": "C07", "title": "List 4 contains exactly the source boxes first separated at this box", "statement": "Every entry of from_sep_bigger at b is a source box at least as coarse as b, not adjacent to b and separated from b (enlarged by the stick-out factor if targets have extent), and it is not already handled at any ancestor of b.", "quantifier": "every valid tree, n_away, stick-out factor, box", "why_tests_cant": "the kernel decides from the parent only; that no grandparent handled the box needs a monotonicity argument over all ancestors.", "anchors": ["boxtree/traversal.py:FROM_SEP_BIGGER_TEMPLATE"]}
{"id": "C08", "title": "Lists 3 and 4 are duals", "statement": "When sources are targets, n_away is 1 and there are no extents, box b is in list 3 of leaf t iff t is in list 4 of b.", "quantifier": "every valid tree in that configuration, every pair (t, b)", "why_tests_cant": "the two lists are computed by unrelated kernels (downward walk versus upward walk).", "anchors": ["boxtree/traversal.py:FROM_SEP_SMALLER_TEMPLATE", "boxtree/traversal.py:FROM_SEP_BIGGER_TEMPLATE"]}
{"id": "C09", "title": "merge_close_lists neither drops nor duplicates direct interactions", "statement": "After merge_close_lists, each target box's list 1 is the concatenation of its former list 1, list 3 close and list 4 close, and the close lists are gone; in general the list merger returns for each output box the concatenation of the input lists of that box, for inputs indexed by either target boxes or target-or-target-parent boxes.", "quantifier": "every collection of CSR lists with consistent lengths", "why_tests_cant": "the merger works with counts, scans and reverse index arrays; off-by-one errors only show for particular empty-list patterns.", "anchors": ["boxtree/traversal.py:_ListMerger", "boxtree/traversal.py:FMMTraversalInfo.merge_close_lists", "boxtree/traversal.py:LIST_MERGER_TEMPLATE"]}
{"id": "C10", "title": "level_start arrays delimit levels", "statement": "For each of the four box lists of a traversal, entries level_start[l] .. level_start[l+1] of the list are exactly its boxes on level l, for every level including empty ones.", "quantifier": "every level-sorted tree, every sub-list of boxes, every number of levels", "why_tests_cant": "levels with no listed box, at the beginning, in the middle and at the end, are handled by a separate back-fill pass.", "anchors": ["boxtree/traversal.py:LEVEL_START_BOX_NR_EXTRACTOR_TEMPLATE", "boxtree/traversal.py:FMMTraversalBuilder.__call__"]}
{"id": "C11", "title": "Tree walks terminate, visit each box at most once and do not overflow their stack", "statement": "The explicit-stack box walk used by all list kernels terminates, visits each descendant of its start box at most once and in Morton order, and never holds more than nlevels entries.", "quantifier": "every valid tree and every pruning decision", "why_tests_cant": "an overflow of a fixed-size private array in an OpenCL kernel is silent; it depends on the deepest path.", "anchors": ["boxtree/traversal.py:TRAVERSAL_PREAMBLE_MAKO_DEFS"]}
{"id": "C12", "title": "Box role lists are exact", "statement": "source_boxes, source_parent_boxes, target_boxes and target_or_target_parent_boxes contain exactly the boxes with the respective flags (and mask bits, when masks are given), in increasing box id, without repetition.", "quantifier": "every flag array and mask", "why_tests_cant": "all flag and mask combinations.", "anchors": ["boxtree/traversal.py:SOURCES_PARENTS_AND_TARGETS_TEMPLATE"]}
{"id": "C13", "title": "Separated lists respect target extents", "statement": "If targets have extent with stick-out factor sigma, every list 3 entry s of t has its center at least twice its radius (up to the documented 8 eps slack) from every point of t enlarged by (1+sigma) in the static_linf criterion; every list 4 entry of b is likewise outside b enlarged.", "quantifier": "all positions and sizes, all sigma >= 0", "why_tests_cant": "geometric inequality over continuous positions.", "anchors": ["boxtree/traversal.py:FROM_SEP_SMALLER_TEMPLATE", "boxtree/traversal.py:FROM_SEP_BIGGER_TEMPLATE"]}
{"id": "C14", "title": "Tree-of-boxes invariants survive every refinement/coarsening history", "statement": "Starting from make_tree_of_boxes_root, after any sequence of refine_and_coarsen_tree_of_boxes / refine_tree_of_boxes / coarsen_tree_of_boxes / uniformly_refine_tree_of_boxes calls that return, box 0 is the only root, every other box is listed exactly once among its parent's children, levels are parent level + 1 and non-decreasing in box id, each box has either all 2^d children or none, flags agree with child ids, and centers are the dyadic subdivision of the root box.", "quantifier": "every finite history of calls that refines no box so deep that 2**(1+level) overflows the level dtype (level 29 for the default int32), every dimension, every flag array, every signed level dtype, every level-sorting permutation argsort may return; both restrictions are needed (separate theorems show the failures)", "why_tests_cant": "histories are unbounded; tests run three refinements and one coarsening.", "anchors": ["boxtree/tree_of_boxes.py:refine_and_coarsen_tree_of_boxes", "boxtree/tree_of_boxes.py:make_tree_of_boxes_root"]}
{"id": "C15", "title": "Leaves tile the root box", "statement": "After any such history, every point of the (half-open) root box lies in exactly one leaf box.", "quantifier": "every history as in C14, every point", "why_tests_cant": "uncountably many points and unboundedly many trees.", "anchors": ["boxtree/tree_of_boxes.py:refine_and_coarsen_tree_of_boxes", "boxtree/tree_of_boxes.py:make_meshmode_mesh_from_leaves"]}
{"id": "C16", "title": "Refine then coarsen is the identity on the set of boxes", "statement": "Refining a set of leaves and then flagging all the newly created boxes for coarsening yields a tree with the same boxes (level, center, parent relation) as before.", "quantifier": "every valid tree of boxes and every refinement flag array", "why_tests_cant": "round trip law over all trees.", "anchors": ["boxtree/tree_of_boxes.py:_apply_refine_flags_without_sorting", "boxtree/tree_of_boxes.py:_apply_coarsen_flags"]}
{"id": "C17", "title": "Illegal refinement/coarsening requests are rejected", "statement": "refine_and_coarsen_tree_of_boxes raises exactly when a box is flagged for both, a non-leaf is flagged, the root is flagged for coarsening, or (with error_on_ignored_flags) some flagged box has a non-leaf sibling; otherwise it returns a valid tree.", "quantifier": "every tree and flag arrays", "why_tests_cant": "exact error condition over all flag combinations.", "anchors": ["boxtree/tree_of_boxes.py:refine_and_coarsen_tree_of_boxes", "boxtree/tree_of_boxes.py:_apply_coarsen_flags"]}
{"id": "C18", "title": "Refinement takes priority / ignored flags", "statement": "With error_on_ignored_flags=False, a coarsening flag whose siblings are not all leaves after refinement has no effect, and all other coarsening flags remove exactly the sibling groups they name.", "quantifier": "every tree and flag arrays", "why_tests_cant": "all combinations of refined and coarsened siblings.", "anchors": ["boxtree/tree_of_boxes.py:_apply_coarsen_flags"]}
{"id": "C19", "title": "Tree order is a permutation of user order", "statement": "TreeBuilder's user_source_ids is a permutation of the sources, sorted_target_ids is the inverse of a permutation of the targets, sources[i] = user_sources[user_source_ids[i]], targets[sorted_target_ids[j]] = user_targets[j]; so reordering weights in and potentials out is consistent.", "quantifier": "every particle set (coincident particles included), every splitting history", "why_tests_cant": "the permutation is produced by one parallel renumbering per level.", "anchors": ["boxtree/tree_build.py:TreeBuilder.__call__", "boxtree/tree_build_kernels.py:PARTICLE_RENUMBERER_KERNEL_TPL", "boxtree/tree_build_kernels.py:SOURCE_AND_TARGET_INDEX_FINDER"]}
{"id": "C20", "title": "Box particle ranges are nested and exhaustive", "statement": "For each box of a built tree, its particles form a contiguous range starting with its non-child particles and followed by the ranges of its children in child order; the non-child ranges of all boxes partition all particles.", "quantifier": "every particle set, depth, and extents", "why_tests_cant": "structural invariant of an unbounded level loop.", "anchors": ["boxtree/tree_build_kernels.py:BOX_SPLITTER_KERNEL_TPL", "boxtree/tree_build_kernels.py:PARTICLE_RENUMBERER_KERNEL_TPL", "boxtree/tree_build.py:TreeBuilder.__call__"]}
{"id": "C21", "title": "Particles lie in the boxes that own them", "statement": "Each particle of a box lies in the box's half-open cube; with extents, a particle owned by (a descendant of) a box does not stick out of it by more than stick_out_factor times the radius.", "quantifier": "every particle position and radius, every depth", "why_tests_cant": "the Morton digit of a particle and the center of the child box are computed by different formulas in different kernels.", "anchors": ["boxtree/tree_build_kernels.py:MORTON_NR_SCAN_PREAMBLE_TPL", "boxtree/tree_build_kernels.py:BOX_SPLITTER_KERNEL_TPL"]}
{"id": "C22", "title": "Leaves respect the particle limit", "statement": "In an adaptive tree, every leaf's total refine weight (particle count for max_particles_in_box) is at most the limit, except for weight of particles held back by their extent.", "quantifier": "every particle set, every limit below the greatest 32-bit integer", "why_tests_cant": "unbounded level loop.", "anchors": ["boxtree/tree_build_kernels.py:SPLIT_BOX_ID_SCAN_TPL", "boxtree/tree_build.py:TreeBuilder.__call__"]}
{"id": "C23", "title": "Tree building terminates or reports MaxLevelsExceeded", "statement": "The level loop ends after finitely many levels, and raises MaxLevelsExceeded rather than exceeding the level limit (e.g. for coincident particles).", "quantifier": "every particle set, every limit below the greatest 32-bit integer (at that limit an assertion can fail, shown separately)", "why_tests_cant": "termination.", "anchors": ["boxtree/tree_build.py:TreeBuilder.__call__", "boxtree/tree_build.py:MaxLevelsExceeded"]}
{"id": "C24", "title": "Pruning keeps exactly the non-empty boxes and the tree relation", "statement": "Pruning removes exactly the boxes without particles, keeps relative order and level grouping, and the parent/child relation among kept boxes is the old one under renumbering.", "quantifier": "every unpruned tree", "why_tests_cant": "index remapping through scans for every emptiness pattern.", "anchors": ["boxtree/tree_build_kernels.py:find_prune_indices_kernel", "boxtree/tree_build.py:TreeBuilder.__call__", "boxtree/tools.py:GappyCopyAndMapKernel"]}
{"id": "C25", "title": "Box flags agree with particle counts", "statement": "In a built tree a box is flagged as source (target) box iff it owns sources (targets) itself, and the has-source-child / has-target-child flags are set on every ancestor of a source / target box.", "quantifier": "every tree", "why_tests_cant": "all count patterns.", "anchors": ["boxtree/tree_build_kernels.py:BOX_INFO_KERNEL_TPL", "boxtree/tree.py:box_flags_enum"]}
{"id": "C26", "title": "Box bounding boxes are tight and contain all particles", "statement": "box_{source,target}_bounding_box of a box contains every source/target (with radius) in its subtree, and is the least such box that also contains the centers of the boxes of the subtree.", "quantifier": "every tree, positions and radii", "why_tests_cant": "bottom-up recursion over unbounded depth.", "anchors": ["boxtree/tree_build_kernels.py:BOX_EXTENTS_FINDER_TEMPLATE", "boxtree/tree_build.py:TreeBuilder.__call__"]}
{"id": "C27", "title": "Level-restricted trees are 2:1 balanced", "statement": "With kind=\"adaptive-level-restricted\", two adjacent leaves of the resulting tree differ by at most one level.", "quantifier": "every particle set", "why_tests_cant": "the balancing sweep interacts with further splitting; needs an invariant over the whole build.", "anchors": ["boxtree/tree_build_kernels.py:LEVEL_RESTRICT_TPL", "boxtree/tree_build.py:TreeBuilder.__call__"]}
{"id": "C28", "title": "Filtered target lists in user order are exact", "statement": "filter_target_lists_in_user_order lists, for each box, exactly the flagged user target ids of the targets owned by the box, in tree order.", "quantifier": "every tree and flag array", "why_tests_cant": "all flag patterns.", "anchors": ["boxtree/tree.py:ParticleListFilter.filter_target_lists_in_user_order"]}
{"id": "C29", "title": "Filtered target lists in tree order are exact", "statement": "filter_target_lists_in_tree_order returns the flagged targets in tree order and per-box ranges selecting exactly the flagged targets of each box.", "quantifier": "every tree and flag array", "why_tests_cant": "boundary cases of the compaction scan (empty boxes at the end, nothing flagged).", "anchors": ["boxtree/tree.py:ParticleListFilter.filter_target_lists_in_tree_order", "boxtree/tree_build_kernels.py:TREE_ORDER_TARGET_FILTER_SCAN_TPL"]}
{"id": "C30", "title": "Point sources are linked to their parent source's box", "statement": "link_point_sources orders point sources so that those of tree-order source i are contiguous, in user order, and per-box point source ranges contain exactly the point sources of the box's sources.", "quantifier": "every tree with source extents and every nondecreasing point_source_starts", "why_tests_cant": "sources without point sources, boxes without sources, last box.", "anchors": ["boxtree/tree.py:link_point_sources", "boxtree/tree_build_kernels.py:POINT_SOURCE_LINKING_SOURCE_SCAN_TPL"]}
{"id": "C31", "title": "Peer lists are exact", "statement": "The peer list of box b consists exactly of the boxes that are adjacent to (or overlap) b, at least as large as b, and none of whose children satisfies both, each once.", "quantifier": "every valid tree and box", "why_tests_cant": "found by a pruned walk over an arbitrarily deep tree.", "anchors": ["boxtree/area_query.py:PeerListFinder", "boxtree/area_query.py:PEER_LIST_FINDER_TEMPLATE"]}
{"id": "C32", "title": "Area queries find exactly the leaves touched by the ball", "statement": "AreaQueryBuilder returns for each ball exactly the leaf boxes whose closed box intersects the closed l-infinity ball, each once, for balls inside, overlapping or outside the bounding box.", "quantifier": "every tree whose particles lie in the unstretched bounding box, every ball center and radius", "why_tests_cant": "continuous positions; correctness depends on the choice of a guiding box and its peers.", "anchors": ["boxtree/area_query.py:AreaQueryBuilder", "boxtree/area_query.py:AREA_QUERY_WALKER_BODY", "boxtree/area_query.py:GUIDING_BOX_FINDER_MACRO"]}
{"id": "C33", "title": "Leaves-to-balls lookup is the transpose of the area query", "statement": "LeavesToBallsLookup lists ball i under leaf l iff l is in the area query result of ball i, each once.", "quantifier": "every area query result", "why_tests_cant": "CSR expansion by binary search followed by key-value sort, for all empty-list patterns.", "anchors": ["boxtree/area_query.py:LeavesToBallsLookupBuilder", "boxtree/area_query.py:STARTS_EXPANDER_TEMPLATE"]}
{"id": "C34", "title": "Space invader distances are exact", "statement": "SpaceInvaderQueryBuilder returns for each leaf the maximum l-infinity distance from its center to the centers of the balls touching it (0 if none), independent of the order of atomic updates.", "quantifier": "every ball set and every interleaving of the atomic max operations", "why_tests_cant": "interleavings of a data-parallel kernel.", "anchors": ["boxtree/area_query.py:SpaceInvaderQueryBuilder", "boxtree/area_query.py:SPACE_INVADER_QUERY_TEMPLATE"]}
{"id": "C35", "title": "The all-reduce communication pattern is consistent", "statement": "At each stage rank a lists b as sink iff b lists a as source; every rank sends to exactly one rank of the other half; after finitely many stages every rank is done, and the halves nest.", "quantifier": "every number of ranks and every rank", "why_tests_cant": "test runs a handful of rank counts.", "anchors": ["boxtree/tools.py:AllReduceCommPattern"]}
{"id": "C36", "title": "Multipole reduction is complete under every message schedule", "statement": "After communicate_mpoles, for every rank and every box whose multipole the rank uses, the rank holds exactly the sum of all ranks' contributions; the exchange never deadlocks.", "quantifier": "every number of ranks, every usage relation, every initial contribution, every interleaving of sends and receives", "why_tests_cant": "MPI schedules.", "anchors": ["boxtree/distributed/calculation.py:DistributedExpansionWranglerMixin.communicate_mpoles", "boxtree/tools.py:AllReduceCommPattern"]}
{"id": "C37", "title": "Work partition assigns every box to exactly one rank", "statement": "partition_work assigns each box to exactly one rank, each rank a contiguous run in depth-first order.", "quantifier": "every tree, cost vector and number of ranks not exceeding the number of boxes", "why_tests_cant": "skewed cost vectors.", "anchors": ["boxtree/distributed/partition.py:partition_work", "boxtree/distributed/partition.py:get_box_ids_dfs_order"]}
{"id": "C38", "title": "Box masks contain everything a rank needs", "statement": "get_box_masks: ancestor mask is exactly the strict ancestors of responsible boxes; the point source mask contains every box whose sources are used directly for responsible boxes; the multipole mask contains every box whose multipole is used.", "quantifier": "every tree, traversal and responsible set", "why_tests_cant": "fixpoint iteration over arbitrary trees.", "anchors": ["boxtree/distributed/partition.py:get_box_masks", "boxtree/distributed/partition.py:get_ancestor_boxes_mask"]}
{"id": "C39", "title": "Local trees hold exactly the masked particles", "statement": "construct_local_particles_and_lists keeps exactly the particles owned by masked boxes, in order; a masked box's local range holds the same particles as its global range, an unmasked box's is empty.", "quantifier": "every tree and mask", "why_tests_cant": "all mask patterns.", "anchors": ["boxtree/distributed/local_tree.py:construct_local_particles_and_lists"]}
{"id": "C40", "title": "Distributed FMM equals the shared-memory FMM", "statement": "For the constant kernel, potentials gathered on the root rank equal the shared-memory result for every target.", "quantifier": "every tree, partition into ranks, weights, message schedule; with the default _from_sep_smaller_min_nsources_cumul if targets have extent (otherwise false, shown separately)", "why_tests_cant": "needs C01, C36-C39 together for all partitions.", "anchors": ["boxtree/distributed/__init__.py:DistributedFMMRunner", "boxtree/distributed/calculation.py:DistributedExpansionWranglerMixin"]}
{"id": "C41", "title": "Translation classes encode the translation vector", "statement": "For every list 2 pair the normalized translation vector has entries in [-2n-1, 2n+1], its class is in range, equal classes on a level imply equal center differences, and the distance vector stored for the class equals target center minus source center.", "quantifier": "every valid tree, n_away, dimension, list 2 pair; default per-level numbering of the classes (with shared numbering the stored vector is that of level 0, shown separately)", "why_tests_cant": "all relative positions and levels.", "anchors": ["boxtree/translation_classes.py:TranslationClassesBuilder"]}
{"id": "C42", "title": "Rotation classes identify the angle to the last axis", "statement": "Two list 2 pairs get the same rotation class iff their translation vectors have the same angle to the last axis, and the stored angle is that angle.", "quantifier": "every set of used translation classes", "why_tests_cant": "all vectors and orders of discovery.", "anchors": ["boxtree/rotation_classes.py:RotationClassesBuilder"]}
{"id": "C43", "title": "Cost model counts the interactions performed", "statement": "With unit calibration, per-box costs of a stage summed over boxes equal the per-stage cost, and the direct/list 2/list 3/list 4 costs equal the number of interactions drive_fmm performs weighted by the per-level factors.", "quantifier": "every traversal and cost factors", "why_tests_cant": "two implementations of each count are only compared on samples.", "anchors": ["boxtree/cost.py:FMMCostModel", "boxtree/cost.py:_PythonFMMCostModel"]}
{"id": "C44", "title": "Calibration is the least-squares optimum", "statement": "estimate_calibration_params returns for each parameter the value minimizing the squared error between model and timing.", "quantifier": "every set of model results and timings", "why_tests_cant": "optimality over all parameter values.", "anchors": ["boxtree/cost.py:AbstractFMMCostModel.estimate_calibration_params"]}
{"id": "C45", "title": "Bounding box finder is exact for every reduction order", "statement": "BoundingBoxFinder returns the componentwise minimum and maximum of particle +- radius, independent of how the parallel reduction associates.", "quantifier": "every non-empty particle set and every reduction tree", "why_tests_cant": "reduction schedules.", "anchors": ["boxtree/bounding_box.py:BoundingBoxFinder"]}
{"id": "C46", "title": "Mask compression is exact", "statement": "MaskCompressorKernel turns a contiguous one-dimensional mask into the increasing list of set indices, and a matrix mask into the CSR list of set columns per row, for any strides; other dimensionalities are rejected.", "quantifier": "every mask", "why_tests_cant": "all masks.", "anchors": ["boxtree/tools.py:MaskCompressorKernel"]}
{"id": "C47", "title": "Inline binary search terminates and finds the segment", "statement": "bsearch on a sorted array returns the largest i with arr[i] <= val, or -1 if val is below all entries, and terminates.", "quantifier": "every non-empty sorted array and value", "why_tests_cant": "termination on all lengths and ties.", "anchors": ["boxtree/tools.py:BINARY_SEARCH_TEMPLATE"]}
{"id": "C48", "title": "Index helpers obey their laws", "statement": "reverse_index_array gives result[indices] == arange; GappyCopyAndMapKernel copies exactly the selected entries and maps them; realloc_array preserves the old prefix.", "quantifier": "every injective index array in range, every interleaving of the element-wise writes", "why_tests_cant": "all index arrays and write orders.", "anchors": ["boxtree/tools.py:reverse_index_array", "boxtree/tools.py:GappyCopyAndMapKernel", "boxtree/tools.py:realloc_array"]}
{"id": "C49", "title": "Particle-to-box lookup is right", "statement": "find_box_nr_for_source/target returns the unique box owning the given tree-order particle.", "quantifier": "every tree and particle index", "why_tests_cant": "all trees.", "anchors": ["boxtree/tree.py:Tree.find_box_nr_for_target", "boxtree/tree.py:Tree.find_box_nr_for_source"]}
{"id": "C50", "title": "Invalid tree building arguments are rejected", "statement": "TreeBuilder.__call__ raises exactly for the documented argument errors before building.", "quantifier": "every combination of arguments", "why_tests_cant": "combinations.", "anchors": ["boxtree/tree_build.py:TreeBuilder.__call__"]}
{"id": "C51", "title": "Box radii used by the kernels are exact at every level the builder can produce", "statement": "At every level l below the builder's level limit, the radius a traversal kernel uses for a level-l box is root_extent / 2^(l+1), so that adjacency tests on level l mean what they mean on level 0.", "quantifier": "every level up to the builder's limit, every root extent", "why_tests_cant": "tests never build trees anywhere near thirty levels deep.", "anchors": ["boxtree/traversal.py:TRAVERSAL_PREAMBLE_TYPEDEFS_AND_DEFINES", "boxtree/tree_build.py:TreeBuilder.__call__", "boxtree/translation_classes.py"]}
{"id": "C52", "title": "Built trees are well-formed", "statement": "Every tree returned by TreeBuilder is a well-formed box tree: box ids are below nboxes, box 0 is the root and covers the bounding box, parent and child pointers are inverse to each other, levels increase by one per generation, each child is the half-size sub-box of its parent at its Morton position, boxes are numbered level by level as level_start_box_nrs says.", "quantifier": "every particle set, kind, extents, refinement limit, pruned or not", "why_tests_cant": "invariant of an unbounded level loop with parallel scans followed by index remapping.", "anchors": ["boxtree/tree_build.py:TreeBuilder.__call__", "boxtree/tree_build_kernels.py:BOX_SPLITTER_KERNEL_TPL", "boxtree/tree_build_kernels.py:find_prune_indices_kernel"]}
{"id": "C53", "title": "From particles to potentials", "statement": "If TreeBuilder and FMMTraversalBuilder return for a particle set, the FMM driver run on their output with the constant-one wrangler gives, at every user target, the sum of the weights of all user sources.", "quantifier": "every particle set, tree kind, refinement limit, extents and traversal parameters", "why_tests_cant": "end-to-end composition of the tree builder's guarantees with what the traversal and driver assume.", "anchors": ["boxtree/tree_build.py:TreeBuilder.__call__", "boxtree/traversal.py:FMMTraversalBuilder.__call__", "boxtree/fmm.py:drive_fmm"]}
{"id": "C54", "title": "Parallel scans give one result", "statement": "The counts per box and child and the numbers of new boxes computed by TreeBuilder's parallel scans do not depend on how the device splits the particles or boxes into ranges and in which order it combines them; they are those of a sequential scan, including the saturating sum of refinement weights.", "quantifier": "every state of the level loop, every way to combine adjacent ranges", "why_tests_cant": "one device uses one way to combine ranges; the number of ways is exponential in the number of particles.", "anchors": ["boxtree/tree_build_kernels.py:scan_t_add", "boxtree/tree_build_kernels.py:SPLIT_BOX_ID_SCAN_TPL", "boxtree/tree_build_kernels.py:get_tree_build_kernel_info"]}
{"id": "C55", "title": "level_start_box_nrs is complete", "statement": "level_start_box_nrs of a built tree begins with 0, never decreases and ends (entry nlevels) with the number of boxes, and every level below nlevels has at least one box.", "quantifier": "every particle set, tree kind and refinement limit for which TreeBuilder returns", "why_tests_cant": "wrong counts need a level on which no particle fits into any box.", "anchors": ["boxtree/tree_build.py:TreeBuilder.__call__", "boxtree/tree.py:Tree.level_start_box_nrs"]}
{"id": "C56", "title": "Documented calls of TreeBuilder", "statement": "A call of TreeBuilder that meets the documented conditions on its arguments (shapes, dtypes, kind, norm, limit, non-negative radii; a square bounding box with no particle on its upper faces, or none and not all particles in one point) either returns a tree or raises MaxLevelsExceeded; the tree has exactly the user's sources and targets in the orders given by user_source_ids and sorted_target_ids, and the FMM on it delivers the sum of all source weights to every target.", "quantifier": "every documented call: all particle positions, radii, kinds, norms, limits and bounding boxes", "why_tests_cant": "the checks, the bounding box and the level loop interact; the space of arguments is unbounded.", "anchors": ["boxtree/tree_build.py:TreeBuilder.__call__", "boxtree/bounding_box.py:BoundingBoxFinder"]}
{"id": "C57", "title": "From particles to potentials on many ranks", "statement": "If TreeBuilder returns a tree, its boxes are partitioned among MPI ranks such that every rank gets some, and the distributed FMM runs until no rank can go on, then the root rank has, at every user target, the sum of the weights of all user sources; a run that cannot go on is always reached.", "quantifier": "every particle set, cost vector, number of ranks, order of events and message delay", "why_tests_cant": "composition of tree, partition, local trees and asynchronous reduction; schedules cannot be enumerated.", "anchors": ["boxtree/distributed/__init__.py:DistributedFMMRunner", "boxtree/distributed/partition.py:partition_work", "boxtree/distributed/local_tree.py:generate_local_tree", "boxtree/distributed/calculation.py:DistributedExpansionWranglerMixin.communicate_mpoles", "boxtree/tree_build.py:TreeBuilder.__call__"]}
{"id": "C58", "title": "The pyfmmlib wrangler computes the potentials of all sources", "statement": "drive_fmm with FMMLibExpansionWrangler returns, at every target in user order, the scaled sum over all sources of the potential of that source, if each library routine does what it should for the boxes, centers, scalings and orders it is called with; every routine is called only between boxes between which an FMM may translate; the slots of different boxes in the flat expansion arrays are disjoint for every choice of orders per level; rotation data of the traversal leads to the right angle for every list 2 entry.", "quantifier": "every tree, traversal, set of orders per level, kernel, strengths, dipole directions, with and without rotation data", "why_tests_cant": "offsets, level views, scalings and orders interact with tree shape; tests compare a few particle clouds up to a tolerance.", "anchors": ["boxtree/pyfmmlib_integration.py:FMMLibExpansionWrangler", "boxtree/pyfmmlib_integration.py:FMMLibRotationData", "boxtree/fmm.py:drive_fmm"]}
{"id": "C59", "title": "Memory cutoff for rotation matrices", "statement": "The rotation matrices precomputed by the pyfmmlib wrangler have an estimated size below optimized_m2l_precomputation_memory_cutoff_bytes, and they are used for exactly those levels for whose order the estimate is below the cutoff.", "quantifier": "every choice of orders per level, number of angles and cutoff", "why_tests_cant": "memory limits are not exercised by tests; large orders are too expensive to run.", "anchors": ["boxtree/pyfmmlib_integration.py:FMMLibExpansionWrangler.m2l_rotation_matrices", "boxtree/pyfmmlib_integration.py:FMMLibExpansionWrangler.multipole_to_local"]}
{"id": "C60", "title": "The FMM error is the sum of the errors of one translation chain per source", "statement": "For every library with linear routines the potential at a target is a sum with exactly one summand per source, computed from that source alone by a chain of calls between boxes between which an FMM may translate; hence if every such chain is accurate to eps(i, j), the potential at target i is accurate to the sum of eps(i, j) over all sources j.", "quantifier": "every tree, traversal, linear library, orders per level, strengths and bound per chain", "why_tests_cant": "tests sample the total error of some clouds; they cannot show that no source is translated along a chain outside the error analysis.", "anchors": ["boxtree/fmm.py:drive_fmm", "boxtree/pyfmmlib_integration.py:FMMLibExpansionWrangler", "boxtree/traversal.py:FMMTraversalBuilder"]}
{"id": "C61", "title": "From the user's arrays to potentials with the pyfmmlib wrangler", "statement": "If the tree is built by a documented call of TreeBuilder in two or three dimensions and traversal and pyfmmlib wrangler are made for it, drive_fmm returns at every target of the user, in the user's order, the scaled sum of the potentials of the user's sources at their positions with their strengths and dipole directions, exactly for an exact library and up to the sum of the chain errors for a linear one.", "quantifier": "every documented call, strengths, dipole directions, traversal parameters and library", "why_tests_cant": "composition of argument handling, tree construction, permutation, traversal, storage and translation over an unbounded space of inputs.", "anchors": ["boxtree/tree_build.py:TreeBuilder.__call__", "boxtree/traversal.py:FMMTraversalBuilder.__call__", "boxtree/fmm.py:drive_fmm", "boxtree/pyfmmlib_integration.py:FMMLibExpansionWrangler"]}
{"id": "C62", "title": "The distributed FMM with the pyfmmlib wrangler returns the shared-memory result", "statement": "With DistributedFMMLibExpansionWrangler on every rank, every finished run of the distributed FMM returns on the root, at every target in the user's order, what drive_fmm with FMMLibExpansionWrangler returns on the whole tree when the library is exact, namely the scaled sum of the potentials of all sources; with a linear library the error is at most the sum of the errors of one translation chain per source. The same holds with Allreduce instead of the point-to-point reduction.", "quantifier": "every tree, distribution of the boxes, number of ranks, order of progress and messages, library, orders per level, strengths and dipole directions", "why_tests_cant": "schedules, distributions and trees are unbounded, and a dropped or doubled partial expansion shows only for some of them.", "anchors": ["boxtree/distributed/calculation.py:DistributedFMMLibExpansionWrangler", "boxtree/distributed/calculation.py:DistributedExpansionWrangler", "boxtree/pyfmmlib_integration.py:FMMLibExpansionWrangler", "boxtree/fmm.py:drive_fmm"]}
{"id": "C63", "title": "From the user's arrays to potentials with pyfmmlib on many ranks", "statement": "If the tree is built by a documented call of TreeBuilder in two or three dimensions, its boxes are distributed with partition_work, and every rank makes local tree, traversal and pyfmmlib wrangler, then every run of the distributed FMM ends and the root returns at every target of the user, in the user's order, the scaled sum of the potentials of the user's sources, exactly for an exact library and up to the sum of the chain errors for a linear one.", "quantifier": "every documented call, cost estimate, number of ranks, order of progress and messages, strengths, dipole directions and library", "why_tests_cant": "composition of tree construction, partitioning, local trees, traversal, translation and reduction over unbounded inputs and schedules.", "anchors": ["boxtree/tree_build.py:TreeBuilder.__call__", "boxtree/distributed/partition.py:partition_work", "boxtree/distributed/local_tree.py:generate_local_tree", "boxtree/distributed/calculation.py:DistributedFMMLibExpansionWrangler", "boxtree/fmm.py:drive_fmm"]}
{"id": "C64", "title": "Tree building with rounding", "statement": "If the coordinate arithmetic of the tree builder rounds (single or double precision), every source and target is in the cube of each box whose range contains it up to a few units of roundoff of the coordinates, and its ball is in the box enlarged by the stick-out factor up to a few such units, in the maximum and the Euclidean norm.", "quantifier": "every documented call (particles, radii, kinds, norms), every precision and every rounding with the relative error of the precision", "why_tests_cant": "rounding goes wrong for particular coordinates only (far from the origin, at box faces); tests sample coordinates near the origin.", "anchors": ["boxtree/tree_build.py:TreeBuilder.__call__", "boxtree/tree_build_kernels.py:MORTON_NR_SCAN_PREAMBLE_TPL"]}
{"id": "C65", "title": "Traversal with rounding", "statement": "If the traversal kernels round (single or double precision: box centers, radii, adjacency and separation tests) and the radius of the smallest box is greater than a few rounding errors of the coordinates per level, then every source box reaches every target box along exactly one path, near-neighbour lists, list 1 and list 2 (for targets without extent all lists) are those of exact arithmetic, and the boxes in list 3 and list 4 are separated from the targets as with exact arithmetic up to a tolerance smaller than the smallest box. If boxes are as small as the spacing of the floating point numbers, pairs can be lost.", "quantifier": "every tree of that size, stick-out factor, separation parameter, list-3 criterion, precision and rounding with the relative error of the precision", "why_tests_cant": "rounding flips the decision of a geometric test for particular box positions and levels only; tests use boxes near the origin.", "anchors": ["boxtree/traversal.py:TRAVERSAL_PREAMBLE_MAKO_DEFS_TPL", "boxtree/traversal.py:SEP_SMALLER_LIST_TEMPLATE", "boxtree/traversal.py:SEP_BIGGER_LIST_TEMPLATE", "boxtree/tree_build_kernels.py:BOX_SPLITTER_KERNEL_TPL"]}
{"id": "C66", "title": "The guessed number of boxes does not matter", "statement": "The tree builder returns the same tree (or raises the same error) whatever it guesses the number of boxes to be: growing the arrays, reserving room on levels for boxes that level restriction splits later, and moving and renumbering all boxes change nothing in the result, no kernel accesses an entry outside its array, and the attempts end.", "quantifier": "every documented call and kind of tree, every positive length of the arrays at the beginning (nboxes_guess), every number of levels that level restriction leaves room for (lr_lookbehind)", "why_tests_cant": "reallocation and renumbering happen on particular levels for particular particle distributions; a test covers one guess and a few clouds, and a stale index or a missed array shows only if a renumbering happens at the right moment.", "anchors": ["boxtree/tree_build.py:TreeBuilder.__call__", "boxtree/tools.py:realloc_array", "boxtree/tools.py:GappyCopyAndMapKernel", "boxtree/tree_build_kernels.py:SPLIT_BOX_ID_SCAN_TPL"]}
{"id": "C67", "title": "Translation and rotation classes with rounding", "statement": "If the device finds the translation classes from stored box centers with rounding and the radius of the smallest box is greater than a few rounding errors of the coordinates per level, the builder of translation classes succeeds, the classes and rotation classes are those of exact arithmetic, and the distance vector stored for a class is that of each of its pairs up to four roundings (up to the errors of the stored centers if it is compared with these).", "quantifier": "every tree of that size, separation parameter and traversal, every precision and rounding with the relative error of the precision, host and device rounding differently", "why_tests_cant": "a wrong class needs a quotient near a half integer, which needs deep trees far from the origin.", "anchors": ["boxtree/translation_classes.py:TRANSLATION_CLASS_FINDER_PREAMBLE_TEMPLATE", "boxtree/translation_classes.py:TranslationClassesBuilder.__call__", "boxtree/rotation_classes.py:RotationClassesBuilder.__call__"]}
{"id": "C68", "title": "Area queries with rounding", "statement": "If peer lists, area queries, leaves-to-balls lookups and space invader queries are computed in floating point arithmetic on a tree whose smallest boxes are larger than a few rounding errors of the coordinates per level, and whose stretched margin is larger than rounding errors, then the peer lists are exact, every leaf box that meets a ball with a slightly smaller radius is found, every leaf box found meets a ball with a slightly larger radius, none is listed twice, and the space invader distances are those of such balls up to the same tolerance (a few rounding errors per level of the coordinates and of the radius).", "quantifier": "every tree of that size, list of balls with non-negative radii anywhere in space, precision and rounding with the relative error of the precision, order of the atomic updates", "why_tests_cant": "a query goes wrong where a clamped coordinate rounds to the other side of a box face; random balls hardly ever do this", "anchors": ["boxtree/area_query.py:GUIDING_BOX_FINDER_MACRO", "boxtree/area_query.py:AREA_QUERY_WALKER_BODY", "boxtree/area_query.py:PEER_LIST_FINDER_TEMPLATE", "boxtree/area_query.py:SPACE_INVADER_QUERY_TEMPLATE", "boxtree/traversal.py:HELPER_FUNCTION_TEMPLATE"]}
{"id": "C69", "title": "Area queries on built trees", "statement": "On every tree that a documented call of the tree builder returns, peer lists, area queries, leaves-to-balls lookups and space invader queries are exact (up to rounding tolerances if both the builder and the queries round): an area query lists for each ball exactly the leaf boxes that meet it, so that without extents every source and target inside a ball is in one of the listed boxes.", "quantifier": "every documented call (particles, radii, weights, limits, bounding box, mode) that returns a tree, every list of balls with non-negative radii anywhere in space, order of the atomic updates, rounding", "why_tests_cant": "the queries rely on flags and on the position of particles in boxes that depend on the whole history of the tree build; trees whose flags mislead the query need particular modes and particle sizes", "anchors": ["boxtree/tree_build.py:TreeBuilder.__call__", "boxtree/tree_build_kernels.py:BOX_INFO_KERNEL_TPL", "boxtree/area_query.py:AreaQueryBuilder", "boxtree/area_query.py:LeavesToBallsLookupBuilder", "boxtree/area_query.py:SpaceInvaderQueryBuilder", "boxtree/area_query.py:PeerListFinder"]}
{"id": "C70", "title": "Stored box centers and bounding boxes with rounding", "statement": "If the arithmetic of the tree builder rounds and the smallest boxes are large compared with rounding errors, the returned box centers are within a few units of roundoff per level of the exact centers, the returned source and target bounding boxes of each box are the least boxes around the rounded particle extents and box centers of its subtree and are within the same error of the exact ones (equal without rounding), and list 3 of a traversal built from these arrays is separated from every target with its radius up to a tolerance smaller than the smallest box.", "quantifier": "every particle set, kind, norm, precision and rounding with the relative error of the precision, every box and axis", "why_tests_cant": "errors accumulate along the path of a box through the levels and depend on the position of the root box; tests sample few positions.", "anchors": ["boxtree/tree_build_kernels.py:BOX_SPLITTER_KERNEL_TPL", "boxtree/tree_build_kernels.py:BOX_EXTENTS_FINDER_TEMPLATE", "boxtree/tree_build.py:TreeBuilder.__call__", "boxtree/traversal.py:SEP_SMALLER_LIST_TEMPLATE"]}
{"id": "C71", "title": "From a call to potentials with rounding", "statement": "If the arguments of the tree builder are as documented and every step of the tree builder and of the traversal builder rounds as floating point numbers do, the potentials of the FMM on the resulting tree and traversal contain every source exactly once at every target, and list 3 is separated from each target with its radius, as long as the smallest boxes are large compared with rounding errors; for automatic bounding boxes it is enough that the spread of the particles exceeds a multiple of levels times 2^levels times the unit roundoff times the largest coordinate.", "quantifier": "every documented call (particles, radii, weights, limits, bounding box, kind, norm), every rounding with the relative error of the precision, every order of child boxes, weights and target", "why_tests_cant": "errors of the bounding box, Morton numbers, centers and tests combine; tests use few well-placed particle sets in one precision.", "anchors": ["boxtree/tree_build.py:TreeBuilder.__call__", "boxtree/traversal.py:FMMTraversalBuilder.__call__", "boxtree/fmm.py:drive_fmm"]}
{"id": "C72", "title": "Storage of the interaction lists is linear", "statement": "For particles without radii, the tree has at most as many boxes per level as there are particles, and the interaction lists together have at most a constant (depending on dimension and separation parameter only) times levels times particles entries, for every distribution of the particles. Near neighbours, list 2 and list 4 of every box, and list 1 of every box of a level-restricted tree, have at most a fixed number of entries (e.g. 27 boxes in list 2 and 13 in list 1 in two dimensions).", "quantifier": "every documented call without radii that prunes empty boxes, every distribution of particles, every well_sep_is_n_away", "why_tests_cant": "tests measure list sizes for a few distributions; the bound has to hold for adversarial clustering.", "anchors": ["boxtree/traversal.py:FMMTraversalBuilder.__call__", "boxtree/traversal.py:FMMTraversalInfo", "boxtree/tree_build.py:TreeBuilder.__call__"]}
{"id": "C73", "title": "The tree does not depend on the order of the particles", "statement": "If the same particles, with their radii and refine weights, are given to the tree builder in another order (sources still being sources), the tree is the same: same boxes, parents, children, levels, centers, flags and bounding boxes, the same number of particles in each box, and each source and target is in the same boxes as before. An exception is raised for one order if and only if it is raised for the other.", "quantifier": "every documented call, every permutation of the sources and of the targets, every rounding", "why_tests_cant": "tests use one order per random seed; there are n! orders, and the parallel scans combine particles in an order of their own.", "anchors": ["boxtree/tree_build.py:TreeBuilder.__call__", "boxtree/tree_build_kernels.py:MORTON_NR_SCAN_PREAMBLE_TPL", "boxtree/tree_build_kernels.py:PARTICLE_RENUMBERER_KERNEL_TPL", "boxtree/bounding_box.py"]}
{"id": "C74", "title": "Boxes are split only where needed", "statement": "In an adaptive tree a box has children only for a reason: without level restriction the particles in its children exceed the limit together; with level restriction this is so for the box or for a smaller box within three times its size. For points the adaptive tree without level restriction is thereby determined: a particle has a box on a level exactly if the particles in its cell of the level above exceed the limit. In every kind of tree, some box of the last but one level exceeds the limit, so there is no level without need.", "quantifier": "every input, every kind of tree, every limit and weights, every rounding", "why_tests_cant": "tests check upper limits of leaves on sample distributions; a tree that is too fine passes all of them, and gives right potentials.", "anchors": ["boxtree/tree_build.py:TreeBuilder.__call__", "boxtree/tree_build_kernels.py:SPLIT_BOX_ID_SCAN_TPL", "boxtree/tree_build_kernels.py:LEVEL_RESTRICT_TPL"]}
{"id": "C75", "title": "Non-adaptive trees have all leaves on the last level", "statement": "With kind=\"non-adaptive\" and particles without radii, a box of the tree is a leaf exactly if it is on the last level, and the refine weight of every leaf is at most the limit.", "quantifier": "every input without radii, pruned or not, every limit and weights, every rounding", "why_tests_cant": "tests look at a few random distributions; the uniform depth must hold for every clustering of the particles.", "anchors": ["boxtree/tree_build.py:TreeBuilder.__call__", "boxtree/tree_build_kernels.py:SPLIT_BOX_ID_SCAN_TPL"]}
{"id": "C76", "title": "The adaptive tree is the coarsest one that is possible", "statement": "For points, consider all trees over the bounding box of the particles in which every box has all its children or none, the particles of a leaf do not exceed the limit together, and (with kind=\"adaptive-level-restricted\") leaves that touch differ by at most one level. The tree that is built without pruning is one of them. Every box that the built tree splits, pruned or not, is split in each of them, so that none of them has fewer boxes.", "quantifier": "every set of points, weights and limit, with and without level restriction and pruning, every competing tree; exact arithmetic", "why_tests_cant": "a statement about all other trees; the level restriction kernel marks boxes in several passes, and a pass that marks one box too many still gives a balanced tree.", "anchors": ["boxtree/tree_build.py:TreeBuilder.__call__", "boxtree/tree_build_kernels.py:LEVEL_RESTRICT_TPL", "boxtree/tree_build_kernels.py:SPLIT_BOX_ID_SCAN_TPL"]}
{"id": "C77", "title": "Tree building is backward stable under rounding", "statement": "For points, with particles a few rounding errors away from the upper faces of the bounding box (and, with level restriction, boxes that are large compared with rounding errors): the tree that is built in floating point arithmetic is the tree that would be built in exact arithmetic for points that differ from the given ones by at most five rounding errors of the bounding box, with the same particles in each box in the same order. In particular it is the coarsest possible tree for these points. For the given points themselves the exact tree can be another one.", "quantifier": "every set of points, every rounding with a bounded relative error (any precision), weights, limits, kinds, with and without pruning", "why_tests_cant": "Tests compare with coordinates that are themselves rounded; that rounding can do nothing worse than moving the points is a statement about all inputs and all roundings.", "anchors": ["boxtree/tree_build_kernels.py: MORTON_NR_SCAN_PREAMBLE_TPL", "boxtree/tree_build_kernels.py: LEVEL_RESTRICT_TPL", "boxtree/tree_build.py: TreeBuilder.__call__"]}
{"id": "C78", "title": "Calibrated cost models: documented formulas, linear, monotone, recoverable", "statement": "For a traversal, one order per level and a dictionary of calibration parameters, cost_per_stage and cost_per_box with the pde-aware or the Taylor model give the costs of the documented formulas: (p+1)^(dim-1) or (p+1)^dim coefficients on a level of order p, products for translations, point-and-shoot for spherical harmonics in three dimensions ((p+1)^3+(p+1)(q+1)^2+(q+1)^3). No table of costs is read out of bounds. Each stage costs its calibration parameter times its cost with unit parameters. Larger orders and parameters make no stage cheaper. The entries that a call leaves in the dictionary of the caller do not change any later result. A call succeeds exactly if an order is given for each level and the parameters are there (those for translations between levels only if there are two levels). If the times are those of the model for some parameters, estimate_calibration_params returns these parameters for all stages that occur.", "quantifier": "all well-formed trees with a traversal, particle counts, orders, dictionaries, both factories, all dimensions; calibration: any number of runs", "why_tests_cant": "A test compares a few calls with precomputed numbers; that the evaluated symbolic expressions, the bounds of the level tables, leftovers in the dictionary and the calibration fit together is a statement about all trees, orders and parameters.", "anchors": ["boxtree/cost.py: FMMTranslationCostModel", "boxtree/cost.py: make_pde_aware_translation_cost_model", "boxtree/cost.py: make_taylor_translation_cost_model", "boxtree/cost.py: AbstractFMMCostModel.fmm_cost_factors_for_kernels_from_model", "boxtree/cost.py: AbstractFMMCostModel.cost_per_stage", "boxtree/cost.py: AbstractFMMCostModel.cost_per_box", "boxtree/cost.py: AbstractFMMCostModel.estimate_calibration_params"]}
{"id": "C79", "title": "The work of an FMM is linear in particles and boxes", "statement": "For particles without radii and max_particles_in_box=m, with kind 'adaptive' or 'adaptive-level-restricted', the modelled cost of each FMM stage is at most the cost C of the most expensive operation times: nsources (forming multipoles), nboxes (coarsening, refining), m^2 * 2*3^d * nboxes (direct evaluation), ((4n+2)^d-(2n+1)^d) * nboxes (multipole to local), m*(2n+1)^d * nboxes (evaluating multipoles), m*((2n+2)^d-3^d) * nboxes (forming locals), ntargets (evaluating locals), where d is the dimension and n the well-separatedness parameter. So the whole FMM costs at most C*(nsources + ntargets + const(d,n,m)*nboxes), for any distribution of particles, and a pruned tree has at most nlevels*(nsources+ntargets) boxes.", "quantifier": "all documented calls of the tree builder without radii, all particle distributions, dimensions, limits, well-separatedness parameters, translation costs", "why_tests_cant": "Complexity bounds are about all distributions, in particular clustered ones that no test has; a test measures a few.", "anchors": ["boxtree/cost.py: AbstractFMMCostModel.cost_per_stage", "boxtree/tree_build.py: TreeBuilder.__call__", "boxtree/traversal.py: FMMTraversalBuilder.__call__", "boxtree/fmm.py: drive_fmm"]}
{"id": "C80", "title": "The FMM converges geometrically with the expansion order", "statement": "For the kernel w/(y-x) of the complex plane (the field of a dipole of the Laplace kernel) and expansions that are truncated Laurent and Taylor series of order at least p on every level, the potentials of drive_fmm with the pyfmmlib wrangler on a tree in two dimensions differ from the sum over all sources by at most 12*(sqrt(2)/2)^(p+1) times the sum of the absolute values of the contributions, at every target; and by at most 18*(4/5)^(p+1) times that sum if particles lie outside of their boxes by up to an eighth of the radius, as with rounding in the tree builder. The bound depends neither on the number of particles nor on the depth of the tree nor on the number of translations; so for every accuracy there is one order that works for all particles.", "quantifier": "all trees whose boxes hold their particles and all traversals made for them, in particular those of the documented two-dimensional calls (other than kind='adaptive-level-restricted' with radii, see C20); all source strengths, orders (varying with the level), scaling factors and well-separatedness parameters", "why_tests_cant": "A test measures the error for a few distributions and orders; that no distribution and no depth is worse than the worst separation of boxes is a statement about all of them.", "anchors": ["boxtree/pyfmmlib_integration.py: FMMLibExpansionWrangler", "boxtree/traversal.py: FMMTraversalBuilder.__call__", "boxtree/fmm.py: drive_fmm", "boxtree/tree_build.py: TreeBuilder.__call__"]}
{"id": "C81", "title": "A particle of the user can be followed to its box", "statement": "On the tree of a documented call, indices_to_tree_source_order and indices_to_tree_target_order turn an array of the user's particle numbers (negative ones count from the end) into the numbers under which the tree holds exactly these particles, and raise IndexError exactly when a number is invalid. find_box_nr_for_source and find_box_nr_for_target then return without error the only box whose own particles include that particle, and get_box_extent of this box contains the particle.", "quantifier": "all documented calls of the tree builder, all arrays of particle numbers, all particles", "why_tests_cant": "The conversion goes through the inverse of the sorting permutation, and the lookup fails if a particle belongs to no box or to two; a test sees the permutations and trees it happens to generate.", "anchors": ["boxtree/tree.py: Tree.indices_to_tree_source_order", "boxtree/tree.py: Tree.indices_to_tree_target_order", "boxtree/tree.py: Tree._reverse_index_lookup", "boxtree/tree.py: Tree.find_box_nr_for_source", "boxtree/tree.py: Tree.find_box_nr_for_target", "boxtree/tree.py: Tree.get_box_extent"]}
{"id": "C82", "title": "Results move between host and device without loss", "statement": "For the trees, traversals, local trees, area-query results, translation and rotation classes of boxtree, to_numpy (and freeze, with which the builders end) succeeds on every object whose array fields hold device arrays, scalars or None, at any nesting depth (object arrays of axes, one list per level, the tree inside of the traversal). The result has at every place what the argument has there, with device arrays replaced by host arrays; absent arrays stay None and all other fields are the same. from_numpy of the result gives back the original contents. TypeError is raised exactly if an array field holds something else, for instance an array that is on the other side already. Every field annotated as array or container, optional or not, is transferred, with the exception of the pair bounding_box.", "quantifier": "all objects of the container classes, of all nesting depths, shapes and contents", "why_tests_cant": "A test converts a few objects and looks at a few of their fields; a field that is forgotten, or an optional one that is present only with extents, goes unnoticed.", "anchors": ["boxtree/array_context.py: _boxtree_rec_map_container", "boxtree/array_context.py: dataclass_array_container", "boxtree/array_context.py: serialize_built_list", "boxtree/array_context.py: deserialize_built_list", "boxtree/tree.py: Tree", "boxtree/traversal.py: FMMTraversalInfo"]}
{"id": "C83", "title": "Outputs of the pyfmmlib wrangler with and without gradients", "statement": "With ifgrad=False, drive_fmm with the pyfmmlib wrangler returns one array of potentials, the same as in the properties about exactness and convergence, and no indexing of the output array fails. With ifgrad=True gradients cannot be had: on every tree with a target the run ends with IndexError in the first evaluation, so that no wrong numbers are returned.", "quantifier": "all trees, traversals, kernels, expansion libraries and weights; in particular after all documented calls of the tree builder", "why_tests_cant": "The tests of the repository never use gradients; one run with an error does not show that there is no input for which gradients work.", "anchors": ["boxtree/pyfmmlib_integration.py: FMMLibExpansionWrangler.output_zeros", "boxtree/pyfmmlib_integration.py: FMMLibExpansionWrangler.add_potgrad_onto_output", "boxtree/pyfmmlib_integration.py: FMMLibExpansionWrangler.reorder_potentials", "boxtree/fmm.py: drive_fmm"]}
{"id": "C84", "title": "The FMM for charges in two dimensions converges geometrically", "statement": "For real charges and the kernel -1/(2 pi) log|y-x|, Green's function of the Laplace operator in the plane, and the textbook multipole and local expansions of order at least p on every level, the potentials that drive_fmm returns with the pyfmmlib wrangler (after its scaling and real part) differ from the potential of the charges by at most 1.1*(sqrt(2)/2)^(p+1)/(p+1) times the sum of the absolute values of the charges, at every target in the user's order; and by at most 1.6*(4/5)^(p+1)/(p+1) times that sum with rounding in the tree builder. The distributed FMM converges at the same rate. The bound depends neither on the number or place of the particles nor on the depth of the tree nor on the number of translations.", "quantifier": "all trees whose boxes hold their particles and all traversals made for them, in particular those of the documented two-dimensional calls (other than kind='adaptive-level-restricted' with radii, see C20); all charges, orders (varying with the level), scaling factors and well-separatedness parameters; for the distributed FMM all partitions and schedules", "why_tests_cant": "A test measures the error for a few distributions and orders; that no distribution, depth or chain of translations is worse than the worst separation of boxes is a statement about all of them.", "anchors": ["boxtree/pyfmmlib_integration.py: FMMLibExpansionWrangler, finalize_potentials", "boxtree/traversal.py: FMMTraversalBuilder.__call__", "boxtree/fmm.py: drive_fmm", "boxtree/tree_build.py: TreeBuilder.__call__", "boxtree/distributed/calculation.py: DistributedFMMLibExpansionWrangler"]}
{"id": "C85", "title": "Exports and plots of trees and interaction lists show the right boxes", "statement": "For every two-dimensional tree get_tikz_for_tree writes for each box, in order, its corners, center, side length and level, under macro names that consist of letters and are pairwise different: int_to_roman(n), computed with division in double precision, is the Roman numeral that reads as n. (Trees with more than 4000 boxes raise ValueError.) draw_box draws the square about the center of the box scaled by one minus the shrink factor. For every traversal and box, draw_box_lists succeeds and fills exactly the boxes on list 1 in green, on list 2 in blue, on list 3 of all levels in orange, on list 4 in purple, and those on the close lists hatched; a box without such a list is outlined.", "quantifier": "all trees, box numbers, traversals of trees with consistent flags, boxes and shrink factors", "why_tests_cant": "The tests of the repository do not look at plots or exports; that no two of thousands of macro names collide, that truncated floating point quotients never lose a unit, and that the lookup of the row of a box is right for every list concern all box numbers and traversals.", "anchors": ["boxtree/visualization.py: int_to_roman, TreePlotter.get_tikz_for_tree, TreePlotter.draw_box, draw_box_lists, _draw_box_list, draw_same_level_non_well_sep_boxes", "boxtree/tree.py: TreeOfBoxes.get_box_extent"]}
{"id": "C86", "title": "The pyfmmlib wrangler accepts exactly the documented arguments and computes with what they say", "statement": "For every tree and every combination of arguments, FMMLibExpansionWrangler can be constructed iff the kernel is Laplace without a wave number or Helmholtz with a nonzero one, the dimension of the kernel is that of the tree, exactly one of order and fmm_level_to_order is given with values that fit 32 bits, and dipole vectors, if given, have one column per source; all other combinations raise. A constructed wrangler uses the order asked for on each level, a positive scaling factor (the modulus of the wave number for Helmholtz), dipole vectors matched to the sources they were given for whether or not they were already reordered, and warns exactly when order is used or rotation data is missing in three dimensions. order=p is the same as fmm_level_to_order=lambda tree, l: p.", "quantifier": "all trees with at least one level, kernels, wave numbers, orders, level-to-order functions, dipole arrays and flags", "why_tests_cant": "The checks interact (kernel, wave number, two ways to give orders, dipoles in two orders); the tests construct a handful of valid wranglers and never the invalid combinations.", "anchors": ["boxtree/pyfmmlib_integration.py: FMMLibTreeIndependentDataForWrangler.__init__, FMMLibExpansionWrangler.__init__, level_to_rscale"]}
{"id": "C87", "title": "Errors reported by the expansion library are never lost", "statement": "Whatever calls of the Fortran library report an error: if drive_fmm returns, it returns the potentials of the run in which no call fails, and if no call fails it returns. A failure to form the multipole expansion of a source box or a local expansion from list 4, and in three dimensions a failing translation between levels or along list 2, a rotation matrix that cannot be computed, or a failing evaluation at a single target of a list 3 or local expansion, makes drive_fmm raise.", "quantifier": "all trees, traversals, weights, libraries and all sets of failing calls", "why_tests_cant": "The library does not fail on the inputs of the tests; an error code that is dropped in one of the vectorized wrappers would give silently wrong potentials.", "anchors": ["boxtree/pyfmmlib_integration.py: get_translation_routine, get_vec_expn_eval, form_multipoles, form_locals, m2l_rotation_matrices, multipole_to_local", "boxtree/fmm.py: drive_fmm"]}
{"id": "C88", "title": "The tree does not depend on the schedule of the kernels", "statement": "TreeBuilder returns the same tree however the device orders and interleaves the work items of its kernels (box splitter, particle renumberer, level restriction, source and target index finder, reversal of the index array, box extents finder): no work item loads what another one stores in the same launch, and two work items that store to the same place store the same value.", "quantifier": "all inputs, all lengths of the arrays, and all interleavings of the loads and stores of all work items in every launch", "why_tests_cant": "A test sees the order that one device happens to use; a race shows up on other devices or at random.", "anchors": ["boxtree/tree_build.py: TreeBuilder.__call__", "boxtree/tree_build_kernels.py: BOX_SPLITTER_KERNEL_TPL, PARTICLE_RENUMBERER_KERNEL_TPL, LEVEL_RESTRICT_TPL, SOURCE_AND_TARGET_INDEX_FINDER, BOX_EXTENTS_FINDER_TEMPLATE", "boxtree/tools.py: reverse_index_array"]}
{"id": "C89", "title": "Bounding boxes of boxes and the order of the launches", "statement": "The bounding boxes of the sources and of the targets of each box that TreeBuilder returns do not depend on the order in which the command queue runs the launches that find them, as long as each launch starts after those whose events it waits for, and they are complete when the event returned by TreeBuilder is.", "quantifier": "all inputs, all orders of the launches that respect the events passed to them, all interleavings of the work items in a launch", "why_tests_cant": "Tests use in-order queues, which hide a missing event.", "anchors": ["boxtree/tree_build.py: TreeBuilder.__call__ (box extents, wait_for)", "boxtree/tree_build_kernels.py: BOX_EXTENTS_FINDER_TEMPLATE"]}
{"id": "C90", "title": "Local trees, translation classes and level starts for every schedule", "statement": "The local tree of a rank (box masks, kept particles, counts and flags), the translation classes of a traversal (or the error that they cannot be found) and its level start arrays are the same for every order in which the device runs the work items of the kernels that compute them, although work items store in shared cells.", "quantifier": "all trees, traversals, responsible boxes and particles; all interleavings of the work items of every launch", "why_tests_cant": "A test sees the schedules of one device.", "anchors": ["boxtree/distributed/partition.py: get_box_masks, GetBoxMasksCodeContainer", "boxtree/distributed/local_tree.py: generate_local_tree, construct_local_particles_and_lists", "boxtree/translation_classes.py: TranslationClassesBuilder.__call__, TRANSLATION_CLASS_FINDER_TEMPLATE", "boxtree/traversal.py: LEVEL_START_BOX_NR_EXTRACTOR_TEMPLATE"]}
{"id": "C91", "title": "Looking up the list of a box", "statement": "FMMTraversalInfo.get_box_list(what, i) returns the i-th list of the kind named for every kind that a traversal has one pair of arrays of, raises an exception for an index past the last list, for a kind that the traversal has not (because targets have no extent) and for an unknown name; there is one list per box, per target box, or per target or target parent box. Negative indices never mean the list that Python's convention says.", "quantifier": "all traversals, names and indices", "why_tests_cant": "All indices of all traversals, including those next to the bounds.", "anchors": ["boxtree/traversal.py: FMMTraversalInfo.get_box_list"]}
{"id": "C92", "title": "Interaction lists of refined trees of boxes", "statement": "After any history of accepted refinements and coarsenings starting from a single root box, FMMTraversalBuilder applied to the resulting tree of boxes succeeds, has every box as a source and a target box, and carries the sources of every box to the targets of every box along exactly one path through its interaction lists; in particular, for any two points of the bounding box the leaf around one reaches the leaf around the other exactly once. No kernel reads outside its arrays.", "quantifier": "all dimensions, bounding boxes, histories of calls, neighbourhood sizes, and contents of the memory next to the arrays", "why_tests_cant": "Histories are unbounded, and what lies in front of an array in device memory is not under a test's control: a test passes when the word happens not to be negative.", "anchors": ["boxtree/traversal.py: FMMTraversalBuilder.__call__, FROM_SEP_SIBLINGS_TEMPLATE", "boxtree/tree_of_boxes.py: make_tree_of_boxes_root, refine_and_coarsen_tree_of_boxes"]}
{"id": "C93", "title": "The kernels address the arrays of boxes correctly", "statement": "Child ids, centers and bounding boxes of boxes are stored as arrays with one row per child or axis, padded to a multiple of 32 boxes. Every kernel that asks for row r of box b, computing the position in 32-bit integers, gets the entry of row r and box b, exactly as long as the last position is below 2^31: up to 2^29 boxes in two and 2^28 in three dimensions for the child ids. With one more box some access goes to memory in front of the array.", "quantifier": "all numbers of rows and boxes, all contents", "why_tests_cant": "The limit lies at hundreds of millions of boxes, and correctness below it concerns every size, including those that are no multiple of 32.", "anchors": ["boxtree/tree_build.py: TreeBuilder.__call__ (aligned_nboxes)", "boxtree/traversal.py: walk_get_box_id, load_center, load_true_box_extent, FROM_SEP_SIBLINGS_TEMPLATE", "boxtree/area_query.py", "boxtree/tree_build_kernels.py: BOX_EXTENTS_FINDER_TEMPLATE"]}
{"id": "C94", "title": "The mesh of the leaves tiles the bounding box", "statement": "After any history of accepted refinements and coarsenings, make_meshmode_mesh_from_leaves passes on one element per leaf box, in the order of the vector of box numbers it returns; every vertex belongs to exactly one element, the vertices of an element are the 2^d corners of its box, each exactly once, and every point of the bounding box lies in exactly one element.", "quantifier": "all dimensions, bounding boxes, histories of calls, and orders of the reference nodes", "why_tests_cant": "Histories are unbounded; a test sees a few meshes, and a swapped repeat/tile or a wrong radius for deep levels shows only for some trees.", "anchors": ["boxtree/tree_of_boxes.py: make_meshmode_mesh_from_leaves"]}
{"id": "C95", "title": "The wait lists of the traversal builder order its launches", "statement": "On a device queue that runs launches in any order that respects the events passed to them, once the event returned by the traversal builder is complete, all its launches are, and every array of the returned traversal has the contents that the launches give when run one after the other in program order.", "quantifier": "all trees, all parameters of the traversal builder, all previous contents of device memory, and all orders of the launches that respect the wait lists", "why_tests_cant": "A test sees the orders that one driver chooses; most run launches in order, and a missing event shows only on a queue that reorders.", "anchors": ["boxtree/traversal.py: FMMTraversalBuilder.__call__ (wait_for, evt)", "boxtree/traversal.py: extract_level_start_box_nrs"]}
{"id": "C96", "title": "The wait lists of the area query builders order their launches", "statement": "On a device queue that runs launches in any order that respects the events passed to them, once the event returned by the area query, space invader query or leaves-to-balls builder is complete, the launches whose events the caller gave in wait_for came before the balls were read, and the returned arrays are those of the query on these balls.", "quantifier": "all trees, balls, peer lists given or not, previous contents of device memory, and all orders of the launches that respect the wait lists", "why_tests_cant": "A test sees the orders that one driver chooses; a launch without its events shows only on a queue that reorders.", "anchors": ["boxtree/area_query.py: AreaQueryBuilder.__call__", "boxtree/area_query.py: LeavesToBallsLookupBuilder.__call__", "boxtree/area_query.py: SpaceInvaderQueryBuilder.__call__", "boxtree/area_query.py: PeerListFinder.__call__"]}
{"id": "C97", "title": "The tree builder waits for the events it is given", "statement": "If the launch that writes particles, targets and radii is among the events passed as wait_for, the tree is that of the contents it writes, on any device queue that respects the wait lists.", "quantifier": "all calls of the tree builder, previous contents of the arrays, and orders of the launches that respect the wait lists", "why_tests_cant": "On an in-order queue, as tests use, the order is always the one of the program.", "anchors": ["boxtree/tree_build.py: TreeBuilder.__call__ (wait_for, waitlist, combine_srcntgt_arrays)", "boxtree/bounding_box.py: BoundingBoxFinder.__call__"]}
{"id": "C98", "title": "The tree builder separates particles down to its level limit", "statement": "The tree builder refines as deep as its limit on the number of levels (106 in double, 48 in single precision): it raises MaxLevelsExceeded only if too heavy a group of particles shares a box on the deepest level that the limit allows, and the 32-bit scale factors of its Morton numbers do not influence the tree.", "quantifier": "all particle sets, limits and numbers of levels, with and without rounding of the coordinates", "why_tests_cant": "Needs particles that agree in 31 binary digits of their relative positions; whether shifts wrap around is a property of all levels.", "anchors": ["boxtree/tree_build_kernels.py: MORTON_NR_SCAN_PREAMBLE_TPL (1U << (1 + particle_level))", "boxtree/tree_build.py: TreeBuilder.__call__ (nlevels_max), MaxLevelsExceeded"]}
{"id": "C99", "title": "Particles lie in the box around the stored center at every level", "statement": "On every level that the tree builder can produce, a particle lies in the cube with the level's box size around the center that the tree stores for the particle's box.", "quantifier": "all bounding boxes, positions in them, and levels", "why_tests_cant": "Needs trees of more than thirty levels; a statement about all positions.", "anchors": ["boxtree/tree_build_kernels.py: BOX_SPLITTER_KERNEL_TPL (radius, box_centers)", "boxtree/tree.py: Tree.box_centers"]}
{"id": "C100", "title": "Traversals and area queries do not depend on the integer width of the device", "statement": "The traversal builder and the area query builder give, on every tree that can be built, the results they would give if the sizes of boxes were computed without integer overflow; in particular the sources of a box always reach the targets of the same box, and a ball in the center of a leaf finds the leaf.", "quantifier": "all well-formed trees of any depth, all options of the traversal builder, all balls and peer lists", "why_tests_cant": "The difference only shows from the thirty-first level on; a statement about all trees and all lists.", "anchors": ["boxtree/traversal.py: LEVEL_TO_RAD, is_adjacent_or_overlapping_with_neighborhood, check_l_infty_ball_overlap", "boxtree/area_query.py: GUIDING_BOX_FINDER_MACRO, AREA_QUERY_TEMPLATE, PEER_LIST_FINDER_TEMPLATE"]}
