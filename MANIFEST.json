{
 "claims": [
  {
   "property": "C01",
   "status": "proved",
   "theorems": [
    "Boxtree.C01_exactly_once"
   ],
   "note": "All well-formed trees, flags, nAway>=1, criteria, thresholds; exact rational coordinates."
  },
  {
   "property": "C02",
   "status": "proved",
   "theorems": [
    "Boxtree.C02_drive_fmm_total"
   ],
   "note": "Any commutative monoid of weights."
  },
  {
   "property": "C03",
   "status": "proved",
   "theorems": [
    "Boxtree.C03_list1_exact"
   ],
   "note": ""
  },
  {
   "property": "C04",
   "status": "proved",
   "theorems": [
    "Boxtree.C04_near_neighbours_exact"
   ],
   "note": ""
  },
  {
   "property": "C05",
   "status": "proved",
   "theorems": [
    "Boxtree.C05_list2_exact",
    "Boxtree.C05_list2_symm"
   ],
   "note": ""
  },
  {
   "property": "C06",
   "status": "proved",
   "theorems": [
    "Boxtree.C06_list3_exact",
    "Boxtree.C06_list3_close_exact"
   ],
   "note": ""
  },
  {
   "property": "C07",
   "status": "proved",
   "theorems": [
    "Boxtree.C07_list4_exact",
    "Boxtree.C07_list4_close_exact",
    "Boxtree.C07_list4_not_at_ancestor"
   ],
   "note": ""
  },
  {
   "property": "C08",
   "status": "proved",
   "theorems": [
    "Boxtree.C08_list3_list4_dual"
   ],
   "note": ""
  },
  {
   "property": "C09",
   "status": "proved",
   "theorems": [
    "Boxtree.C09_merger_any_order",
    "Boxtree.C09_listMerger",
    "Boxtree.C09_merge_close_lists",
    "Boxtree.C09_merge_close_lists_needs_extents"
   ],
   "note": "The work items of the copy kernel run in any order."
  },
  {
   "property": "C10",
   "status": "proved",
   "theorems": [
    "Boxtree.C10_level_starts"
   ],
   "note": ""
  },
  {
   "property": "C100",
   "status": "partial",
   "theorems": [
    "Boxtree.C100_traversal_partial",
    "Boxtree.C100_exactly_once_partial",
    "Boxtree.C100_area_query_partial",
    "Boxtree.C100_peer_lists_partial",
    "Boxtree.C100_leaves_to_balls_partial",
    "Boxtree.C100_space_invader_partial",
    "Boxtree.C100_classes_partial",
    "Boxtree.C100_own_sources_lost",
    "Boxtree.C100_small_ball_misses_leaf",
    "Boxtree.C100_31_levels",
    "Boxtree.C100_31_levels_area",
    "Boxtree.C100_vector_reversed",
    "Boxtree.Build.C100_built_tree",
    "Boxtree.C100_rounded_traversal_partial",
    "Boxtree.C100_rounded_exactly_once_partial",
    "Boxtree.C100_rounded_potentials_partial",
    "Boxtree.C100_rounded_separated_partial",
    "Boxtree.C100_own_sources_lost_rounded",
    "Boxtree.C100_rounded_area_partial",
    "Boxtree.C100_rounded_area_answer_partial",
    "Boxtree.C100_rounded_small_ball",
    "Boxtree.C100_rounded_classes_partial"
   ],
   "note": "Equality of all results (lists, peer lists, area queries, leaves to balls, space invader updates, translation and rotation classes) is proved for trees of at most 30 levels; for 31 levels the negation is proved: the sources of every box on level 30 are lost for its own targets, small balls miss every leaf there, and translation vectors are reversed. All equalities, and the failures of traversals and area queries on level 30, are also proved with every operation rounded (theorems with rounded in their name)."
  },
  {
   "property": "C11",
   "status": "proved",
   "theorems": [
    "Boxtree.C11_walk_terminates",
    "Boxtree.C11_visits_once",
    "Boxtree.C11_morton_order",
    "Boxtree.C11_stack_bound"
   ],
   "note": ""
  },
  {
   "property": "C12",
   "status": "proved",
   "theorems": [
    "Boxtree.C12_role_lists"
   ],
   "note": ""
  },
  {
   "property": "C13",
   "status": "proved",
   "theorems": [
    "Boxtree.C13_static_l2_is_sqrt_test",
    "Boxtree.C13_list3_static_linf",
    "Boxtree.C13_list3_precise_linf",
    "Boxtree.C13_list3_static_l2",
    "Boxtree.C13_list4_separated"
   ],
   "note": "Exact arithmetic of the tests (inp.tests = .exact); with rounding see C65."
  },
  {
   "property": "C14",
   "status": "proved",
   "theorems": [
    "Boxtree.C14_history_valid",
    "Boxtree.C14_short_histories",
    "Boxtree.C14_usable_for_traversal",
    "Boxtree.C14_center_flips_when_deep",
    "Boxtree.C14_unsigned_levels_break"
   ],
   "note": "Signed level dtype, histories that never refine a box of level bits-3 (29 for int32) or deeper; both limits are shown to be sharp by C14_center_flips_when_deep and C14_unsigned_levels_break (defects in the code)."
  },
  {
   "property": "C15",
   "status": "proved",
   "theorems": [
    "Boxtree.C15_leaves_tile_root"
   ],
   "note": "Same depth limit as C14; cells as used by make_meshmode_mesh_from_leaves."
  },
  {
   "property": "C16",
   "status": "proved",
   "theorems": [
    "Boxtree.C16_refine_then_coarsen"
   ],
   "note": "Equality up to renumbering, for any two argsort answers."
  },
  {
   "property": "C17",
   "status": "proved",
   "theorems": [
    "Boxtree.C17_rejected_requests",
    "Boxtree.C17_uniform_refinement_returns"
   ],
   "note": "Exact condition for each of the five errors; validity of the returned tree is C14."
  },
  {
   "property": "C18",
   "status": "proved",
   "theorems": [
    "Boxtree.C18_ignored_flags_have_no_effect",
    "Boxtree.C18_resulting_boxes",
    "Boxtree.C18_default_rejects_mixed_siblings"
   ],
   "note": "C18_default_rejects_mixed_siblings: with the default error flag the documented priority rule raises instead."
  },
  {
   "property": "C19",
   "status": "proved",
   "theorems": [
    "Boxtree.Build.C19_order_is_permutation"
   ],
   "note": "All modes, including the level-restricted builder with extents. Coordinates are exact rationals."
  },
  {
   "property": "C20",
   "status": "partial",
   "theorems": [
    "Boxtree.Build.C20_nested_ranges_partial",
    "Boxtree.Build.C20_restricted_extent_loses_particles"
   ],
   "note": "Proved without level restriction or without extents. With both, the code can end with boxes marked as split that have no children; their particles are owned by no box (proved for a concrete input)."
  },
  {
   "property": "C21",
   "status": "partial",
   "theorems": [
    "Boxtree.Build.C21_particles_in_box_partial",
    "Boxtree.Build.C21_stick_out_partial",
    "Boxtree.Build.C21_particle_on_upper_face"
   ],
   "note": "All modes, both norms, for particles off the upper faces of the bounding box (always so for the automatic bounding box, C50). A user-supplied bounding box with a particle on its upper face is accepted and the claim is then false (proved for a concrete input)."
  },
  {
   "property": "C22",
   "status": "proved",
   "theorems": [
    "Boxtree.Build.C22_leaf_weight",
    "Boxtree.Build.C22_leaf_weight_points"
   ],
   "note": "For limits below the greatest 32-bit integer. Particles held back are described geometrically: those that do not fit into the child cube enlarged by the stick-out factor, in the chosen norm."
  },
  {
   "property": "C23",
   "status": "proved",
   "theorems": [
    "Boxtree.Build.C23_terminates",
    "Boxtree.Build.C23_fails_iff",
    "Boxtree.Build.C23_coincident",
    "Boxtree.Build.C23_int_max_limit"
   ],
   "note": "For limits below the greatest 32-bit integer; with that limit an assertion can fail (C23_int_max_limit)."
  },
  {
   "property": "C24",
   "status": "proved",
   "theorems": [
    "Boxtree.Build.C24_prune",
    "Boxtree.Build.C24_no_empty_boxes",
    "Boxtree.Build.C24_level_groups"
   ],
   "note": "Building with and without skip_prune on the same input: the boxes that stay are exactly the non-empty ones, in order, with their centers, levels, particles and parent/child relation; no box of a pruned tree is empty; levels stay contiguous."
  },
  {
   "property": "C25",
   "status": "proved",
   "theorems": [
    "Boxtree.Build.C25_flags",
    "Boxtree.Build.C25_child_flags_not_exact"
   ],
   "note": "All modes. The has-child flags are set on every ancestor, but also on boxes without such descendants (second theorem)."
  },
  {
   "property": "C26",
   "status": "partial",
   "theorems": [
    "Boxtree.Build.C26_bounding_boxes_partial"
   ],
   "note": "Without level restriction or without extents; with both the builder loses particles (C20)."
  },
  {
   "property": "C27",
   "status": "partial",
   "theorems": [
    "Boxtree.Build.C27_two_to_one_partial",
    "Boxtree.Build.C27_rounded_two_to_one_partial",
    "Boxtree.Build.C27_restricted_extent_unbalanced",
    "Boxtree.Build.C27_tiny_boxes_unbalanced"
   ],
   "note": "Proved for particles without extents, without rounding and with rounding if the boxes are large compared with rounding errors. With extents it is false: a concrete tree with touching leaves on levels 1 and 3. With boxes as small as the spacing of floating point numbers it is false as well (concrete witness)."
  },
  {
   "property": "C28",
   "status": "proved",
   "theorems": [
    "Boxtree.Filter.C28_filter_user_order"
   ],
   "note": ""
  },
  {
   "property": "C29",
   "status": "proved",
   "theorems": [
    "Boxtree.Filter.C29_filter_tree_order_targets",
    "Boxtree.Filter.C29_filter_tree_order_boxes"
   ],
   "note": ""
  },
  {
   "property": "C30",
   "status": "partial",
   "theorems": [
    "Boxtree.Filter.C30_ranges_contiguous",
    "Boxtree.Filter.C30_linked_ids_partial",
    "Boxtree.Filter.C30_linked_ids_ascending_partial",
    "Boxtree.Filter.C30_box_ranges",
    "Boxtree.Filter.C30_requires_extent",
    "Boxtree.Filter.C30_empty_source_breaks"
   ],
   "note": "Source and box ranges are right for every input. The point source ids are proved right when every source has a point source (any store order), or when stores happen in ascending order; the general claim is false of the code: Boxtree.Filter.C30_empty_source_breaks."
  },
  {
   "property": "C31",
   "status": "proved",
   "theorems": [
    "Boxtree.C31_peer_lists"
   ],
   "note": "All well-formed trees whose child flags agree with their child pointers; peers in terms of touching closed boxes and widths."
  },
  {
   "property": "C32",
   "status": "proved",
   "theorems": [
    "Boxtree.C32_area_query",
    "Boxtree.C32_wrong_peer_lists_rejected",
    "Boxtree.C32_leaf_in_margin_missed"
   ],
   "note": "Exact rational coordinates. The hypothesis that every leaf reaches into the unstretched bounding box is needed: C32_leaf_in_margin_missed exhibits a tree (possible with a user-supplied bounding box) where a leaf is missed."
  },
  {
   "property": "C33",
   "status": "proved",
   "theorems": [
    "Boxtree.C33_leaves_to_balls"
   ],
   "note": "The external key-value sort is any argsort by key."
  },
  {
   "property": "C34",
   "status": "proved",
   "theorems": [
    "Boxtree.C34_space_invader"
   ],
   "note": "Any order of the atomic updates; rounding to float32 is any monotone map fixing 0."
  },
  {
   "property": "C35",
   "status": "proved",
   "theorems": [
    "Boxtree.C35_sink_iff_source",
    "Boxtree.C35_one_sink",
    "Boxtree.C35_sources_nodup",
    "Boxtree.C35_groups_nest",
    "Boxtree.C35_terminates",
    "Boxtree.C35_pair_meets_once"
   ],
   "note": "For every number of ranks, every rank and every stage reachable by calls of advance."
  },
  {
   "property": "C36",
   "status": "proved",
   "theorems": [
    "Boxtree.C36_used_multipoles_are_summed",
    "Boxtree.C36_allreduce",
    "Boxtree.C36_no_message_left",
    "Boxtree.C36_no_deadlock",
    "Boxtree.C36_terminates",
    "Boxtree.C36_maximal_runs_finish"
   ],
   "note": "Small-step semantics of all ranks; every interleaving, arbitrary message delays, with sends that may or may not wait for their receiver."
  },
  {
   "property": "C37",
   "status": "partial",
   "theorems": [
    "Boxtree.C37_dfs_order",
    "Boxtree.C37_segments",
    "Boxtree.C37_too_many_ranks",
    "Boxtree.C37_partition_partial",
    "Boxtree.C37_last_ranks_uninitialised"
   ],
   "note": "The full statement (every rank gets a list, together a partition in depth-first order) is false of the code: C37_last_ranks_uninitialised gives costs for which the loop ends before the last ranks are assigned, leaving np.empty entries. C37_segments is unconditional: the lists that are assigned concatenate to the depth-first order. C37_partition_partial proves the full partition when each box costs at most the average and the last box costs less."
  },
  {
   "property": "C38",
   "status": "proved",
   "theorems": [
    "Boxtree.C38_ancestor_mask",
    "Boxtree.C38_point_sources_exact",
    "Boxtree.C38_multipoles_exact",
    "Boxtree.C38_masks_suffice"
   ],
   "note": "Exact contents of the masks, and sufficiency: potentials of responsible boxes do not depend on anything outside the masks."
  },
  {
   "property": "C39",
   "status": "proved",
   "theorems": [
    "Boxtree.C39_particles_kept",
    "Boxtree.C39_masked_box",
    "Boxtree.C39_unmasked_box",
    "Boxtree.C39_cumulative",
    "Boxtree.C39_flags",
    "Boxtree.C39_users"
   ],
   "note": "Also covers the rebuilt target flags and the list of ranks using each multipole expansion."
  },
  {
   "property": "C40",
   "status": "proved",
   "theorems": [
    "Boxtree.C40_distributed_equals_shared",
    "Boxtree.C40_distributed_equals_shared_allreduce",
    "Boxtree.C40_local_traversals_build",
    "Boxtree.C40_min_nsources_loses_sources"
   ],
   "note": "Every schedule of the reduction and both reduction modes. Needs the default _from_sep_smaller_min_nsources_cumul when targets have extent; C40_min_nsources_loses_sources shows that the claim fails otherwise."
  },
  {
   "property": "C41",
   "status": "proved",
   "theorems": [
    "Boxtree.C41_vector_in_range",
    "Boxtree.C41_translation_classes",
    "Boxtree.C41_shared_classes_not_scaled",
    "Boxtree.C41_nclasses_is_dimension"
   ],
   "note": "Proved for the default per-level numbering, including that the builder never raises when (4n+3)^d fits in 32 bits. With is_translation_per_level=False the stored vectors are those of level 0 (proved as C41_shared_classes_not_scaled); nfrom_sep_siblings_translation_classes returns the dimension (C41_nclasses_is_dimension)."
  },
  {
   "property": "C42",
   "status": "proved",
   "theorems": [
    "Boxtree.C42_rotation_classes"
   ],
   "note": "The only failure the theorem allows is the code's own assertion on the number of classes."
  },
  {
   "property": "C43",
   "status": "proved",
   "theorems": [
    "Boxtree.Cost.C43_implementations_agree",
    "Boxtree.Cost.C43_boxes_sum_to_stages",
    "Boxtree.Cost.C43_form_multipoles",
    "Boxtree.Cost.C43_multipole_to_local",
    "Boxtree.Cost.C43_form_locals",
    "Boxtree.Cost.C43_form_locals_uniform",
    "Boxtree.Cost.C43_eval_direct",
    "Boxtree.Cost.C43_eval_locals",
    "Boxtree.Cost.C43_eval_multipoles",
    "Boxtree.Cost.C43_coarsen",
    "Boxtree.Cost.C43_refine",
    "Boxtree.Cost.C43_list4_uses_source_level"
   ],
   "note": "Costs over exact arithmetic. Finding: list 4 is weighted with the factor of the source box's level, documented to be that of the local expansion's level; the two differ if the factor depends on the level (C43_list4_uses_source_level)."
  },
  {
   "property": "C44",
   "status": "partial",
   "theorems": [
    "Boxtree.Cost.C44_least_squares_partial",
    "Boxtree.Cost.C44_default_stages",
    "Boxtree.Cost.C44_small_costs_not_optimal",
    "Boxtree.Cost.C44_missing_stage_is_zero",
    "Boxtree.Cost.C44_errors"
   ],
   "note": "Optimal unless every modelled cost of the stage is at most 1e-8 in magnitude and some is nonzero (np.allclose), where the code returns zero: C44_small_costs_not_optimal. Two stages that share a parameter overwrite each other and are excluded. Exact arithmetic."
  },
  {
   "property": "C45",
   "status": "proved",
   "theorems": [
    "Boxtree.C45_bounding_box"
   ],
   "note": "Any reduction tree over the particles with any number of neutral elements, coordinates in an ordered field within +-MAX."
  },
  {
   "property": "C46",
   "status": "proved",
   "theorems": [
    "Boxtree.C46_mask_list",
    "Boxtree.C46_mask_matrix",
    "Boxtree.C46_other_dimensions",
    "Boxtree.C46_one_dim_stride_ignored"
   ],
   "note": "The stride of a one-dimensional mask is ignored by the code (C46_one_dim_stride_ignored); two-dimensional masks are handled for any strides."
  },
  {
   "property": "C47",
   "status": "proved",
   "theorems": [
    "Boxtree.C47_bsearch"
   ],
   "note": "Any linearly ordered element type, any non-empty sorted array, ties included; at most len iterations."
  },
  {
   "property": "C48",
   "status": "proved",
   "theorems": [
    "Boxtree.C48_reverse_index_array",
    "Boxtree.C48_gappy_gather",
    "Boxtree.C48_gappy_scatter",
    "Boxtree.C48_gappy_errors",
    "Boxtree.C48_map_values",
    "Boxtree.C48_realloc_array"
   ],
   "note": "For every order of the element-wise writes."
  },
  {
   "property": "C49",
   "status": "proved",
   "theorems": [
    "Boxtree.Filter.C49_find_box",
    "Boxtree.Filter.C49_find_box_error"
   ],
   "note": ""
  },
  {
   "property": "C50",
   "status": "partial",
   "theorems": [
    "Boxtree.Build.C50_shapes_checked",
    "Boxtree.Build.C50_documented_accepted",
    "Boxtree.Build.C50_undocumented_rejected_partial",
    "Boxtree.Build.C50_mixed_limit_accepted",
    "Boxtree.Build.C50_weight_count_unchecked",
    "Boxtree.Build.C50_auto_bbox",
    "Boxtree.Build.C50_auto_bbox_rounded",
    "Boxtree.Build.C50_given_bbox",
    "Boxtree.Build.C50_given_square_bbox",
    "Boxtree.Build.C50_nearly_square_bbox_loses"
   ],
   "note": "Documented arguments are accepted, and all violations are rejected except two that the code does not check, proved to be accepted: max_particles_in_box together with one of refine_weights/max_leaf_refine_weight, and a wrong number of refine weights. A bounding box that is square only up to the tolerance can lose particles. C50_given_bbox and C50_auto_bbox_rounded are about the bounding box as it is computed with rounding."
  },
  {
   "property": "C51",
   "status": "partial",
   "theorems": [
    "Boxtree.C51_radius_exact_partial",
    "Boxtree.C51_radius_exact_iff",
    "Boxtree.C51_adjacency_exact_partial",
    "Boxtree.C51_radius_level30",
    "Boxtree.C51_radius_level31",
    "Boxtree.C51_level30_not_adjacent_to_itself"
   ],
   "note": "Holds up to level 29; the negation is proved for levels 30 and 31 (32-bit shift), while the builder admits about 106 levels in double precision."
  },
  {
   "property": "C52",
   "status": "proved",
   "theorems": [
    "Boxtree.Build.C52_built_tree_wf"
   ],
   "note": "All modes."
  },
  {
   "property": "C53",
   "status": "partial",
   "theorems": [
    "Boxtree.Build.C53_fmm_on_built_tree_partial",
    "Boxtree.Build.C53_each_pair_once"
   ],
   "note": "Potentials: without level restriction or without extents (with both the builder loses particles, C20). Exactly-once per pair of boxes: all modes."
  },
  {
   "property": "C54",
   "status": "proved",
   "theorems": [
    "Boxtree.Build.C54_scan_any_order",
    "Boxtree.Build.C54_morton_scan",
    "Boxtree.Build.C54_split_scan"
   ],
   "note": "ScanResult ranges over all bracketings of adjacent ranges."
  },
  {
   "property": "C55",
   "status": "partial",
   "theorems": [
    "Boxtree.Build.C55_level_starts_partial",
    "Boxtree.Build.C55_stale_level_counts"
   ],
   "note": "Missing: pruned non-adaptive trees for particles with extents, where it is false (negation proved)."
  },
  {
   "property": "C56",
   "status": "partial",
   "theorems": [
    "Boxtree.Build.C56_documented_call",
    "Boxtree.Build.C56_particles_placed",
    "Boxtree.Build.C56_placed",
    "Boxtree.Build.C56_outcomes",
    "Boxtree.Build.C56_sources",
    "Boxtree.Build.C56_targets",
    "Boxtree.Build.C56_potentials_partial",
    "Boxtree.Build.C56_zero_weights_rejected",
    "Boxtree.Build.C56_single_particle_degenerate"
   ],
   "note": "Missing: potentials for level restriction with radii (false, C20); all-zero weights raise AssertionError (negation proved)."
  },
  {
   "property": "C57",
   "status": "partial",
   "theorems": [
    "Boxtree.Build.C57_distributed_on_built_tree_partial",
    "Boxtree.Build.C57_maximal_run_exists"
   ],
   "note": "Missing: the kinds of trees and arguments for which negations are proved under C20, C55, C40, and unpruned trees."
  },
  {
   "property": "C58",
   "status": "proved",
   "theorems": [
    "Boxtree.FmmLib.C58_fmmlib_respects",
    "Boxtree.FmmLib.C58_fmmlib_exact",
    "Boxtree.FmmLib.C58_storage",
    "Boxtree.FmmLib.C58_rotation_data",
    "Boxtree.FmmLib.C58_rscale",
    "Boxtree.FmmLib.C58_slot_size",
    "Boxtree.FmmLib.C58_radius"
   ],
   "note": "The Fortran routines are parameters with the behaviour stated in Spec/FmmLib.lean; gradients (ifgrad=True) are not modelled."
  },
  {
   "property": "C59",
   "status": "partial",
   "theorems": [
    "Boxtree.FmmLib.C59_rotmat_order_partial",
    "Boxtree.FmmLib.C59_cutoff_overflow"
   ],
   "note": "False for orders for which the estimate does not fit in 32 bits (NumPy 2): C59_cutoff_overflow."
  },
  {
   "property": "C60",
   "status": "proved",
   "theorems": [
    "Boxtree.FmmLib.C60_chain_decomposition",
    "Boxtree.FmmLib.C60_error_bound"
   ],
   "note": "The accuracy of single chains is a hypothesis; it belongs to the library."
  },
  {
   "property": "C61",
   "status": "partial",
   "theorems": [
    "Boxtree.Build.C61_user_potentials_partial",
    "Boxtree.Build.C61_user_error_partial"
   ],
   "note": "Missing: kind=adaptive-level-restricted together with radii (C20_restricted_extent_loses_particles)."
  },
  {
   "property": "C62",
   "status": "proved",
   "theorems": [
    "Boxtree.FmmLib.C62_distributed_respects",
    "Boxtree.FmmLib.C62_distributed_exact",
    "Boxtree.FmmLib.C62_error_bound",
    "Boxtree.FmmLib.C62_distributed_respects_allreduce",
    "Boxtree.FmmLib.C62_rotation_data",
    "Boxtree.FmmLib.C62_unsorted_dipoles_rejected"
   ],
   "note": "World.OK as in C40; library as in C58/C60. Dipole vectors must be given already sorted (finding cc)."
  },
  {
   "property": "C63",
   "status": "partial",
   "theorems": [
    "Boxtree.Build.C63_distributed_potentials_partial",
    "Boxtree.Build.C63_distributed_error_partial",
    "Boxtree.Build.documented_call_world"
   ],
   "note": "Excludes radii with kinds other than adaptive (C20, C55: false there) and skip_prune (C57)."
  },
  {
   "property": "C64",
   "status": "partial",
   "theorems": [
    "Boxtree.Build.C64_particles_in_box_partial",
    "Boxtree.Build.C64_stick_out_partial",
    "Boxtree.Build.C64_call_partial",
    "Boxtree.Build.C64_automatic_box_wraps",
    "Boxtree.Build.C64_automatic_box_fails",
    "Boxtree.Build.C64_given_box_wraps"
   ],
   "note": "For particles that keep a few rounding errors distance to the upper faces of the bounding box; for the automatic box this is derived from spread >= 400000 u B. Otherwise false (three concrete documented calls). The boxes of the statement are the exact cubes; C70 bounds the error of the stored centers."
  },
  {
   "property": "C65",
   "status": "proved",
   "theorems": [
    "Boxtree.C65_rounded_tests",
    "Boxtree.C65_exactly_once",
    "Boxtree.C65_same_lists",
    "Boxtree.C65_tolerance",
    "Boxtree.C65_list3_static_linf",
    "Boxtree.C65_list3_precise_linf",
    "Boxtree.C65_list3_static_l2",
    "Boxtree.C65_list4_separated",
    "Boxtree.C65_built_tree",
    "Boxtree.C65_fmm_on_built_tree",
    "Boxtree.C65_tiny_boxes_lose_pairs"
   ],
   "note": "The size condition on the smallest box (FineEnough) is part of the statement; C65_tiny_boxes_lose_pairs shows that it is needed. precise_linf: accuracy of the stored target bounding boxes is a hypothesis, which C70 proves for built trees. static_l2: dims <= 3."
  },
  {
   "property": "C66",
   "status": "proved",
   "theorems": [
    "Boxtree.Build.C66_growing_arrays",
    "Boxtree.Build.C66_documented_call",
    "Boxtree.Build.C66_failures",
    "Boxtree.Build.C66_padding"
   ],
   "note": "Allocation itself is assumed to succeed."
  },
  {
   "property": "C67",
   "status": "proved",
   "theorems": [
    "Boxtree.C67_vector",
    "Boxtree.C67_same_classes",
    "Boxtree.C67_translation_classes",
    "Boxtree.Ex.C67_small_boxes_fail"
   ],
   "note": "The size condition on the smallest box (FineEnough) is part of the statement, as in C65."
  },
  {
   "property": "C68",
   "status": "proved",
   "theorems": [
    "Boxtree.C68_peer_lists",
    "Boxtree.C68_area_query",
    "Boxtree.C68_leaves_to_balls",
    "Boxtree.C68_space_invader",
    "Boxtree.Ex.C68_no_stretch_fails"
   ],
   "note": "The size conditions (FineEnough; stretch of the bounding box not lost by rounding) are part of the statement; C68_no_stretch_fails shows a missed leaf without the latter."
  },
  {
   "property": "C69",
   "status": "partial",
   "theorems": [
    "Boxtree.Build.C69_peer_lists_partial",
    "Boxtree.Build.C69_area_query_partial",
    "Boxtree.Build.C69_finds_particles_partial",
    "Boxtree.Build.C69_leaves_to_balls_partial",
    "Boxtree.Build.C69_space_invader_partial",
    "Boxtree.Build.C69_area_query_rounded_partial",
    "Boxtree.Build.C69_leaves_to_balls_rounded_partial",
    "Boxtree.Build.C69_space_invader_rounded_partial",
    "Boxtree.Build.C69_held_back_fails"
   ],
   "note": "Missing because false: particles with extents in a non-adaptive or level-restricted tree (C69_held_back_fails: a leaf that is flagged as having children is not found), trees with a given bounding box that has particles in its outer 1e-4 (C32_leaf_in_margin_missed). Trees that keep empty leaves are outside the statement for the same reason."
  },
  {
   "property": "C70",
   "status": "partial",
   "theorems": [
    "Boxtree.Build.C70_stored_path",
    "Boxtree.Build.C70_center_error",
    "Boxtree.Build.C70_bounding_boxes_partial",
    "Boxtree.Build.C70_bounding_box_error_partial",
    "Boxtree.Build.C70_exact_partial",
    "Boxtree.Build.C70_list3_precise_linf_partial"
   ],
   "note": "Box centers: all modes. Bounding boxes: without the combination of level restriction and extents, which loses particles (C20)."
  },
  {
   "property": "C71",
   "status": "partial",
   "theorems": [
    "Boxtree.Build.C71_reads_stored_centers",
    "Boxtree.Build.C71_potentials_partial",
    "Boxtree.Build.C71_traversal_ok",
    "Boxtree.Build.C71_list3_separated_partial",
    "Boxtree.Build.C71_large_boxes",
    "Boxtree.Build.C71_tiny_boxes_lose_pairs"
   ],
   "note": "Missing because false: level restriction with radii (finding r), and boxes that are not large compared with rounding errors (C71_tiny_boxes_lose_pairs, finding ee). Overflow, underflow and fused operations are not modelled."
  },
  {
   "property": "C72",
   "status": "proved",
   "theorems": [
    "Boxtree.C72_near_neighbours",
    "Boxtree.C72_list2",
    "Boxtree.C72_list4",
    "Boxtree.C72_list1_balanced",
    "Boxtree.C72_list1_total",
    "Boxtree.C72_list3_total",
    "Boxtree.Build.C72_nboxes",
    "Boxtree.Build.C72_nboxes_total",
    "Boxtree.Build.C72_list_entries",
    "Boxtree.Build.C72_restricted_list1"
   ],
   "note": "Bounds for rows are attained in the examples. C72_restricted_list1 needs the smallest boxes to be large compared with rounding errors, as C27."
  },
  {
   "property": "C73",
   "status": "partial",
   "theorems": [
    "Boxtree.Build.C73_order_partial",
    "Boxtree.Build.C73_boxes",
    "Boxtree.Build.C73_call_partial",
    "Boxtree.Build.C73_restricted_extent_order"
   ],
   "note": "Missing: level-restricted trees with extents, for which it is false (C73_restricted_extent_order); there the boxes without flags and bounding boxes are still the same (C73_boxes)."
  },
  {
   "property": "C74",
   "status": "proved",
   "theorems": [
    "Boxtree.Build.C74_split",
    "Boxtree.Build.C74_canonical",
    "Boxtree.Build.C74_depth"
   ],
   "note": "C74_split holds for every rounding; with level restriction the smallest boxes have to be large compared with rounding errors, as in C27. C74_canonical is for points in exact arithmetic. C74_depth holds in every mode."
  },
  {
   "property": "C75",
   "status": "proved",
   "theorems": [
    "Boxtree.Build.C75_leaves_on_last_level",
    "Boxtree.Build.C75_leaf_weight"
   ],
   "note": "For particles without radii, any rounding. That the depth is the least one is C74_depth, which also covers this mode."
  },
  {
   "property": "C76",
   "status": "proved",
   "theorems": [
    "Boxtree.Build.C76_coarsest",
    "Boxtree.Build.C76_admissible",
    "Boxtree.Build.C76_fewest_boxes"
   ],
   "note": "For points in exact arithmetic (with rounding, the cells of the particles are C53). Candidates are defined in Spec/Coarsest."
  },
  {
   "property": "C77",
   "status": "proved",
   "theorems": [
    "Boxtree.Build.C77_backward_stable",
    "Boxtree.Build.C77_coarsest_nearby",
    "Boxtree.Build.C77_other_tree"
   ],
   "note": "Points only, as the statement says. Room and Fine are hypotheses of the statement; C64 shows what happens without Room."
  },
  {
   "property": "C78",
   "status": "proved",
   "theorems": [
    "Boxtree.Cost.C78_per_stage",
    "Boxtree.Cost.C78_per_box",
    "Boxtree.Cost.C78_errors",
    "Boxtree.Cost.C78_linear",
    "Boxtree.Cost.C78_repeated",
    "Boxtree.Cost.C78_monotone",
    "Boxtree.Cost.C78_translation_3d",
    "Boxtree.Cost.C78_calibration_recovers"
   ],
   "note": "Exact arithmetic; the half-integer power is a parameter of the model, fixed to the real power in C78_translation_3d."
  },
  {
   "property": "C79",
   "status": "proved",
   "theorems": [
    "Boxtree.Build.C79_stages",
    "Boxtree.Build.C79_linear_work"
   ],
   "note": "Trees of points built by the default or level-restricted kind with max_particles_in_box; exact arithmetic in the cost model. With radii or kind='non-adaptive' leaves may hold more particles (C22), and no bound of this kind holds."
  },
  {
   "property": "C80",
   "status": "proved",
   "theorems": [
    "Boxtree.FmmLib.C80_traversal",
    "Boxtree.Build.C80_fmm_converges_partial",
    "Boxtree.Build.C80_rounded_partial",
    "Boxtree.Build.C80_any_accuracy_partial",
    "Boxtree.Build.C80_distributed_partial"
   ],
   "note": "C80_traversal is the full statement for trees and traversals. The expansion library is a specification (the Fortran routines are outside of /repo): textbook truncated series with the rscale convention of the wrangler, exact arithmetic inside. C80_distributed_partial: the same for the distributed FMM, any partition and schedule. The theorems about calls leave out kind='adaptive-level-restricted' with radii (C20). For rounding in the tree builder: automatic bounding box and no box as small as 128 rounding errors."
  },
  {
   "property": "C81",
   "status": "partial",
   "theorems": [
    "Boxtree.Build.C81_source_order",
    "Boxtree.Build.C81_target_order",
    "Boxtree.Build.C81_source_box_partial",
    "Boxtree.Build.C81_target_box_partial"
   ],
   "note": "The conversions are proved in full. The box lookup leaves out kind='adaptive-level-restricted' with radii, where particles without box exist (C20_restricted_extent_loses_particles), and assumes exact arithmetic for the extents (C64, C70 bound the rounding)."
  },
  {
   "property": "C82",
   "status": "partial",
   "theorems": [
    "Boxtree.Container.C82_fields",
    "Boxtree.Container.C82_attributes",
    "Boxtree.Container.C82_all_classes",
    "Boxtree.Container.C82_to_numpy",
    "Boxtree.Container.C82_from_numpy",
    "Boxtree.Container.C82_freeze",
    "Boxtree.Container.C82_round_trip",
    "Boxtree.Container.C82_round_trip_host",
    "Boxtree.Container.C82_type_error",
    "Boxtree.Container.C82_builders",
    "Boxtree.Container.C82_local_tree_partial",
    "Boxtree.Container.C82_local_tree_source_extent"
   ],
   "note": "The recursion over containers is that of arraycontext (outside of /repo, trusted as documented). C82_builders: the hypotheses hold for what the tree builder and the traversal builder assemble. The local trees of the distributed setup: C82_local_tree_partial, without sources with extent, for which generate_local_tree fails (C82_local_tree_source_extent)."
  },
  {
   "property": "C83",
   "status": "proved",
   "theorems": [
    "Boxtree.FmmLib.C83_without_gradients",
    "Boxtree.FmmLib.C83_gradients_rejected",
    "Boxtree.FmmLib.C83_calls_rejected"
   ],
   "note": "A defect of the code (finding bb): gradients are offered by the constructor but every run with them fails. C83_calls_rejected leaves out kind='adaptive-level-restricted' with radii (C20); C83_gradients_rejected has no such restriction on the tree."
  },
  {
   "property": "C84",
   "status": "proved",
   "theorems": [
    "Boxtree.FmmLib.C84_traversal",
    "Boxtree.Build.C84_fmm_converges_partial",
    "Boxtree.Build.C84_any_accuracy_partial",
    "Boxtree.Build.C84_rounded_partial",
    "Boxtree.Build.C84_distributed_partial"
   ],
   "note": "C84_traversal is the full statement for trees and traversals. The expansion library is a specification (the Fortran routines are outside of /repo): the textbook formulas with the rscale convention of the wrangler, exact arithmetic inside; at coinciding source and target log 0 = 0. The theorems about calls leave out kind='adaptive-level-restricted' with radii (C20), the distributed one also the cases of C55 and C57. For rounding in the tree builder: automatic bounding box and no box as small as 128 rounding errors."
  },
  {
   "property": "C85",
   "status": "partial",
   "theorems": [
    "Boxtree.Vis.C85_roman_value",
    "Boxtree.Vis.C85_roman_injective",
    "Boxtree.Vis.C85_tikz_partial",
    "Boxtree.Vis.C85_tikz_large",
    "Boxtree.Vis.C85_only_two_dimensions",
    "Boxtree.Vis.C85_box_path",
    "Boxtree.Vis.C85_draw_box_lists",
    "Boxtree.Vis.C85_draw_neighbours"
   ],
   "note": "Partial only because the code refuses trees with more than 4000 boxes (C85_tikz_large). The drawing library and the formatting of numbers as text are not modelled."
  },
  {
   "property": "C86",
   "status": "proved",
   "theorems": [
    "Boxtree.FmmLib.Ctor.C86_accepts_iff",
    "Boxtree.FmmLib.Ctor.C86_attributes",
    "Boxtree.FmmLib.Ctor.C86_rscale",
    "Boxtree.FmmLib.Ctor.C86_dipoles_in_user_order",
    "Boxtree.FmmLib.Ctor.C86_order_is_constant"
   ],
   "note": "Wave numbers are rational instead of complex; the routine lookup by name is not modelled."
  },
  {
   "property": "C87",
   "status": "proved",
   "theorems": [
    "Boxtree.FmmLib.Err.C87_result_or_exception",
    "Boxtree.FmmLib.Err.C87_success",
    "Boxtree.FmmLib.Err.C87_forming_noticed",
    "Boxtree.FmmLib.Err.C87_translation_noticed",
    "Boxtree.FmmLib.Err.C87_rotation_noticed",
    "Boxtree.FmmLib.Err.C87_evaluation_noticed"
   ],
   "note": "Which calls fail is an arbitrary function of the arguments. For translations between levels the failure is assumed for all coefficients. In two dimensions only formmp and formta return error codes."
  },
  {
   "property": "C88",
   "status": "proved",
   "theorems": [
    "Boxtree.Build.C88_every_schedule",
    "Boxtree.Build.C88_documented_call",
    "Boxtree.Build.C88_turns"
   ],
   "note": "All element-wise kernels of the tree builder that access other entries than those of their own work item. The scans are covered by C54. Loads and stores of a cell are atomic; weak memory is not modelled. The launches follow each other as in an in-order command queue (see C89)."
  },
  {
   "property": "C89",
   "status": "partial",
   "theorems": [
    "Boxtree.Build.C89_in_order_queue",
    "Boxtree.Build.C89_any_order_partial",
    "Boxtree.Build.C89_sources_unordered",
    "Boxtree.Build.C89_event_without_sources"
   ],
   "note": "With an in-order queue everything holds. With a queue that follows events only, it holds if sources and targets are the same, and for the targets otherwise. It is false for the sources: the launch for the sources of a level waits for that of the targets of the level below only. Launches do not overlap in the model; events of fills and of earlier launches are taken as complete."
  },
  {
   "property": "C90",
   "status": "proved",
   "theorems": [
    "Boxtree.C90_local_tree",
    "Boxtree.C90_local_particles",
    "Boxtree.C90_translation_classes",
    "Boxtree.C90_level_starts"
   ],
   "note": "Work items are programs of loads and atomic changes that take turns in any order. Level starts: for trees whose boxes are ordered by level, as those of the builder are. Scans are modelled by their results."
  },
  {
   "property": "C91",
   "status": "proved",
   "theorems": [
    "Boxtree.C91_get_box_list",
    "Boxtree.C91_lists",
    "Boxtree.C91_negative"
   ],
   "note": "On host arrays. Negative indices from -3 on are off by one (finding oo)."
  },
  {
   "property": "C92",
   "status": "partial",
   "theorems": [
    "Boxtree.C92_exactly_once_partial",
    "Boxtree.C92_negative_word"
   ],
   "note": "The lists are complete if the word in front of same_level_non_well_sep_boxes_starts is not negative; the statement that no kernel reads outside its arrays is false (the root's parent id -1 is used as an index), and with a negative word C92_negative_word shows further reads at negative indices for every history. Level type and depth limit as in C14. The attributes level_start_* are not part of the model here (None once a tree is refined)."
  },
  {
   "property": "C93",
   "status": "proved",
   "theorems": [
    "Boxtree.C93_reads_exact",
    "Boxtree.C93_too_many_boxes",
    "Boxtree.C93_limits"
   ],
   "note": "Both directions: the stated bound is exact. Signed overflow, undefined in C, is modelled as wrapping."
  },
  {
   "property": "C94",
   "status": "proved",
   "theorems": [
    "Boxtree.C94_leaf_mesh"
   ],
   "note": "Signed level dtype and depth limit as in C14. modepy.tensor_product_nodes by its contract, meshmode not modelled."
  },
  {
   "property": "C95",
   "status": "partial",
   "theorems": [
    "Boxtree.C95_any_order_partial",
    "Boxtree.C95_roles_first_partial",
    "Boxtree.C95_in_order",
    "Boxtree.C95_without_level_starts"
   ],
   "note": "Proved for all orders if the tree has level_start_box_nrs. False for trees without them (trees of boxes): C95_without_level_starts; there C95_roles_first_partial asks that the kernel of the role lists runs first. Launches are atomic, the passes of a list builder are one launch (pyopencl may wait for sizes on the host)."
  },
  {
   "property": "C96",
   "status": "partial",
   "theorems": [
    "Boxtree.C96_area_query",
    "Boxtree.C96_space_invader",
    "Boxtree.C96_leaves_to_balls_partial",
    "Boxtree.C96_expander_unordered"
   ],
   "note": "Proved for the area and space invader queries. False for the leaves-to-balls lookup, whose starts expander waits for nothing (C96_expander_unordered); C96_leaves_to_balls_partial asks that the query is complete when it runs. Launches are atomic, the passes of list builders and of the sorter are one launch, freezing does not wait."
  },
  {
   "property": "C97",
   "status": "partial",
   "theorems": [
    "Boxtree.C97_not_copied_partial",
    "Boxtree.C97_given_first_partial",
    "Boxtree.C97_copied_too_early"
   ],
   "note": "Proved without targets and with an object array of particles; false otherwise (C97_copied_too_early), there C97_given_first_partial asks that the caller's launch runs first. Everything from the bounding box finder on is one launch; the reductions of the refine weights are not modelled."
  },
  {
   "property": "C98",
   "status": "partial",
   "theorems": [
    "Boxtree.Build.C98_shallow_partial",
    "Boxtree.Build.C98_limit",
    "Boxtree.Build.C98_not_separated",
    "Boxtree.Build.C98_not_separated_rounded",
    "Boxtree.Build.C98_deep_fails"
   ],
   "note": "Proved for trees of at most 31 levels; false beyond (C98_not_separated, C98_deep_fails). C98_limit says what the plain adaptive builder does instead: it acts as one with true powers of two and a limit of 33 levels. The 32-bit shifts of the box radii are C51."
  },
  {
   "property": "C99",
   "status": "partial",
   "theorems": [
    "Boxtree.C99_center_has_particle_partial",
    "Boxtree.C99_center_level30",
    "Boxtree.C99_center_level31",
    "Boxtree.Build.C99_deep_tree"
   ],
   "note": "Proved up to level 29, with the shifts evaluated as 32-bit integers; false on levels 30 and 31 for every particle, and the builder makes such levels (C99_deep_tree). Without rounding; with rounding and true powers of two see C70."
  }
 ]
}