import Verif.Model.Container

/-!
Vocabulary for C82: what a user sees of a container is what is found by attribute access and indexing.
-/

namespace Boxtree.Container

variable {α : Type}

/-- One access: `.name` or `[i]`. -/
inductive Step
  | attr (name : String)
  | index (i : Nat)

/-- `v.a[i].b…` -/
def Val.get : Val α → List Step → Option (Val α)
  | v, [] => some v
  | .inst _ as, .attr n :: p => (Container.attr n as).bind fun v => v.get p
  | .obj vs, .index i :: p => vs[i]?.bind fun v => v.get p
  | _, _ => none

/-- The access goes only through fields that are arrays or containers. -/
def Val.transferred (cls : String → Desc) : Val α → List Step → Bool
  | _, [] => true
  | .inst c as, .attr n :: p =>
    decide (n ∈ (cls c).arrays) &&
      (match Container.attr n as with | some v => v.transferred cls p | none => true)
  | .obj vs, .index i :: p => match vs[i]? with | some v => v.transferred cls p | none => true
  | _, _ => true

/-- Instances have the attributes of their class and no others. -/
def Val.Proper (cls : String → Desc) (v : Val α) : Prop :=
  ∀ p c as, v.transferred cls p = true → v.get p = some (.inst c as) →
    ∀ n, (attr n as).isSome = true ↔ n ∈ (cls c).arrays ∨ n ∈ (cls c).others

/-- All leaves at transferred places satisfy `P`. -/
def Val.Leaves (cls : String → Desc) (v : Val α) (P : Leaf α → Prop) : Prop :=
  ∀ p x, v.transferred cls p = true → v.get p = some (.leaf x) → P x

/-- What a device-side result consists of. -/
def OnDevice : Leaf α → Prop
  | .device _ _ _ | .scalar _ | .none => True
  | _ => False

/-- What a host-side result consists of. -/
def OnHost : Leaf α → Prop
  | .numpy _ | .scalar _ | .none => True
  | _ => False

/-- The same content on the host, and on the device. -/
def toHost : Leaf α → Leaf α
  | .device _ _ x => .numpy x
  | y => y

def toDevice : Leaf α → Leaf α
  | .numpy x => .device true true x
  | y => y

/-- The same content, unbound from the queue. -/
def unbound : Leaf α → Leaf α
  | .device _ _ x => .device true false x
  | y => y

/-- The same content, as an array made by the array context. -/
def retagged : Leaf α → Leaf α
  | .device _ _ x => .device true true x
  | y => y

/-- A field with this annotation is expected to hold arrays. -/
def holdsArrays : Ty → Bool
  | .array | .ndarray | .container _ | .objectArray _ => true
  | .union ts => ts.all fun t => match t with | .array | .noneType => true | _ => false
  | _ => false

/-- The attributes of a tree that are documented as arrays (`root_extent` is a scalar annotated as one). -/
def treeArrays : List String :=
  ["root_extent", "box_centers", "box_parent_ids", "box_child_ids", "box_levels", "box_flags",
    "level_start_box_nrs", "sources", "source_radii", "targets", "target_radii", "user_source_ids",
    "sorted_target_ids", "box_source_starts", "box_source_counts_nonchild", "box_source_counts_cumul",
    "box_target_starts", "box_target_counts_nonchild", "box_target_counts_cumul",
    "box_source_bounding_box_min", "box_source_bounding_box_max", "box_target_bounding_box_min",
    "box_target_bounding_box_max"]

/-- The attributes of a tree that are numbers, truth values or data types, and its bounding box. -/
def treeOthers : List String :=
  ["box_id_dtype", "box_level_dtype", "coord_dtype", "sources_have_extent", "targets_have_extent",
    "extent_norm", "stick_out_factor", "_is_pruned", "sources_are_targets", "particle_id_dtype",
    "bounding_box"]

/-- For each class of results, the attributes documented as arrays or containers, and the others. -/
def documentedAttributes : List (String × List String × List String) :=
  [("TreeOfBoxes", treeArrays.take 7, treeOthers.take 8),
   ("Tree", treeArrays, treeOthers),
   ("TreeWithLinkedPointSources", treeArrays ++ ["point_source_starts", "point_source_counts",
      "point_sources", "user_point_source_ids", "box_point_source_starts",
      "box_point_source_counts_nonchild", "box_point_source_counts_cumul"], treeOthers ++ ["npoint_sources"]),
   ("LocalTree", treeArrays ++ ["box_to_user_rank_starts", "box_to_user_rank_lists",
      "responsible_boxes_list", "responsible_boxes_mask", "ancestor_mask"], treeOthers),
   ("FilteredTargetListsInUserOrder", ["target_starts", "target_lists"], ["nfiltered_targets"]),
   ("FilteredTargetListsInTreeOrder", ["box_target_starts", "box_target_counts_nonchild", "targets",
      "unfiltered_from_filtered_target_indices"], ["nfiltered_targets"]),
   ("FMMTraversalInfo", ["tree", "source_boxes", "target_boxes", "level_start_source_box_nrs",
      "level_start_target_box_nrs", "source_parent_boxes", "level_start_source_parent_box_nrs",
      "target_or_target_parent_boxes", "level_start_target_or_target_parent_box_nrs",
      "same_level_non_well_sep_boxes_starts", "same_level_non_well_sep_boxes_lists",
      "neighbor_source_boxes_starts", "neighbor_source_boxes_lists", "from_sep_siblings_starts",
      "from_sep_siblings_lists", "from_sep_smaller_by_level", "target_boxes_sep_smaller_by_source_level",
      "from_sep_close_smaller_starts", "from_sep_close_smaller_lists", "from_sep_bigger_starts",
      "from_sep_bigger_lists", "from_sep_close_bigger_starts", "from_sep_close_bigger_lists"],
      ["well_sep_is_n_away"]),
   ("PeerListLookup", ["tree", "peer_list_starts", "peer_lists"], []),
   ("AreaQueryResult", ["tree", "leaves_near_ball_starts", "leaves_near_ball_lists"], []),
   ("LeavesToBallsLookup", ["tree", "balls_near_box_starts", "balls_near_box_lists"], []),
   ("TranslationClassesInfo", ["traversal", "from_sep_siblings_translation_classes",
      "from_sep_siblings_translation_class_to_distance_vector",
      "from_sep_siblings_translation_classes_level_starts"], []),
   ("RotationClassesInfo", ["from_sep_siblings_rotation_classes",
      "from_sep_siblings_rotation_class_to_angle"], []),
   ("BuiltList", ["starts", "lists", "nonempty_indices", "compressed_indices"],
      ["count", "num_nonempty_lists"])]

/-- `w` has at every place what `v` has there, with `f` applied to the leaves at transferred places. -/
def SameUpTo (cls : String → Desc) (f : Leaf α → Leaf α) (v w : Val α) : Prop :=
  ∀ p x, v.get p = some (.leaf x) →
    w.get p = some (.leaf (if v.transferred cls p = true then f x else x))

end Boxtree.Container
