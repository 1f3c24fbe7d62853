import Mathlib.Data.Rat.Defs

/-!
Model of `/repo/boxtree/array_context.py`: which fields of the result classes are array fields, and what
`to_numpy`, `from_numpy` and `freeze` do with an instance.

The traversal of containers itself (`rec_map_array_container`, `_inject_dataclass_serialization`,
`all_type_leaves_satisfy_predicate`) belongs to `arraycontext`, which is not in `/repo`; it is modelled
after its documentation.
-/

namespace Boxtree.Container

/-- A field annotation, evaluated.  `other` is any type without arrays known to `arraycontext`: data
types, numbers, `tuple[...]`.  Types told apart by `/repo/boxtree/array_context.py:158-201`. -/
inductive Ty
  | array
  | ndarray
  /-- a class with registered serialization: a dataclass container or `BuiltList` -/
  | container (name : String)
  | objectArray (entry : Ty)
  | noneType
  | union (alternatives : List Ty)
  /-- `Literal[...]` and other special forms -/
  | special (name : String)
  | other (name : String)

/-- A field of a dataclass.  `_Field` as used in `/repo/boxtree/array_context.py:171-206`. -/
structure Field where
  name : String
  ty : Ty
  init : Bool := true

/-- `is_array_or_container_type`, `/repo/boxtree/array_context.py:158-169`. -/
def isArrayOrContainer : Ty → Bool
  | .array | .ndarray | .container _ | .objectArray _ => true
  | _ => false

/-- `all_type_leaves_satisfy_predicate` of `arraycontext` for the types that reach it: the entries of an
object array must again be arrays or containers.  Call at `/repo/boxtree/array_context.py:197-201`;
the function itself is not in `/repo`. -/
def leavesSatisfy : Ty → Bool
  | .objectArray e => leavesSatisfy e
  | t => isArrayOrContainer t

/-- `is_array_field`, `/repo/boxtree/array_context.py:171-201`. -/
def isArrayField (f : Field) : Except String Bool :=
  match f.ty with
  | .union ts => .ok (ts.all fun t => isArrayOrContainer t || (match t with | .noneType => true | _ => false))
  | t =>
    if !f.init then .error "ValueError"
    else match t with
      | .special _ => .ok false
      | t => if !isArrayOrContainer t then .ok false else .ok (leavesSatisfy t)

/-- How a class is taken apart and put together.  Result of `/repo/boxtree/array_context.py:212` and
of `:222-239`. -/
structure Desc where
  /-- fields that are arrays or containers -/
  arrays : List String
  /-- fields that are copied -/
  others : List String
  deriving DecidableEq

/-- `dataclass_array_container`, `/repo/boxtree/array_context.py:139-212`. -/
def dataclassArrayContainer (fields : List Field) : Except String Desc := do
  let marked ← fields.mapM fun f => do return (f.name, ← isArrayField f)
  let arrays := (marked.filter (·.2)).map (·.1)
  if arrays.isEmpty then .error "ValueError"
  else return { arrays, others := (marked.filter (!·.2)).map (·.1) }

/-- `serialize_built_list` and `deserialize_built_list`, `/repo/boxtree/array_context.py:222-239`. -/
def builtListDesc : Desc where
  arrays := ["starts", "lists", "nonempty_indices", "compressed_indices"]
  others := ["count", "num_nonempty_lists"]

/-- The values that are not containers. `α` stands for the content of an array.  Cases of
`_wrapper`, `/repo/boxtree/array_context.py:74-99`. -/
inductive Leaf (α : Type)
  /-- an array on the device; `tagged` for `TaggableCLArray`, `queue` if it is bound to a queue -/
  | device (tagged queue : Bool) (x : α)
  /-- an array of `numpy` with a data type other than `object` -/
  | numpy (x : α)
  /-- a scalar of Python or `numpy` -/
  | scalar (x : ℚ)
  | none
  /-- anything else, such as a data type or a tuple -/
  | py (repr : String)
  deriving DecidableEq

/-- The values: leaves, object arrays, and instances of classes with attributes.  Arguments of
`/repo/boxtree/array_context.py:63-101`. -/
inductive Val (α : Type)
  | leaf (x : Leaf α)
  | obj (entries : List (Val α))
  | inst (cls : String) (attrs : List (String × Val α))

variable {α : Type}

/-- Value of an attribute in a list of attributes.  Auxiliary to `getattr`.  Models no code of
`/repo` on its own; used for `/repo/boxtree/array_context.py:222-239`. -/
def attr {β : Type} (n : String) : List (String × β) → Option β
  | [] => none
  | (m, x) :: r => if m = n then some x else attr n r

/-- `getattr`.  Used by the generated serialization, `/repo/boxtree/array_context.py:212`, and in
`/repo/boxtree/distributed/local_tree.py:316-493`. -/
def getattr {β : Type} (n : String) (as : List (String × β)) : Except String β :=
  match attr n as with
  | some x => .ok x
  | none => .error "AttributeError"

mutual
/-- `rec_map_array_container` of `arraycontext`: apply `f` to the leaves of a container.  `cls` tells how
instances of a class are taken apart.  The order of the attributes of the result is not observable.
Called at `/repo/boxtree/array_context.py:101`; the function itself is not in `/repo`. -/
def recMap (cls : String → Desc) (f : Leaf α → Except String (Leaf α)) : Val α → Except String (Val α)
  | .leaf x => (f x).map .leaf
  | .obj vs => (recMapList cls f vs).map .obj
  | .inst c as => do
    let mapped := recMapAttrs cls f as
    let ser ← (cls c).arrays.mapM fun n => do return (n, ← (← getattr n mapped))
    let oth ← (cls c).others.mapM fun n => do return (n, ← getattr n as)
    return .inst c (oth ++ ser)

/-- `recMap` for the entries of an object array, called at `/repo/boxtree/array_context.py:101`. -/
def recMapList (cls : String → Desc) (f : Leaf α → Except String (Leaf α)) :
    List (Val α) → Except String (List (Val α))
  | [] => .ok []
  | v :: vs => do return (← recMap cls f v) :: (← recMapList cls f vs)

/-- `recMap` for the attributes of an instance, called at `/repo/boxtree/array_context.py:101`. -/
def recMapAttrs (cls : String → Desc) (f : Leaf α → Except String (Leaf α)) :
    List (String × Val α) → List (String × Except String (Val α))
  | [] => []
  | (n, v) :: as => (n, recMap cls f v) :: recMapAttrs cls f as
end

/-- The types of leaves a mapping accepts.  `allowed_types`, `/repo/boxtree/array_context.py:66-72`.
-/
inductive Allowed
  /-- `allowed_types=None`: `TaggableCLArray`, or other device arrays, which are converted (`strict=False`) -/
  | device
  /-- `allowed_types=(np.ndarray,)`, `strict=True` -/
  | numpy

/-- `_wrapper` of `_boxtree_rec_map_container`, `/repo/boxtree/array_context.py:74-99`. -/
def wrapper (allowed : Allowed) (func : Leaf α → Leaf α) (defaultScalar : Option ℚ) :
    Leaf α → Except String (Leaf α)
  | .none => .ok .none
  | .device _ q x =>
    match allowed with
    -- `to_tagged_cl_array` if it is not tagged
    | .device => .ok (func (.device true q x))
    | .numpy => .error "TypeError"
  | .numpy x =>
    match allowed with
    | .device => .error "TypeError"
    | .numpy => .ok (func (.numpy x))
  | .scalar s => match defaultScalar with
    | none => .ok (.scalar s)
    | some d => .ok (.scalar d)
  | .py _ => .error "TypeError"

/-- `_boxtree_rec_map_container`, `/repo/boxtree/array_context.py:63-101`. -/
def recMapContainer (cls : String → Desc) (func : Leaf α → Leaf α) (v : Val α) (allowed : Allowed := .device)
    (defaultScalar : Option ℚ := none) : Except String (Val α) :=
  recMap cls (wrapper allowed func defaultScalar) v

/-- `to_numpy` of the array context of `arraycontext`, which calls `_rec_map_container`.  It reaches
`/repo/boxtree/array_context.py:122-132`; the method itself is not in `/repo`. -/
def toNumpy (cls : String → Desc) (v : Val α) : Except String (Val α) :=
  recMapContainer cls (fun | .device _ _ x => .numpy x | y => y) v

/-- `from_numpy` of the array context.  It reaches `/repo/boxtree/array_context.py:122-132`; the
method itself is not in `/repo`. -/
def fromNumpy (cls : String → Desc) (v : Val α) : Except String (Val α) :=
  recMapContainer cls (fun | .numpy x => .device true true x | y => y) v (allowed := .numpy)

/-- `freeze` of the array context: the arrays are unbound from the queue.  It reaches
`/repo/boxtree/array_context.py:122-132`; the method itself is not in `/repo`. -/
def freeze (cls : String → Desc) (v : Val α) : Except String (Val α) :=
  recMapContainer cls (fun | .device t _ x => .device t false x | y => y) v

/-! ### The classes -/

/-- Fields with annotation `Array`, as in `/repo/boxtree/tree.py:226-233`. -/
def arrays (ns : List String) : List Field := ns.map fun n => ⟨n, .array, true⟩
/-- Fields with annotation `Array | None`, as in `/repo/boxtree/tree.py:235-236`. -/
def optional (ns : List String) : List Field := ns.map fun n => ⟨n, .union [.array, .noneType], true⟩
/-- Fields with another annotation, as in `/repo/boxtree/tree.py:238-248`. -/
def others (ns : List String) (ty : String) : List Field := ns.map fun n => ⟨n, .other ty, true⟩

/-- `TreeOfBoxes`, `/repo/boxtree/tree.py:226-248`. `ExtentNorm` is a `Literal`
(`/repo/boxtree/tree_build.py:88`). -/
def treeOfBoxesFields : List Field :=
  arrays ["root_extent", "box_centers", "box_parent_ids", "box_child_ids", "box_levels"] ++
  optional ["box_flags", "level_start_box_nrs"] ++
  others ["box_id_dtype", "box_level_dtype", "coord_dtype"] "dtype" ++
  others ["sources_have_extent", "targets_have_extent"] "bool" ++
  [⟨"extent_norm", .special "Literal", true⟩, ⟨"stick_out_factor", .other "float", true⟩,
   ⟨"_is_pruned", .other "bool", true⟩]

/-- `Tree`, `/repo/boxtree/tree.py:555-590`. -/
def treeFields : List Field :=
  treeOfBoxesFields ++ others ["sources_are_targets"] "bool" ++ others ["particle_id_dtype"] "dtype" ++
  arrays ["sources", "source_radii", "targets", "target_radii"] ++
  others ["bounding_box"] "tuple[Array, Array]" ++
  arrays ["user_source_ids", "sorted_target_ids", "box_source_starts", "box_source_counts_nonchild",
    "box_source_counts_cumul", "box_target_starts", "box_target_counts_nonchild", "box_target_counts_cumul",
    "box_source_bounding_box_min", "box_source_bounding_box_max", "box_target_bounding_box_min",
    "box_target_bounding_box_max"]

/-- `TreeWithLinkedPointSources`, `/repo/boxtree/tree.py:760-769`. -/
def linkedTreeFields : List Field :=
  treeFields ++ others ["npoint_sources"] "int" ++
  arrays ["point_source_starts", "point_source_counts", "point_sources", "user_point_source_ids",
    "box_point_source_starts", "box_point_source_counts_nonchild", "box_point_source_counts_cumul"]

/-- `LocalTree`, `/repo/boxtree/distributed/local_tree.py:306-313`. -/
def localTreeFields : List Field :=
  treeFields ++ arrays ["box_to_user_rank_starts", "box_to_user_rank_lists", "responsible_boxes_list",
    "responsible_boxes_mask", "ancestor_mask"]

/-- `FilteredTargetListsInUserOrder`, `/repo/boxtree/tree.py:993-997`. -/
def filteredUserFields : List Field :=
  others ["nfiltered_targets"] "int" ++ arrays ["target_starts", "target_lists"]

/-- `FilteredTargetListsInTreeOrder`, `/repo/boxtree/tree.py:1048-1054`. -/
def filteredTreeFields : List Field :=
  others ["nfiltered_targets"] "int" ++ arrays ["box_target_starts", "box_target_counts_nonchild", "targets",
    "unfiltered_from_filtered_target_indices"]

/-- `FMMTraversalInfo`, `/repo/boxtree/traversal.py:1593-1630`. -/
def traversalFields : List Field :=
  [⟨"tree", .container "Tree", true⟩] ++ others ["well_sep_is_n_away"] "int" ++
  arrays ["source_boxes", "target_boxes"] ++
  optional ["level_start_source_box_nrs", "level_start_target_box_nrs"] ++ arrays ["source_parent_boxes"] ++
  optional ["level_start_source_parent_box_nrs"] ++ arrays ["target_or_target_parent_boxes"] ++
  optional ["level_start_target_or_target_parent_box_nrs"] ++
  arrays ["same_level_non_well_sep_boxes_starts", "same_level_non_well_sep_boxes_lists",
    "neighbor_source_boxes_starts", "neighbor_source_boxes_lists", "from_sep_siblings_starts",
    "from_sep_siblings_lists"] ++
  [⟨"from_sep_smaller_by_level", .objectArray (.container "BuiltList"), true⟩,
   ⟨"target_boxes_sep_smaller_by_source_level", .objectArray .array, true⟩] ++
  optional ["from_sep_close_smaller_starts", "from_sep_close_smaller_lists"] ++
  arrays ["from_sep_bigger_starts", "from_sep_bigger_lists"] ++
  optional ["from_sep_close_bigger_starts", "from_sep_close_bigger_lists"]

/-- `PeerListLookup`, `AreaQueryResult`, `LeavesToBallsLookup`: `/repo/boxtree/area_query.py:108-112`,
`134-138`, `161-165`. -/
def peerListFields : List Field :=
  [⟨"tree", .container "Tree", true⟩] ++ arrays ["peer_list_starts", "peer_lists"]
/-- `AreaQueryResult`, `/repo/boxtree/area_query.py:117-138`. -/
def areaQueryFields : List Field :=
  [⟨"tree", .container "Tree", true⟩] ++ arrays ["leaves_near_ball_starts", "leaves_near_ball_lists"]
/-- `LeavesToBallsLookup`, `/repo/boxtree/area_query.py:143-165`. -/
def leavesToBallsFields : List Field :=
  [⟨"tree", .container "Tree", true⟩] ++ arrays ["balls_near_box_starts", "balls_near_box_lists"]

/-- `TranslationClassesInfo`, `/repo/boxtree/translation_classes.py:232-237`. -/
def translationClassesFields : List Field :=
  [⟨"traversal", .container "FMMTraversalInfo", true⟩] ++ arrays ["from_sep_siblings_translation_classes",
    "from_sep_siblings_translation_class_to_distance_vector",
    "from_sep_siblings_translation_classes_level_starts"]

/-- `RotationClassesInfo`, `/repo/boxtree/rotation_classes.py:76-79`. -/
def rotationClassesFields : List Field :=
  arrays ["from_sep_siblings_rotation_classes", "from_sep_siblings_rotation_class_to_angle"]

/-- The dataclasses decorated with `dataclass_array_container`.  `/repo/boxtree/tree.py:153-1054`,
`/repo/boxtree/traversal.py:1353`, `/repo/boxtree/area_query.py:92-163`,
`/repo/boxtree/translation_classes.py:196`, `/repo/boxtree/rotation_classes.py:57`,
`/repo/boxtree/distributed/local_tree.py:289`. -/
def dataclasses : List (String × List Field) :=
  [("TreeOfBoxes", treeOfBoxesFields), ("Tree", treeFields),
   ("TreeWithLinkedPointSources", linkedTreeFields), ("LocalTree", localTreeFields),
   ("FilteredTargetListsInUserOrder", filteredUserFields),
   ("FilteredTargetListsInTreeOrder", filteredTreeFields), ("FMMTraversalInfo", traversalFields),
   ("PeerListLookup", peerListFields), ("AreaQueryResult", areaQueryFields),
   ("LeavesToBallsLookup", leavesToBallsFields), ("TranslationClassesInfo", translationClassesFields),
   ("RotationClassesInfo", rotationClassesFields)]

/-- The registered containers of boxtree.  `/repo/boxtree/array_context.py:139-239` applied to them.
-/
def classes (c : String) : Desc :=
  if c = "BuiltList" then builtListDesc
  else match attr c dataclasses with
    | some fs => match dataclassArrayContainer fs with
      | .ok d => d
      | .error _ => ⟨[], []⟩
    | none => ⟨[], []⟩

/-! ### The objects that the builders assemble

`x n` is the content of the array `n`, `y n i` that of entry `i` of an object array. -/

/-- `dev x ns`: attributes that are arrays on the device.  Auxiliary to the objects put together in
`/repo/boxtree/tree_build.py:1810-1876` and `/repo/boxtree/traversal.py:2299-2345`. -/
def dev (x : String → α) (ns : List String) : List (String × Val α) :=
  ns.map fun n => (n, .leaf (.device true true (x n)))

/-- Attributes that are neither arrays nor containers, in `/repo/boxtree/tree_build.py:1810-1876`
and `/repo/boxtree/traversal.py:2299-2345`. -/
def plain (ns : List String) : List (String × Val α) := ns.map fun n => (n, .leaf (.py n))

/-- Attributes that are device arrays or `None`, in `/repo/boxtree/tree_build.py:1810-1876` and
`/repo/boxtree/traversal.py:2299-2345`. -/
def devIf (b : Bool) (x : String → α) (ns : List String) : List (String × Val α) :=
  if b then dev x ns else ns.map fun n => (n, .leaf .none)

/-- Object array with `k` entries.  Such as `sources`, `/repo/boxtree/tree_build.py:1810-1876`. -/
def devObj (n : String) (y : String → Nat → α) (k : Nat) : List (String × Val α) :=
  [(n, .obj ((List.range k).map fun i => .leaf (.device true true (y n i))))]

/-- The `Tree` of `TreeBuilder.__call__`, `/repo/boxtree/tree_build.py:1810-1876`; radii only for particles
with extent. -/
def assembleTree (x : String → α) (y : String → Nat → α) (axes : Nat) (rootExtent : ℚ)
    (sourceExt targetExt : Bool) : Val α :=
  .inst "Tree" (
    plain ["sources_are_targets", "sources_have_extent", "targets_have_extent", "particle_id_dtype",
      "box_id_dtype", "coord_dtype", "box_level_dtype", "bounding_box", "stick_out_factor", "extent_norm",
      "_is_pruned"] ++
    [("root_extent", .leaf (.scalar rootExtent))] ++
    devObj "sources" y axes ++ devObj "targets" y axes ++
    dev x ["level_start_box_nrs", "box_source_starts", "box_source_counts_nonchild",
      "box_source_counts_cumul", "box_target_starts", "box_target_counts_nonchild",
      "box_target_counts_cumul", "box_parent_ids", "box_child_ids", "box_centers", "box_levels",
      "box_flags", "user_source_ids", "sorted_target_ids", "box_source_bounding_box_min",
      "box_source_bounding_box_max", "box_target_bounding_box_min", "box_target_bounding_box_max"] ++
    devIf sourceExt x ["source_radii"] ++ devIf targetExt x ["target_radii"])

/-- A `BuiltList` for one level of list 3, without the boxes that have empty lists.
`/repo/boxtree/traversal.py:2203-2216`. -/
def assembleBuiltList (x : String → α) : Val α :=
  .inst "BuiltList" (plain ["count", "num_nonempty_lists"] ++
    dev x ["starts", "lists", "nonempty_indices", "compressed_indices"])

/-- The `FMMTraversalInfo` of `FMMTraversalBuilder.__call__`, `/repo/boxtree/traversal.py:2299-2345`; close
lists only with `ext`.  `z i` is the content of list 3 of level `i`. -/
def assembleTraversal (tree : Val α) (x : String → α) (y : String → Nat → α) (z : Nat → String → α)
    (nlevels : Nat) (ext : Bool) : Val α :=
  .inst "FMMTraversalInfo" (
    [("tree", tree)] ++ plain ["well_sep_is_n_away"] ++
    dev x ["source_boxes", "target_boxes", "level_start_source_box_nrs", "level_start_target_box_nrs",
      "source_parent_boxes", "level_start_source_parent_box_nrs", "target_or_target_parent_boxes",
      "level_start_target_or_target_parent_box_nrs", "same_level_non_well_sep_boxes_starts",
      "same_level_non_well_sep_boxes_lists", "neighbor_source_boxes_starts", "neighbor_source_boxes_lists",
      "from_sep_siblings_starts", "from_sep_siblings_lists", "from_sep_bigger_starts",
      "from_sep_bigger_lists"] ++
    [("from_sep_smaller_by_level", .obj ((List.range nlevels).map fun i => assembleBuiltList (z i)))] ++
    devObj "target_boxes_sep_smaller_by_source_level" y nlevels ++
    devIf ext x ["from_sep_close_smaller_starts", "from_sep_close_smaller_lists",
      "from_sep_close_bigger_starts", "from_sep_close_bigger_lists"])

/-- `generate_local_tree`, `/repo/boxtree/distributed/local_tree.py:316-493`, as far as it takes the global
tree apart and puts the local tree together; `tree` are the attributes of the global tree, `x`, `y` the
contents of the arrays that are computed.  The name `sources_radii` is that of line 357.  Of the use of
`responsible_boxes_list` as an index of a device array (`partition.py:341`) it is assumed that it works. -/
def generateLocalTree (tree : List (String × Val α)) (sourceExt targetExt : Bool)
    (responsibleBoxesList : Leaf α) (x : String → α) (y : String → Nat → α) (axes : Nat) :
    Except String (Val α) := do
  if sourceExt then let _ ← getattr "sources_radii" tree
  if targetExt then let _ ← getattr "target_radii" tree
  let copied ← ["sources_are_targets", "sources_have_extent", "targets_have_extent", "particle_id_dtype",
    "box_id_dtype", "coord_dtype", "box_level_dtype", "root_extent", "stick_out_factor", "extent_norm",
    "bounding_box", "level_start_box_nrs", "box_parent_ids", "box_child_ids", "box_centers", "box_levels",
    "box_source_bounding_box_min", "box_source_bounding_box_max", "box_target_bounding_box_min",
    "box_target_bounding_box_max", "_is_pruned"].mapM fun n => do return (n, ← getattr n tree)
  freeze classes (.inst "LocalTree" (copied ++
    devObj "sources" y axes ++ devObj "targets" y axes ++
    devIf sourceExt x ["source_radii"] ++ devIf targetExt x ["target_radii"] ++
    dev x ["box_source_starts", "box_source_counts_nonchild", "box_source_counts_cumul",
      "box_target_starts", "box_target_counts_nonchild", "box_target_counts_cumul", "box_flags",
      "responsible_boxes_mask", "ancestor_mask", "box_to_user_rank_starts", "box_to_user_rank_lists"] ++
    [("user_source_ids", .leaf .none), ("sorted_target_ids", .leaf .none),
     ("responsible_boxes_list", .leaf responsibleBoxesList)]))

end Boxtree.Container
