import Verif.Model.Setters
/-
The functions that make a value: `Type::new(…)` and its like.  Paths are relative to /repo/ifc_rs/src.

Texts are arguments after their conversion into `StringPrimitive`, numbers after their conversion into `RealPrimitive`
or the vectors `IfcDVec2`, `IfcDVec3`.  The id drawn by `IfcGloballyUniqueId::new_v4` (id/ifc_uuid.rs:37-39) is an
argument; types without a global id do not use it.
-/
namespace Verif.Setters
open Verif Schema

/-- types of parameters -/
inductive Par where
  | one (a : ArgTy)
  /-- `impl Iterator`, `impl IntoIterator`: one after the other -/
  | each (a : ArgTy)
  /-- `impl Into<Option<_>>`, made an optional parameter by parser/optional.rs:52-59 -/
  | option (f : Fld)
  /-- `bool`, parser/bool.rs:20-28 -/
  | flag
  /-- `TypedId<K>` -/
  | typed (k : Kind)
  /-- `impl IntoIterator<Item = TypedId<K>>` -/
  | typeds (k : Kind)

@[reducible] def Par.Val : Par → Type
  | .one a => a.Val
  | .each a => List a.Val
  | .option f => Option f.Val
  | .flag => Bool
  | .typed _ => Nat
  | .typeds _ => List Nat

@[reducible] def Par.fld : Par → Fld
  | .one a => a.fld
  | .each a => .list a.fld
  | .option f => .opt f
  | .flag => .bool
  | .typed _ => .ref none
  | .typeds _ => .list (.ref none)

/-- `iter.map(|x| x.or_insert(ifc)).collect()` -/
def takeEach (a : ArgTy) : DataMap → List a.Val → Ret (DataMap × List a.fld.Val)
  | m, [] => .val (m, [])
  | m, x :: xs => do
    let (m, y) ← a.take m x
    let (m, ys) ← takeEach a m xs
    return (m, y :: ys)

def Par.take : (p : Par) → DataMap → p.Val → Ret (DataMap × p.fld.Val)
  | .one a, m, x => a.take m x
  | .each a, m, xs => takeEach a m xs
  | .option _, m, x => .val (m, match x with | none => .omitted | some y => .custom y)
  | .flag, m, b => .val (m, if b then .tt else .ff)
  | .typed _, m, i => .val (m, i)
  | .typeds _, m, is => .val (m, is)

/-- names and types of parameters, in the order in which they are used -/
abbrev Pars := List (Str × Par)

@[reducible] def Args : Pars → Type
  | [] => Unit
  | p :: ps => p.2.Val × Args ps

@[reducible] def Took : Pars → Type
  | [] => Unit
  | p :: ps => p.2.fld.Val × Took ps

def takeAll : (ps : Pars) → DataMap → Args ps → Ret (DataMap × Took ps)
  | [], m, _ => .val (m, ())
  | p :: ps, m, x => do
    let (m, y) ← p.2.take m x.1
    let (m, ys) ← takeAll ps m x.2
    return (m, (y, ys))

/-- a function that makes a value of a kind -/
structure Ctor where
  kind : Kind
  name : Str
  pars : Pars
  make : Guid → Took pars → (row kind).Val

def Ctor.run (c : Ctor) (g : Guid) (m : DataMap) (x : Args c.pars) : Ret (DataMap × (row c.kind).Val) := do
  let (m, y) ← takeAll c.pars m x
  return (m, c.make g y)

def new (k : Kind) (ps : Pars) (make : Guid → Took ps → (row k).Val) : Ctor := ⟨k, cs! "new", ps, make⟩

def parText : Par := .one (.plain .str)
def parReal : Par := .one (.plain .real)
def parId : Par := .one (.plain (.ref none))
def parIds : Par := .one (.plain (.list (.ref none)))
def parEnum (t : List Str) : Par := .one (.plain (.enum t))
def parEntity (k : Kind) : Par := .one (.entity k)

/-- the parameter of almost every one -/
def parName : Str × Par := (cs! "name", parText)

/-! ### Shared parts -/

/-- objects/shared/root.rs:42-49 -/
def newRoot (g : Guid) (name : Str) : RootV := (g, .omitted, .custom name, .omitted)
/-- objects/shared/object.rs:32-37 -/
def newObject (r : RootV) : ObjectV := (r, .omitted)
/-- objects/shared/product.rs:53-59 -/
def newProduct (o : ObjectV) : ProductV := (o, .omitted, .omitted)
/-- objects/shared/element.rs:32-37 -/
def newElement (p : ProductV) : ElementV := (p, .omitted)
/-- objects/shared/spatial_element.rs:33-38 -/
def newSpatial (p : ProductV) : SpatialV := (p, .omitted)
/-- objects/shared/spatial_structure_element.rs:33-38 -/
def newStructure (s : SpatialV) : StructureV := (s, .omitted)
/-- objects/shared/type_object.rs:49-55 -/
def newTypeObject (r : RootV) : TypeObjectV := (r, .omitted, .omitted)
/-- objects/shared/type_product.rs:45-51 -/
def newTypeProduct (t : TypeObjectV) : TypeProductV := (t, .omitted, .omitted)
/-- objects/shared/element_type.rs:36-41 -/
def newElementType (t : TypeProductV) : ElementTypeV := (t, .omitted)
/-- objects/shared/context.rs:54-63 -/
def newContext (r : RootV) : ContextV := (r, .omitted, .omitted, .omitted, [], .omitted)
/-- objects/shared/rel_associates.rs:32-37 -/
def newAssociates (r : RootV) : RootV × List Nat := (r, [])

/-- `Element::new(Product::new(Object::new(Root::new(name.into()))))` -/
def elementNamed (g : Guid) (name : Str) : ElementV := newElement (newProduct (newObject (newRoot g name)))
/-- `SpatialStructureElement::new(SpatialElement::new(Product::new(Object::new(Root::new(name.into())))))` -/
def structureNamed (g : Guid) (name : Str) : StructureV :=
  newStructure (newSpatial (newProduct (newObject (newRoot g name))))
/-- `ElementType::new(TypeProduct::new(TypeObject::new(Root::new(name.into()))))` -/
def typeNamed (g : Guid) (name : Str) : ElementTypeV := newElementType (newTypeProduct (newTypeObject (newRoot g name)))

/-! ### Objects -/

/-- objects/wall/mod.rs:34-39, objects/slab/mod.rs:54-59, objects/roof/mod.rs:54-59, objects/opening_element/mod.rs:72-77,
objects/shading_device.rs:34-40, objects/window/mod.rs:106-115, objects/door/mod.rs:130-139 -/
def elementCtors : List Ctor :=
  [new .Wall [parName] fun g y => ((elementNamed g y.1, .omitted) : ElementV × Opt (IdOr (row .WallType).Val)),
   new .Slab [parName] fun g y => ((elementNamed g y.1, .omitted) : ElementV × Opt (Fin eSlabTypeEnum.length)),
   new .Roof [parName] fun g y => ((elementNamed g y.1, .omitted) : ElementV × Opt (Fin eRoofTypeEnum.length)),
   new .OpeningElement [parName] fun g y =>
     ((elementNamed g y.1, .omitted) : ElementV × Opt (Fin eOpeningElementTypeEnum.length)),
   new .ShadingDevice [parName] fun g y =>
     ((elementNamed g y.1, .omitted) : ElementV × Opt (Fin eShadingDeviceTypeEnum.length)),
   new .Window [parName] fun g y =>
     ((elementNamed g y.1, .omitted, .omitted, .omitted, .omitted, .omitted) : ElementV × WindowTail),
   new .Door [parName] fun g y =>
     ((elementNamed g y.1, .omitted, .omitted, .omitted, .omitted, .omitted) : ElementV × DoorTail)]

/-- objects/building.rs:42-51, objects/storey.rs:72-79, objects/site.rs:82-93, objects/space/mod.rs:59-67 -/
def structureCtors : List Ctor :=
  [new .Building [parName] fun g y => ((structureNamed g y.1, .omitted, .omitted, .omitted) : StructureV × BuildingTail),
   new .Storey [parName] fun g y => ((structureNamed g y.1, .omitted) : StructureV × Opt F64),
   new .Site [parName] fun g y =>
     ((structureNamed g y.1, .omitted, .omitted, .omitted, .omitted, .omitted) : StructureV × SiteTail),
   new .Space [parName] fun g y => ((structureNamed g y.1, .omitted, .omitted) : StructureV × SpaceTail)]

/-- objects/walltype/mod.rs:35-42, objects/slabtype/mod.rs:51-58, objects/rooftype/mod.rs:31-38,
objects/windowtype/mod.rs:69-83, objects/doortype/mod.rs:64-78, objects/spacetype/mod.rs:56-64,
objects/shading_device_type.rs:36-43 -/
def typeCtors : List Ctor :=
  [new .WallType [parName, (cs! "predefined_type", parEnum eWallTypeEnum)] fun g y =>
     ((typeNamed g y.1, y.2.1) : ElementTypeV × Fin eWallTypeEnum.length),
   new .SlabType [parName, (cs! "predefined_type", parEnum eSlabTypeEnum)] fun g y =>
     ((typeNamed g y.1, y.2.1) : ElementTypeV × Fin eSlabTypeEnum.length),
   new .RoofType [parName, (cs! "predefined_type", parEnum eRoofTypeEnum)] fun g y =>
     ((typeNamed g y.1, y.2.1) : ElementTypeV × Fin eRoofTypeEnum.length),
   new .WindowType [parName, (cs! "predefined_type", parEnum eWindowTypeEnum),
       (cs! "partitioning_type", parEnum eWindowPartitioningTypeEnum)] fun g y =>
     ((typeNamed g y.1, y.2.1, y.2.2.1, .omitted, .omitted) : ElementTypeV × Fin eWindowTypeEnum.length ×
       Fin eWindowPartitioningTypeEnum.length × Opt Tri × Opt Str),
   new .DoorType [parName, (cs! "predefined_type", parEnum eDoorTypeEnum),
       (cs! "operation_type", parEnum eDoorOperationTypeEnum)] fun g y =>
     ((typeNamed g y.1, y.2.1, y.2.2.1, .omitted, .omitted) : ElementTypeV × Fin eDoorTypeEnum.length ×
       Fin eDoorOperationTypeEnum.length × Opt Tri × Opt Str),
   new .SpaceType [parName, (cs! "predefined_type", parEnum eSpaceTypeEnum)] fun g y =>
     ((typeNamed g y.1, y.2.1, .omitted) : ElementTypeV × Fin eSpaceTypeEnum.length × Opt Str),
   new .ShadingDeviceType [parName, (cs! "predefined_type", parEnum eShadingDeviceTypeEnum)] fun g y =>
     ((typeNamed g y.1, y.2.1) : ElementTypeV × Fin eShadingDeviceTypeEnum.length)]

/-- objects/project.rs:29-33, objects/owner_history/mod.rs:46-57, objects/application/mod.rs:27-39,
objects/organization/mod.rs:31-43, objects/person_and_org/mod.rs:26-32, objects/person/mod.rs:41-52 -/
def otherObjectCtors : List Ctor :=
  [new .Project [parName] fun g y => (newContext (newRoot g y.1) : ContextV),
   new .OwnerHistory [(cs! "change_action", parEnum eChangeAction), (cs! "creation_date", .one (.plain .time))] fun _ y =>
     ((.omitted, .omitted, .omitted, y.1, .omitted, .omitted, .omitted, y.2.1) : HistoryV),
   new .Application [(cs! "application_developer", .typed .Organization), (cs! "version", parText),
       (cs! "application_full_name", parText), (cs! "application_identifier", parText)] fun _ y =>
     ((y.1, y.2.1, y.2.2.1, y.2.2.2.1) : Nat × Str × Str × Str),
   new .Organization [(cs! "id", .option .str), (cs! "name", parText), (cs! "description", .option .str)] fun _ y =>
     ((y.1, y.2.1, y.2.2.1, .omitted, .omitted) : Opt Str × Str × Opt Str × Opt (List Nat) × Opt (List Nat)),
   new .PersonAndOrganization [(cs! "the_person", .typed .Person), (cs! "the_organization", .typed .Organization)] fun _ y =>
     ((y.1, y.2.1, .omitted) : Nat × Nat × Opt (List Nat)),
   ⟨.Person, cs! "empty", [], fun _ _ =>
     ((.omitted, .omitted, .omitted, .omitted, .omitted, .omitted, .omitted, .omitted) : Opt Str × Opt Str × Opt Str ×
       Opt (List Str) × Opt (List Str) × Opt (List Str) × Opt (List Nat) × Opt (List Nat))⟩]

/-! ### Materials, properties, units -/

/-- materials/material.rs:32-38, materials/material_layer.rs:73-83, materials/material_layer_set.rs:39-45,
materials/material_layer_set_usage.rs:66-80, materials/material_constituent.rs:46-54,
materials/material_constituent_set.rs:40-46 -/
def materialCtors : List Ctor :=
  [new .Material [parName] fun _ y => ((.custom y.1, .omitted, .omitted) : MaterialV),
   new .MaterialLayer [(cs! "layer_thickness", parReal), (cs! "is_ventilated", .flag)] fun _ y =>
     ((.omitted, y.1, y.2.1, .omitted, .omitted, .omitted, .omitted) : LayerV),
   new .MaterialLayerSet [] fun _ _ => (([], .omitted, .omitted) : LayerSetV),
   new .MaterialLayerSetUsage [(cs! "spatial_element_structure", parEntity .MaterialLayerSet),
       (cs! "layer_set_direction", parEnum eLayerSetDirectionEnum), (cs! "direction_sense", parEnum eDirectionSenseEnum),
       (cs! "offset_from_reference_line", parReal)] fun _ y =>
     ((y.1, y.2.1, y.2.2.1, y.2.2.2.1, .omitted) : Nat × Fin eLayerSetDirectionEnum.length ×
       Fin eDirectionSenseEnum.length × F64 × Opt F64),
   new .MaterialConstituent [(cs! "material", .typed .Material)] fun _ y =>
     ((.omitted, .omitted, y.1, .omitted, .omitted) : ConstituentV),
   new .MaterialConstituentSet [] fun _ _ => ((.omitted, .omitted, []) : ConstituentSetV)]

/-- properties/set.rs:44-52, properties/single_value.rs:38-44 with properties/base.rs:21-26, properties/material.rs:26-35
with properties/extended_base.rs:27-33 -/
def propertyCtors : List Ctor :=
  [new .PropertySet [parName, (cs! "properties", .typeds .PropertySingleValue)] fun g y =>
     ((newRoot g y.1, y.2.1) : RootV × List Nat),
   new .PropertySingleValue [parName, (cs! "value", .one (.plain .value)), (cs! "unit", .option (.ref none))] fun _ y =>
     (((.custom y.1, .omitted), y.2.1, y.2.2.1) : (Opt Str × Opt Str) × Value × Opt Nat),
   new .MaterialProperties [parName, (cs! "properties", parIds), (cs! "material", .typed .Material)] fun _ y =>
     (((.custom y.1, .omitted, y.2.1), y.2.2.1) : MaterialPropertiesV)]

/-- units/si_unit.rs:33-46, units/assignment.rs:26-30 -/
def unitCtors : List Ctor :=
  [new .SiUnit [(cs! "unit_type", .option (.enum eIfcUnitEnum)), (cs! "prefix", .option (.enum eIfcPrefix)),
       (cs! "name", parEnum eIfcUnitName)] fun _ y =>
     (((.inherited, y.1), y.2.1, y.2.2.1) : (Opt Nat × Opt (Fin eIfcUnitEnum.length)) × Opt (Fin eIfcPrefix.length) ×
       Fin eIfcUnitName.length),
   new .UnitAssigment [(cs! "units", .each (.entity .SiUnit))] fun _ y => (y.1 : List Nat)]

/-! ### Relations -/

/-- the implementors of `RelatableMaterial` (traits/sub_types.rs:30; materials/material_constituent_set.rs:99,
materials/material_layer_set_usage.rs:125, materials/material.rs:80, materials/material_layer_set.rs:92) -/
def relatableMaterials : List Kind := [.MaterialConstituentSet, .MaterialLayerSetUsage, .Material, .MaterialLayerSet]

/-- the implementors of `Transform3D` (traits/sub_types.rs:3; geometry/uniform_transformations.rs:71,
geometry/non_uniform_transformations.rs:95) -/
def transforms : List Kind := [.UniformTransform, .NonUniformTransform]

/-- relations/rel_aggregates.rs:39-49 -/
def aggregatesCtor : Ctor :=
  new .RelAggregates [parName, (cs! "parent", parId), (cs! "children", parIds)] fun g y =>
    ((newRoot g y.1, y.2.1, y.2.2.1) : RootV × Nat × List Nat)

/-- relations/rel_associates_material.rs:34-43 -/
def associatesCtor (k : Kind) : Ctor :=
  new .RelAssociatesMaterial [parName, (cs! "material_layer_set", parEntity k)] fun g y =>
    ((newAssociates (newRoot g y.1), y.2.1) : (RootV × List Nat) × Nat)

/-- relations/rel_contained_in_spatial_structure.rs:37-47 -/
def containedCtor (k : Kind) : Ctor :=
  new .RelContainedInSpatialStructure [parName, (cs! "relating_structure", parEntity k)] fun g y =>
    ((newRoot g y.1, [], y.2.1) : ManyOneV)

/-- relations/rel_declares.rs:33-43 -/
def declaresCtor : Ctor :=
  new .RelDeclares [parName, (cs! "project", parEntity .Project)] fun g y =>
    ((newRoot g y.1, y.2.1, []) : RootV × Nat × List Nat)

/-- relations/rel_defines_by_type.rs:34-44 -/
def definesByTypeCtor (k : Kind) : Ctor :=
  new .RelDefinesByType [parName, (cs! "relating_type", parEntity k)] fun g y =>
    ((newRoot g y.1, [], y.2.1) : ManyOneV)

/-- relations/rel_defines_by_properties.rs:39-49 -/
def definesByPropertiesCtor (k : Kind) : Ctor :=
  new .RelDefinesByProperties [parName, (cs! "relating_propert_definition", parEntity k)] fun g y =>
    ((newRoot g y.1, [], y.2.1) : ManyOneV)

/-- relations/rel_voids_element.rs:34-45 -/
def voidsCtor (k : Kind) : Ctor :=
  new .RelVoidsElement [parName, (cs! "relating_building_element", parEntity k),
      (cs! "relating_opening_element", parEntity .OpeningElement)] fun g y =>
    ((newRoot g y.1, y.2.1, y.2.2.1) : RootV × Nat × Nat)

/-- relations/rel_fills_element.rs:30-41 -/
def fillsCtor (k : Kind) : Ctor :=
  new .RelFillsElement [parName, (cs! "relating_opening_element", parEntity .OpeningElement),
      (cs! "relating_building_element", parEntity k)] fun g y =>
    ((newRoot g y.1, y.2.1, y.2.2.1) : RootV × Nat × Nat)

/-- relations/representation_map.rs:46-55 -/
def mapCtor : Ctor :=
  new .RepresentationMap [(cs! "origin", parEntity .Axis3D), (cs! "representation", parEntity .ShapeRepresentation)] fun _ y =>
    ((.id y.1, .id y.2.1) : IdOr (row .Axis3D).Val × IdOr (row .ShapeRepresentation).Val)

/-- relations/mapped_item.rs:60-69 -/
def mappedCtor (k : Kind) : Ctor :=
  new .MappedItem [(cs! "source", parEntity .RepresentationMap), (cs! "target", parEntity k)] fun _ y =>
    ((.id y.1, y.2.1) : IdOr (row .RepresentationMap).Val × Nat)

/-! ### Geometry -/

/-- geometry/point/mod.rs:40-44, 75-79, geometry/direction/mod.rs:22-26, 41-45, geometry/point_list/mod.rs:33-38, 61-66 -/
def vectorCtors : List Ctor :=
  [⟨.Point2D, cs! "from", [(cs! "value", .one (.plain .vec2))], fun _ y => y.1⟩,
   ⟨.Point3D, cs! "from", [(cs! "value", .one (.plain .vec3))], fun _ y => y.1⟩,
   ⟨.Direction2D, cs! "from", [(cs! "value", .one (.plain .vec2))], fun _ y => y.1⟩,
   ⟨.Direction3D, cs! "from", [(cs! "value", .one (.plain .vec3))], fun _ y => y.1⟩,
   new .PointList2D [(cs! "coord_list", .one (.plain (.list .vec2)))] fun _ y =>
     ((y.1, .omitted) : List Fld.vec2.Val × Opt (List Str)),
   new .PointList3D [(cs! "coord_list", .one (.plain (.list .vec3)))] fun _ y =>
     ((y.1, .omitted) : List Fld.vec3.Val × Opt (List Str))]

/-- geometry/axis/mod.rs:47-54, 100-108 -/
def axisCtors : List Ctor :=
  [new .Axis2D [(cs! "point", .one (.fresh .Point2D))] fun _ y => ((y.1, .omitted) : Nat × Opt Nat),
   new .Axis3D [(cs! "point", .one (.fresh .Point3D))] fun _ y => ((y.1, .omitted, .omitted) : Nat × Opt Nat × Opt Nat)]

/-- geometry/representation_context/mod.rs:51-66 -/
def contextCtor (k : Kind) : Ctor :=
  new .GeometricRepresentationContext [(cs! "world_coord_system", parEntity k),
      (cs! "coord_space_dimension", parEnum eDimensionCount)] fun _ y =>
    ((.custom Build.identBody, .custom (cs! "Model"), y.2.1, .omitted, y.1, .omitted) : ContextOfV)

/-- geometry/representation_subcontext/mod.rs:101-119 -/
def subContextCtor : Ctor :=
  ⟨.GeometricRepresentationSubContext, cs! "derive", [(cs! "context", parEntity .GeometricRepresentationContext),
      (cs! "target_view", parEnum eGeometricProjection)], fun _ y =>
    ((.custom Build.identBody, .custom (cs! "Model"), .inherited, .inherited, .inherited, .inherited, y.1, .omitted,
      y.2.1, .omitted) : SubContextV)⟩

/-- geometry/local_placement/mod.rs:37-42 -/
def placementCtor (k : Kind) : Ctor :=
  new .LocalPlacement [(cs! "relative_placement", parEntity k)] fun _ y => ((.omitted, y.1) : Opt Nat × Nat)

/-- the implementors of `CartesianPoint` (traits/sub_types.rs:9; geometry/point/mod.rs:47, 82) -/
def cartesianPoints : List Kind := [.Point2D, .Point3D]
/-- the implementors of `PointList` (traits/sub_types.rs:11; geometry/point_list/mod.rs:42, 70) -/
def pointLists : List Kind := [.PointList2D, .PointList3D]
/-- the implementors of `Curve` (traits/sub_types.rs:7; geometry/polyline/mod.rs:56, geometry/indexed_poly_curve/mod.rs:53) -/
def curves : List Kind := [.PolyLine, .IndexedPolyCurve]
/-- the implementors of `ProfileDef` (traits/sub_types.rs:13; geometry/arbitrary_closed_profile_def/mod.rs:95,
geometry/rectangle_profile_def/mod.rs:98) -/
def profileDefs : List Kind := [.ArbitraryClosedProfileDef, .RectangleProfileDef]

/-- geometry/polyline/mod.rs:21-29 -/
def polylineCtor (k : Kind) : Ctor :=
  ⟨.PolyLine, cs! "from", [(cs! "points", .each (.fresh k))], fun _ y => (y.1 : List Nat)⟩

/-- geometry/indexed_poly_curve/mod.rs:41-49 -/
def indexedCtor (k : Kind) : Ctor :=
  new .IndexedPolyCurve [(cs! "point_list", .one (.fresh k))] fun _ y =>
    ((y.1, .omitted, .omitted) : Nat × Opt Str × Opt Tri)

abbrev TransformV := Opt (IdOr (row .Direction3D).Val) × Opt (IdOr (row .Direction3D).Val) ×
  Opt (IdOr (row .Point3D).Val) × Opt F64 × Opt (IdOr (row .Direction3D).Val)

/-- geometry/transform_base.rs:38-55 -/
def newTransform (x y o z : Nat) (s : F64) : TransformV :=
  (.custom (.id x), .custom (.id y), .custom (.id o), .custom s, .custom (.id z))

/-- geometry/uniform_transformations.rs:36-49; the third axis is stored behind the origin -/
def uniformCtor : Ctor :=
  new .UniformTransform [(cs! "axis_x", parEntity .Direction3D), (cs! "axis_y", parEntity .Direction3D),
      (cs! "local_origin", parEntity .Point3D), (cs! "scale", parReal), (cs! "axis_z", parEntity .Direction3D)] fun _ y =>
    (newTransform y.1 y.2.1 y.2.2.1 y.2.2.2.2.1 y.2.2.2.1 : TransformV)

/-- geometry/non_uniform_transformations.rs:55-70 -/
def nonUniformCtor : Ctor :=
  new .NonUniformTransform [(cs! "axis_x", parEntity .Direction3D), (cs! "axis_y", parEntity .Direction3D),
      (cs! "local_origin", parEntity .Point3D), (cs! "scale", parReal), (cs! "axis_z", parEntity .Direction3D),
      (cs! "scale_y", parReal), (cs! "scale_z", parReal)] fun _ y =>
    ((newTransform y.1 y.2.1 y.2.2.1 y.2.2.2.2.1 y.2.2.2.1, .custom y.2.2.2.2.2.1, .custom y.2.2.2.2.2.2.1) :
      TransformV × Opt F64 × Opt F64)

/-- geometry/arbitrary_closed_profile_def/mod.rs:46-56 -/
def profileCtor (k : Kind) : Ctor :=
  new .ArbitraryClosedProfileDef [(cs! "profile_type", parEnum eProfileType), (cs! "outer_curve", parEntity k)] fun _ y =>
    ((y.1, .omitted, y.2.1) : Fin eProfileType.length × Opt Str × Nat)

/-- geometry/rectangle_profile_def/mod.rs:48-56 -/
def rectangleCtor : Ctor :=
  new .RectangleProfileDef [(cs! "profile_type", parEnum eProfileType), (cs! "x_dim", parReal), (cs! "y_dim", parReal)]
    fun _ y => ((y.1, .omitted, .omitted, y.2.1, y.2.2.1) : RectangleV)

/-- geometry/extruded_area_solid.rs:53-65 -/
def solidCtor (k : Kind) : Ctor :=
  new .ExtrudedAreaSolid [(cs! "swept_area", parEntity k), (cs! "extruded_direction", parEntity .Direction3D),
      (cs! "depth", parReal)] fun _ y =>
    ((y.1, .omitted, y.2.1, y.2.2.1) : Nat × Opt Nat × Nat × F64)

/-- geometry/product_definition_shape/mod.rs:51-57 -/
def shapeCtor : Ctor := new .ProductDefinitionShape [] fun _ _ => ((.omitted, .omitted, []) : ShapeV)

/-- geometry/shape_representation/mod.rs:69-81 -/
def representationCtor : Ctor :=
  new .ShapeRepresentation [(cs! "context", parEntity .GeometricRepresentationSubContext),
      (cs! "identifier", parEnum eRepresentationIdentifier), (cs! "repr_type", parEnum eRepresentationType)] fun _ y =>
    ((y.1, .custom y.2.1, .custom y.2.2.1, []) : Nat × Opt (Fin eRepresentationIdentifier.length) ×
      Opt (Fin eRepresentationType.length) × List Nat)

/-- every one -/
def ctors : List Ctor :=
  [elementCtors, structureCtors, typeCtors, otherObjectCtors, materialCtors, propertyCtors, unitCtors,
   [aggregatesCtor, declaresCtor, mapCtor], relatableMaterials.map associatesCtor, structures.map containedCtor,
   Schema.order.map definesByTypeCtor, Schema.order.map definesByPropertiesCtor, structures.map voidsCtor,
   structures.map fillsCtor, transforms.map mappedCtor,
   vectorCtors, axisCtors, axisPlacements.map contextCtor, [subContextCtor], axisPlacements.map placementCtor,
   cartesianPoints.map polylineCtor, pointLists.map indexedCtor, [uniformCtor, nonUniformCtor], curves.map profileCtor,
   [rectangleCtor], profileDefs.map solidCtor, [shapeCtor, representationCtor]].flatten

end Verif.Setters
