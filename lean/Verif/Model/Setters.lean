import Verif.Model.Builder
import Verif.Model.Persons
/-
The calls that change a value before it is stored: `value.call(argument)` resp. `value.call(argument, &mut ifc)`, all
of the form `fn call(mut self, …) -> Self`.  Paths are relative to /repo/ifc_rs/src.

Persons and organisations are in `Model/Persons.lean`.  Texts are arguments after their conversion into
`StringPrimitive`; numbers after their conversion into `RealPrimitive` or `IntegerPrimitive`.
-/
namespace Verif.Setters
open Verif Schema

/-- types of arguments -/
inductive ArgTy where
  /-- a value that is only converted -/
  | plain (f : Fld)
  /-- `impl Into<IdOr<K>>`: an id, or a value to be stored -/
  | entity (k : Kind)
  /-- a value that is always stored (`ITEM: ShapeItem`) -/
  | fresh (k : Kind)

@[reducible] def ArgTy.Val : ArgTy → Type
  | .plain f => f.Val
  | .entity k => IdOr (row k).Val
  | .fresh k => (row k).Val

/-- what is put into the changed value: the argument itself, or an id -/
@[reducible] def ArgTy.fld : ArgTy → Fld
  | .plain f => f
  | _ => .ref none

/-- id/id_or.rs:34-39 `or_insert`, meta/datamap/mod.rs:17-29 `insert_new` -/
def ArgTy.take : (a : ArgTy) → DataMap → a.Val → Ret (DataMap × a.fld.Val)
  | .plain _, m, x => .val (m, x)
  | .entity k, m, x => Persons.orInsert m k x
  | .fresh k, m, x => m.insertNew (.known k x)

/-- a call on values of a kind -/
structure Setter where
  kind : Kind
  name : Str
  arg : ArgTy
  act : arg.Val → DataMap → (row kind).Val → Ret (DataMap × (row kind).Val)

/-- the argument is taken first, then put into the value -/
def assign (k : Kind) (name : Str) (a : ArgTy) (put : a.fld.Val → (row k).Val → (row k).Val) : Setter :=
  ⟨k, name, a, fun x m v => do
    let (m, y) ← a.take m x
    return (m, put y v)⟩

/-! ### Borrowed parts -/

/-- `fn part_mut(&mut self) -> &mut Part`: changes the part inside the whole -/
abbrev Mut (α β : Type) := (β → β) → α → α

def here {α : Type} : Mut α α := fun f a => f a
def fst {α β : Type} : Mut (α × β) α := fun f p => (f p.1, p.2)
def snd {α β : Type} : Mut (α × β) β := fun f p => (p.1, f p.2)
def Mut.at {α β γ : Type} (p : Mut α β) (q : Mut β γ) : Mut α γ := fun f => p (q f)
/-- `part = value` -/
def Mut.set {α β : Type} (p : Mut α β) (b : β) : α → α := p fun _ => b
/-- `part.0.push(value)` -/
def Mut.push {α β : Type} (p : Mut α (List β)) (b : β) : α → α := p fun l => l ++ [b]

abbrev RootV := Guid × Opt Nat × Opt Str × Opt Str
abbrev ObjectV := RootV × Opt Str
abbrev ProductV := ObjectV × Opt Nat × Opt Nat
abbrev ElementV := ProductV × Opt Str
abbrev SpatialV := ProductV × Opt Str
abbrev StructureV := SpatialV × Opt (Fin eCompositionTypeEnum.length)
abbrev TypeObjectV := RootV × Opt Nat × Opt (List Nat)
abbrev TypeProductV := TypeObjectV × Opt (List Nat) × Opt Str
abbrev ElementTypeV := TypeProductV × Opt Str
abbrev ContextV := RootV × Opt Str × Opt Str × Opt Str × List Nat × Opt Nat

/-! ### Calls of traits; `p` is the `…_mut` of the implementing type -/

/-- objects/shared/root.rs:52-73 `RootBuilder` -/
def rootCalls (k : Kind) (p : Mut (row k).Val RootV) : List Setter :=
  [assign k (cs! "owner_history") (.entity .OwnerHistory) fun i => (p.at (snd.at fst)).set (.custom i),
   assign k (cs! "name") (.plain .str) fun s => (p.at (snd.at (snd.at fst))).set (.custom s),
   assign k (cs! "description") (.plain .str) fun s => (p.at (snd.at (snd.at snd))).set (.custom s)]

/-- objects/shared/object.rs:40-47 `ObjectBuilder` -/
def objectCalls (k : Kind) (p : Mut (row k).Val ObjectV) : List Setter :=
  assign k (cs! "object_type") (.plain .str) (fun s => (p.at snd).set (.custom s)) :: rootCalls k (p.at fst)

/-- objects/shared/product.rs:120-140 `ProductBuilder` -/
def productCalls (k : Kind) (p : Mut (row k).Val ProductV) : List Setter :=
  [assign k (cs! "object_placement") (.entity .LocalPlacement) fun i => (p.at (snd.at fst)).set (.custom i),
   assign k (cs! "representation") (.entity .ProductDefinitionShape) fun i => (p.at (snd.at snd)).set (.custom i)] ++
  objectCalls k (p.at fst)

/-- objects/shared/element.rs:40-47 `ElementBuilder` -/
def elementCalls (k : Kind) (p : Mut (row k).Val ElementV) : List Setter :=
  assign k (cs! "tag") (.plain .str) (fun s => (p.at snd).set (.custom s)) :: productCalls k (p.at fst)

/-- objects/shared/spatial_element.rs:41-48 `SpatialElementBuilder`,
objects/shared/spatial_structure_element.rs:41-48 `SpatialStructureElementBuilder` -/
def structureCalls (k : Kind) (p : Mut (row k).Val StructureV) : List Setter :=
  [assign k (cs! "composition_type") (.plain (.enum eCompositionTypeEnum)) fun e => (p.at snd).set (.custom e),
   assign k (cs! "long_name") (.plain .str) fun s => (p.at (fst.at snd)).set (.custom s)] ++
  productCalls k (p.at (fst.at fst))

/-- objects/shared/element_type.rs:44-51 `ElementTypeBuilder`, objects/shared/type_product.rs:54-67 `TypeProductBuilder`
(`TypeObjectBuilder` has no calls, objects/shared/type_object.rs:58-63) -/
def elementTypeCalls (k : Kind) (p : Mut (row k).Val ElementTypeV) : List Setter :=
  [assign k (cs! "element_type") (.plain .str) fun s => (p.at snd).set (.custom s),
   assign k (cs! "tag") (.plain .str) fun s => (p.at (fst.at (snd.at snd))).set (.custom s)] ++
  rootCalls k (p.at (fst.at (fst.at fst)))

/-- objects/shared/context.rs:66-104 `ContextBuilder` -/
def contextCalls (k : Kind) (p : Mut (row k).Val ContextV) : List Setter :=
  [assign k (cs! "object_type") (.plain .str) fun s => (p.at (snd.at fst)).set (.custom s),
   assign k (cs! "long_name") (.plain .str) fun s => (p.at (snd.at (snd.at fst))).set (.custom s),
   assign k (cs! "phase") (.plain .str) fun s => (p.at (snd.at (snd.at (snd.at fst)))).set (.custom s),
   assign k (cs! "add_context") (.entity .GeometricRepresentationContext) fun i =>
     (p.at (snd.at (snd.at (snd.at (snd.at fst))))).push i,
   assign k (cs! "unit_assignment") (.entity .UnitAssigment) fun i =>
     (p.at (snd.at (snd.at (snd.at (snd.at snd))))).set (.custom i)] ++
  rootCalls k (p.at fst)

/-! ### Objects -/

def enumArg (t : List Str) : ArgTy := .plain (.enum t)
def textArg : ArgTy := .plain .str
def realArg : ArgTy := .plain .real

/-- objects/wall/mod.rs:41-75; the wall type given for a wall becomes a reference -/
def wallCalls : List Setter :=
  assign .Wall (cs! "predefined_type") (.entity .WallType) (fun i =>
    (snd (α := ElementV) (β := Opt (IdOr (row .WallType).Val))).set (.custom (.id i))) ::
  elementCalls .Wall (fst (α := ElementV) (β := Opt (IdOr (row .WallType).Val)))

/-- objects/slab/mod.rs:61-89 -/
def slabCalls : List Setter :=
  assign .Slab (cs! "predefined_type") (enumArg eSlabTypeEnum) (fun e =>
    (snd (α := ElementV) (β := Opt (Fin eSlabTypeEnum.length))).set (.custom e)) ::
  elementCalls .Slab (fst (α := ElementV) (β := Opt (Fin eSlabTypeEnum.length)))

/-- objects/roof/mod.rs:61-90 -/
def roofCalls : List Setter :=
  assign .Roof (cs! "predefined_type") (enumArg eRoofTypeEnum) (fun e =>
    (snd (α := ElementV) (β := Opt (Fin eRoofTypeEnum.length))).set (.custom e)) ::
  elementCalls .Roof (fst (α := ElementV) (β := Opt (Fin eRoofTypeEnum.length)))

/-- objects/opening_element/mod.rs:79-107 -/
def openingCalls : List Setter :=
  assign .OpeningElement (cs! "predefined_type") (enumArg eOpeningElementTypeEnum) (fun e =>
    (snd (α := ElementV) (β := Opt (Fin eOpeningElementTypeEnum.length))).set (.custom e)) ::
  elementCalls .OpeningElement (fst (α := ElementV) (β := Opt (Fin eOpeningElementTypeEnum.length)))

/-- objects/shading_device.rs:42-45, 74-96 -/
def shadeCalls : List Setter :=
  assign .ShadingDevice (cs! "predefined_type") (enumArg eShadingDeviceTypeEnum) (fun e =>
    (snd (α := ElementV) (β := Opt (Fin eShadingDeviceTypeEnum.length))).set (.custom e)) ::
  elementCalls .ShadingDevice (fst (α := ElementV) (β := Opt (Fin eShadingDeviceTypeEnum.length)))

abbrev WindowTail := Opt F64 × Opt F64 × Opt (Fin eWindowTypeEnum.length) ×
  Opt (Fin eWindowPartitioningTypeEnum.length) × Opt Str

/-- objects/window/mod.rs:117-163 -/
def windowCalls : List Setter :=
  [assign .Window (cs! "overall_height") realArg fun x => ((snd (α := ElementV) (β := WindowTail)).at fst).set (.custom x),
   assign .Window (cs! "overall_width") realArg fun x =>
     ((snd (α := ElementV) (β := WindowTail)).at (snd.at fst)).set (.custom x),
   assign .Window (cs! "predefined_type") (enumArg eWindowTypeEnum) fun e =>
     ((snd (α := ElementV) (β := WindowTail)).at (snd.at (snd.at fst))).set (.custom e),
   assign .Window (cs! "partitioning_type") (enumArg eWindowPartitioningTypeEnum) fun e =>
     ((snd (α := ElementV) (β := WindowTail)).at (snd.at (snd.at (snd.at fst)))).set (.custom e)] ++
  elementCalls .Window (fst (α := ElementV) (β := WindowTail))

abbrev DoorTail := Opt F64 × Opt F64 × Opt (Fin eDoorTypeEnum.length) × Opt (Fin eDoorOperationTypeEnum.length) × Opt Str

/-- objects/door/mod.rs:141-184 -/
def doorCalls : List Setter :=
  [assign .Door (cs! "overall_height") realArg fun x => ((snd (α := ElementV) (β := DoorTail)).at fst).set (.custom x),
   assign .Door (cs! "overall_width") realArg fun x =>
     ((snd (α := ElementV) (β := DoorTail)).at (snd.at fst)).set (.custom x),
   assign .Door (cs! "predefined_type") (enumArg eDoorTypeEnum) fun e =>
     ((snd (α := ElementV) (β := DoorTail)).at (snd.at (snd.at fst))).set (.custom e),
   assign .Door (cs! "operation_type") (enumArg eDoorOperationTypeEnum) fun e =>
     ((snd (α := ElementV) (β := DoorTail)).at (snd.at (snd.at (snd.at fst)))).set (.custom e)] ++
  elementCalls .Door (fst (α := ElementV) (β := DoorTail))

abbrev BuildingTail := Opt F64 × Opt F64 × Opt Nat

/-- objects/building.rs:53-101 -/
def buildingCalls : List Setter :=
  [assign .Building (cs! "elevation_of_ref_height") realArg fun x =>
     ((snd (α := StructureV) (β := BuildingTail)).at fst).set (.custom x),
   assign .Building (cs! "elevation_of_terrain") realArg fun x =>
     ((snd (α := StructureV) (β := BuildingTail)).at (snd.at fst)).set (.custom x),
   assign .Building (cs! "building_address") (.entity .PostalAddress) fun i =>
     ((snd (α := StructureV) (β := BuildingTail)).at (snd.at snd)).set (.custom i)] ++
  structureCalls .Building (fst (α := StructureV) (β := BuildingTail))

/-- objects/storey.rs:82-110 -/
def storeyCalls : List Setter :=
  structureCalls .Storey (fst (α := StructureV) (β := Opt F64))

abbrev SiteTail := Opt (List Int) × Opt (List Int) × Opt F64 × Opt Str × Opt Nat

/-- objects/site.rs:95-153 -/
def siteCalls : List Setter :=
  [assign .Site (cs! "ref_latitude") (.plain (.list .int)) fun l =>
     ((snd (α := StructureV) (β := SiteTail)).at fst).set (.custom l),
   assign .Site (cs! "ref_longitude") (.plain (.list .int)) fun l =>
     ((snd (α := StructureV) (β := SiteTail)).at (snd.at fst)).set (.custom l),
   assign .Site (cs! "ref_elevation") realArg fun x =>
     ((snd (α := StructureV) (β := SiteTail)).at (snd.at (snd.at fst))).set (.custom x),
   assign .Site (cs! "land_title_number") textArg fun s =>
     ((snd (α := StructureV) (β := SiteTail)).at (snd.at (snd.at (snd.at fst)))).set (.custom s),
   assign .Site (cs! "site_address") (.entity .PostalAddress) fun i =>
     ((snd (α := StructureV) (β := SiteTail)).at (snd.at (snd.at (snd.at snd)))).set (.custom i)] ++
  structureCalls .Site (fst (α := StructureV) (β := SiteTail))

abbrev SpaceTail := Opt (Fin eSpaceTypeEnum.length) × Opt F64

/-- objects/space/mod.rs:69-109 -/
def spaceCalls : List Setter :=
  [assign .Space (cs! "predefined_type") (enumArg eSpaceTypeEnum) fun e =>
     ((snd (α := StructureV) (β := SpaceTail)).at fst).set (.custom e),
   assign .Space (cs! "elevation_with_flooring") realArg fun x =>
     ((snd (α := StructureV) (β := SpaceTail)).at snd).set (.custom x)] ++
  structureCalls .Space (fst (α := StructureV) (β := SpaceTail))

/-- The seven element types have the calls of the traits only: objects/walltype/mod.rs:45-67,
objects/slabtype/mod.rs:61-83, objects/rooftype/mod.rs:41-63, objects/windowtype/mod.rs:86-108,
objects/doortype/mod.rs:81-103, objects/spacetype/mod.rs:67-89, objects/shading_device_type.rs:72-94 -/
def typeCalls : List Setter :=
  elementTypeCalls .WallType (fst (α := ElementTypeV) (β := Fin eWallTypeEnum.length)) ++
  elementTypeCalls .SlabType (fst (α := ElementTypeV) (β := Fin eSlabTypeEnum.length)) ++
  elementTypeCalls .RoofType (fst (α := ElementTypeV) (β := Fin eRoofTypeEnum.length)) ++
  elementTypeCalls .WindowType (fst (α := ElementTypeV) (β := Fin eWindowTypeEnum.length ×
    Fin eWindowPartitioningTypeEnum.length × Opt Tri × Opt Str)) ++
  elementTypeCalls .DoorType (fst (α := ElementTypeV) (β := Fin eDoorTypeEnum.length ×
    Fin eDoorOperationTypeEnum.length × Opt Tri × Opt Str)) ++
  elementTypeCalls .SpaceType (fst (α := ElementTypeV) (β := Fin eSpaceTypeEnum.length × Opt Str)) ++
  elementTypeCalls .ShadingDeviceType (fst (α := ElementTypeV) (β := Fin eShadingDeviceTypeEnum.length))

/-- objects/project.rs:36-46 -/
def projectCalls : List Setter := contextCalls .Project (here (α := ContextV))

abbrev HistoryV := Opt Nat × Opt Nat × Opt (Fin eAccessState.length) × Fin eChangeAction.length × Opt Stamp × Opt Nat ×
  Opt Nat × Stamp

def historyUser : Mut HistoryV (Opt Nat) := fst
def historyApp : Mut HistoryV (Opt Nat) := snd.at fst
def historyState : Mut HistoryV (Opt (Fin eAccessState.length)) := snd.at (snd.at fst)
def historyModified : Mut HistoryV (Opt Stamp) := snd.at (snd.at (snd.at (snd.at fst)))
def historyModUser : Mut HistoryV (Opt Nat) := snd.at (snd.at (snd.at (snd.at (snd.at fst))))
def historyModApp : Mut HistoryV (Opt Nat) := snd.at (snd.at (snd.at (snd.at (snd.at (snd.at fst)))))

/-- objects/owner_history/mod.rs:59-107; the owning user and application are made the last modifying ones as well -/
def historyCalls : List Setter :=
  [assign .OwnerHistory (cs! "owning_user") (.entity .PersonAndOrganization) fun i v =>
     historyModUser.set (.custom i) (historyUser.set (.custom i) v),
   assign .OwnerHistory (cs! "owning_application") (.entity .Application) fun i v =>
     historyModApp.set (.custom i) (historyApp.set (.custom i) v),
   assign .OwnerHistory (cs! "state") (enumArg eAccessState) fun e => historyState.set (.custom e),
   assign .OwnerHistory (cs! "last_modified_date") (.plain .time) fun t => historyModified.set (.custom t),
   assign .OwnerHistory (cs! "last_modifying_user") (.entity .PersonAndOrganization) fun i =>
     historyModUser.set (.custom i),
   assign .OwnerHistory (cs! "last_modifying_application") (.entity .Application) fun i =>
     historyModApp.set (.custom i)]

/-! ### Materials -/

abbrev MaterialV := Opt Str × Opt Str × Opt Str

/-- materials/material.rs:40-48 -/
def materialCalls : List Setter :=
  [assign .Material (cs! "description") textArg fun s => (snd.at fst : Mut MaterialV _).set (.custom s),
   assign .Material (cs! "category") textArg fun s => (snd.at snd : Mut MaterialV _).set (.custom s)]

abbrev LayerV := Opt Nat × F64 × Tri × Opt Str × Opt Str × Opt Str × Opt Int

/-- materials/material_layer.rs:85-108 -/
def layerCalls : List Setter :=
  [assign .MaterialLayer (cs! "material") (.entity .Material) fun i => (fst : Mut LayerV _).set (.custom i),
   assign .MaterialLayer (cs! "name") textArg fun s => (snd.at (snd.at (snd.at fst)) : Mut LayerV _).set (.custom s),
   assign .MaterialLayer (cs! "description") textArg fun s =>
     (snd.at (snd.at (snd.at (snd.at fst))) : Mut LayerV _).set (.custom s),
   assign .MaterialLayer (cs! "category") textArg fun s =>
     (snd.at (snd.at (snd.at (snd.at (snd.at fst)))) : Mut LayerV _).set (.custom s),
   assign .MaterialLayer (cs! "priority") (.plain .int) fun n =>
     (snd.at (snd.at (snd.at (snd.at (snd.at snd)))) : Mut LayerV _).set (.custom n)]

abbrev LayerSetV := List Nat × Opt Str × Opt Str

/-- materials/material_layer_set.rs:47-60 -/
def layerSetCalls : List Setter :=
  [assign .MaterialLayerSet (cs! "name") textArg fun s => (snd.at fst : Mut LayerSetV _).set (.custom s),
   assign .MaterialLayerSet (cs! "description") textArg fun s => (snd.at snd : Mut LayerSetV _).set (.custom s),
   assign .MaterialLayerSet (cs! "add_layer") (.entity .MaterialLayer) fun i => (fst : Mut LayerSetV _).push i]

/-- materials/material_layer_set_usage.rs:82-85 -/
def usageCalls : List Setter :=
  [assign .MaterialLayerSetUsage (cs! "reference_extent") realArg fun x =>
     (snd.at (snd.at (snd.at snd)) : Mut (Nat × Fin eLayerSetDirectionEnum.length × Fin eDirectionSenseEnum.length ×
       F64 × Opt F64) _).set (.custom x)]

abbrev ConstituentV := Opt Str × Opt Str × Nat × Opt F64 × Opt Str

/-- materials/material_constituent.rs:56-79 -/
def constituentCalls : List Setter :=
  [assign .MaterialConstituent (cs! "material") (.entity .Material) fun i => (snd.at (snd.at fst) : Mut ConstituentV _).set i,
   assign .MaterialConstituent (cs! "name") textArg fun s => (fst : Mut ConstituentV _).set (.custom s),
   assign .MaterialConstituent (cs! "description") textArg fun s => (snd.at fst : Mut ConstituentV _).set (.custom s),
   assign .MaterialConstituent (cs! "category") textArg fun s =>
     (snd.at (snd.at (snd.at snd)) : Mut ConstituentV _).set (.custom s),
   assign .MaterialConstituent (cs! "fraction") realArg fun x =>
     (snd.at (snd.at (snd.at fst)) : Mut ConstituentV _).set (.custom x)]

abbrev ConstituentSetV := Opt Str × Opt Str × List Nat

/-- materials/material_constituent_set.rs:48-67 -/
def constituentSetCalls : List Setter :=
  [assign .MaterialConstituentSet (cs! "name") textArg fun s => (fst : Mut ConstituentSetV _).set (.custom s),
   assign .MaterialConstituentSet (cs! "description") textArg fun s =>
     (snd.at fst : Mut ConstituentSetV _).set (.custom s),
   assign .MaterialConstituentSet (cs! "add_constituent") (.entity .MaterialConstituent) fun i =>
     (snd.at snd : Mut ConstituentSetV _).push i]

/-! ### Properties -/

/-- properties/base.rs:29-41 `PropertyBuilder`, properties/single_value.rs:47-51 -/
def singleValueCalls : List Setter :=
  [assign .PropertySingleValue (cs! "name") textArg fun s =>
     (fst.at fst : Mut ((Opt Str × Opt Str) × Value × Opt Nat) _).set (.custom s),
   assign .PropertySingleValue (cs! "description") textArg fun s =>
     (fst.at snd : Mut ((Opt Str × Opt Str) × Value × Opt Nat) _).set (.custom s)]

abbrev MaterialPropertiesV := (Opt Str × Opt Str × List Nat) × Nat

/-- properties/extended_base.rs:36-53 `ExtendedPropertyBuilder`, properties/material.rs:38-42; `properties` adds one -/
def materialPropertiesCalls : List Setter :=
  [assign .MaterialProperties (cs! "name") textArg fun s => (fst.at fst : Mut MaterialPropertiesV _).set (.custom s),
   assign .MaterialProperties (cs! "description") textArg fun s =>
     (fst.at (snd.at fst) : Mut MaterialPropertiesV _).set (.custom s),
   assign .MaterialProperties (cs! "properties") (.plain (.ref none)) fun i =>
     (fst.at (snd.at snd) : Mut MaterialPropertiesV _).push i]

/-- properties/set.rs:55-59 -/
def propertySetCalls : List Setter := rootCalls .PropertySet (fst (α := RootV) (β := List Nat))

/-! ### Relations -/

/-- relations/rel_aggregates.rs:52-56 -/
def aggregatesCalls : List Setter := rootCalls .RelAggregates (fst (α := RootV) (β := Nat × List Nat))

/-- the implementors of `Structure` (traits/sub_types.rs:17-21; objects/door/mod.rs:205, objects/storey.rs:157,
objects/building.rs:155, objects/window/mod.rs:184, objects/slab/mod.rs:110, objects/opening_element/mod.rs:124,
objects/space/mod.rs:130, objects/site.rs:213, objects/roof/mod.rs:111, objects/shading_device.rs:117,
objects/wall/mod.rs:96) -/
def structures : List Kind :=
  [.Door, .Storey, .Building, .Window, .Slab, .OpeningElement, .Space, .Site, .Roof, .ShadingDevice, .Wall]

/-- the implementors of `MaterialRelatable` (traits/sub_types.rs:33; objects/door/mod.rs:210, objects/slabtype/mod.rs:94,
objects/doortype/mod.rs:114, objects/windowtype/mod.rs:119, objects/shading_device_type.rs:105,
objects/window/mod.rs:189, objects/slab/mod.rs:115, objects/rooftype/mod.rs:74, objects/roof/mod.rs:116,
objects/shading_device.rs:122, objects/walltype/mod.rs:78, objects/wall/mod.rs:101) -/
def materialRelatables : List Kind :=
  [.Door, .SlabType, .DoorType, .WindowType, .ShadingDeviceType, .Window, .Slab, .RoofType, .Roof, .ShadingDevice,
   .WallType, .Wall]

/-- relations/rel_associates_material.rs:50-60, objects/shared/rel_associates.rs:40-54 -/
def associatesCalls : List Setter :=
  materialRelatables.map (fun k => assign .RelAssociatesMaterial (cs! "relate_obj") (.entity k) fun i =>
    (fst.at snd : Mut ((RootV × List Nat) × Nat) _).push i) ++
  rootCalls .RelAssociatesMaterial (fst.at fst : Mut ((RootV × List Nat) × Nat) _)

abbrev ManyOneV := RootV × List Nat × Nat

/-- relations/rel_contained_in_spatial_structure.rs:49-66 -/
def containedCalls : List Setter :=
  structures.map (fun k => assign .RelContainedInSpatialStructure (cs! "relate_structure") (.entity k) fun i =>
    (snd.at fst : Mut ManyOneV _).push i) ++
  rootCalls .RelContainedInSpatialStructure (fst : Mut ManyOneV _)

/-- relations/rel_declares.rs:45-61; any stored type can be given -/
def declaresCalls : List Setter :=
  Schema.order.map (fun k => assign .RelDeclares (cs! "relate_definition") (.entity k) fun i =>
    (snd.at snd : Mut (RootV × Nat × List Nat) _).push i) ++
  rootCalls .RelDeclares (fst : Mut (RootV × Nat × List Nat) _)

/-- relations/rel_defines_by_type.rs:46-58; any stored type can be given -/
def definesByTypeCalls : List Setter :=
  Schema.order.map (fun k => assign .RelDefinesByType (cs! "relate_obj") (.entity k) fun i =>
    (snd.at fst : Mut ManyOneV _).push i) ++
  rootCalls .RelDefinesByType (fst : Mut ManyOneV _)

/-- relations/rel_defines_by_properties.rs:51-63; any stored type can be given -/
def definesByPropertiesCalls : List Setter :=
  Schema.order.map (fun k => assign .RelDefinesByProperties (cs! "relate_obj") (.entity k) fun i =>
    (snd.at fst : Mut ManyOneV _).push i) ++
  rootCalls .RelDefinesByProperties (fst : Mut ManyOneV _)

/-- relations/rel_voids_element.rs:48-52 -/
def voidsCalls : List Setter := rootCalls .RelVoidsElement (fst (α := RootV) (β := Nat × Nat))
/-- relations/rel_fills_element.rs:44-48 -/
def fillsCalls : List Setter := rootCalls .RelFillsElement (fst (α := RootV) (β := Nat × Nat))

/-! ### Geometry -/

/-- the implementors of `AxisPlacement` (traits/sub_types.rs:5; geometry/axis/mod.rs:69, 124) -/
def axisPlacements : List Kind := [.Axis2D, .Axis3D]

/-- the implementors of `ShapeItem` (traits/sub_types.rs:15; relations/mapped_item.rs:113, geometry/polyline/mod.rs:57,
geometry/extruded_area_solid.rs:135) -/
def shapeItems : List Kind := [.MappedItem, .PolyLine, .ExtrudedAreaSolid]

/-- geometry/extruded_area_solid.rs:67-70 -/
def solidCalls : List Setter :=
  [assign .ExtrudedAreaSolid (cs! "position") (.entity .Axis3D) fun i =>
     (snd.at fst : Mut (Nat × Opt Nat × Nat × F64) _).set (.custom i)]

abbrev ContextOfV := Opt (Fin eRepresentationIdentifier.length) × Opt Str × Fin eDimensionCount.length × Opt F64 × Nat ×
  Opt Nat

/-- geometry/representation_context/mod.rs:68-80 -/
def contextOfCalls : List Setter :=
  assign .GeometricRepresentationContext (cs! "precision") realArg (fun x =>
    (snd.at (snd.at (snd.at fst)) : Mut ContextOfV _).set (.custom x)) ::
  axisPlacements.map fun k => assign .GeometricRepresentationContext (cs! "true_north") (.entity k) fun i =>
    (snd.at (snd.at (snd.at (snd.at snd))) : Mut ContextOfV _).set (.custom i)

abbrev SubContextV := Opt (Fin eRepresentationIdentifier.length) × Opt Str × Opt (Fin eDimensionCount.length) × Opt F64 ×
  Opt Nat × Opt Nat × Nat × Opt F64 × Fin eGeometricProjection.length × Opt Str

/-- geometry/representation_subcontext/mod.rs:121-132 -/
def subContextCalls : List Setter :=
  [assign .GeometricRepresentationSubContext (cs! "target_scale") realArg fun x =>
     (snd.at (snd.at (snd.at (snd.at (snd.at (snd.at (snd.at fst)))))) : Mut SubContextV _).set (.custom x),
   assign .GeometricRepresentationSubContext (cs! "user_defined_target_view") textArg fun s =>
     (snd.at (snd.at (snd.at (snd.at (snd.at (snd.at (snd.at (snd.at snd))))))) : Mut SubContextV _).set (.custom s)]

/-- geometry/local_placement/mod.rs:44-51 -/
def placementCalls : List Setter :=
  [assign .LocalPlacement (cs! "relative_to") (.entity .LocalPlacement) fun i =>
     (fst : Mut (Opt Nat × Nat) _).set (.custom i)]

/-- geometry/arbitrary_closed_profile_def/mod.rs:58-61 -/
def profileCalls : List Setter :=
  [assign .ArbitraryClosedProfileDef (cs! "profile_name") textArg fun s =>
     (snd.at fst : Mut (Fin eProfileType.length × Opt Str × Nat) _).set (.custom s)]

abbrev RectangleV := Fin eProfileType.length × Opt Str × Opt Nat × F64 × F64

/-- geometry/rectangle_profile_def/mod.rs:58-70 -/
def rectangleCalls : List Setter :=
  assign .RectangleProfileDef (cs! "profile_name") textArg (fun s => (snd.at fst : Mut RectangleV _).set (.custom s)) ::
  axisPlacements.map fun k => assign .RectangleProfileDef (cs! "position") (.entity k) fun i =>
    (snd.at (snd.at fst) : Mut RectangleV _).set (.custom i)

abbrev ShapeV := Opt Str × Opt Str × List Nat

/-- geometry/product_definition_shape/mod.rs:188-208 -/
def shapeCalls : List Setter :=
  [assign .ProductDefinitionShape (cs! "name") textArg fun s => (fst : Mut ShapeV _).set (.custom s),
   assign .ProductDefinitionShape (cs! "description") textArg fun s => (snd.at fst : Mut ShapeV _).set (.custom s),
   assign .ProductDefinitionShape (cs! "add_representation") (.entity .ShapeRepresentation) fun i =>
     (snd.at snd : Mut ShapeV _).push i]

/-- geometry/shape_representation/mod.rs:83-88 -/
def representationCalls : List Setter :=
  shapeItems.map fun k => assign .ShapeRepresentation (cs! "add_item") (.fresh k) fun i =>
    (snd.at (snd.at snd) : Mut (Nat × Opt (Fin eRepresentationIdentifier.length) × Opt (Fin eRepresentationType.length) ×
      List Nat) _).push i

/-- every call -/
def setters : List Setter :=
  [wallCalls, slabCalls, roofCalls, openingCalls, shadeCalls, windowCalls, doorCalls, buildingCalls, storeyCalls,
   siteCalls, spaceCalls, typeCalls, projectCalls, historyCalls, materialCalls, layerCalls, layerSetCalls, usageCalls,
   constituentCalls, constituentSetCalls, singleValueCalls, materialPropertiesCalls, propertySetCalls, aggregatesCalls,
   associatesCalls, containedCalls, declaresCalls, definesByTypeCalls, definesByPropertiesCalls, voidsCalls, fillsCalls,
   solidCalls, contextOfCalls, subContextCalls, placementCalls, profileCalls, rectangleCalls, shapeCalls,
   representationCalls].flatten

/-! ### Sequences of calls -/

/-- A call with its argument; on a value of another kind it does not exist (the program would not compile), which is
`panic` here. -/
def Setter.on (s : Setter) (x : s.arg.Val) (m : DataMap) (e : Entity) : Ret (DataMap × Entity) :=
  match e.downcast s.kind with
  | some v => do
    let (m, v) ← s.act x m v
    return (m, .known s.kind v)
  | none => .panic

/-- `value.call₁(…).call₂(…)…` -/
def chain (m : DataMap) (e : Entity) : List ((s : Setter) × s.arg.Val) → Ret (DataMap × Entity)
  | [] => .val (m, e)
  | c :: cs => do
    let (m, e) ← c.1.on c.2 m e
    chain m e cs

end Verif.Setters
