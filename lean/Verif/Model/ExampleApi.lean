import Verif.Model.Ctors
import Verif.Model.Examples
/-
The example program `/repo/ifc_rs/examples/building.rs`, which uses no builders but makes, changes and stores every value
itself.  Paths in comments are relative to /repo/ifc_rs.

The functions that make values and the calls that change them are entries of the tables of `Model/Ctors.lean` and
`Model/Setters.lean`; the names under which they are used here are checked below.
-/
namespace Verif.Setters
open Verif Schema

/-! ### Functions and calls used -/

/-- `Wall::new`, examples/building.rs:270 -/
def cWall : Ctor := elementCtors[0]'(by decide +kernel)
/-- `Building::new`, examples/building.rs:52 -/
def cBuilding : Ctor := structureCtors[0]'(by decide +kernel)
/-- `WallType::new`, examples/building.rs:85 -/
def cWallType : Ctor := typeCtors[0]'(by decide +kernel)
/-- `Project::new`, examples/building.rs:45 -/
def cProject : Ctor := otherObjectCtors[0]'(by decide +kernel)
/-- `OwnerHistory::new`, examples/building.rs:178 -/
def cHistory : Ctor := otherObjectCtors[1]'(by decide +kernel)
/-- `Application::new`, examples/building.rs:167 -/
def cApplication : Ctor := otherObjectCtors[2]'(by decide +kernel)
/-- `Organization::new`, examples/building.rs:160 -/
def cOrganization : Ctor := otherObjectCtors[3]'(by decide +kernel)
/-- `PersonAndOrganization::new`, examples/building.rs:165 -/
def cPersonAndOrganization : Ctor := otherObjectCtors[4]'(by decide +kernel)
/-- `Material::new`, examples/building.rs:103 -/
def cMaterial : Ctor := materialCtors[0]'(by decide +kernel)
/-- `MaterialLayer::new`, examples/building.rs:104 -/
def cLayer : Ctor := materialCtors[1]'(by decide +kernel)
/-- `MaterialLayerSet::new`, examples/building.rs:107 -/
def cLayerSet : Ctor := materialCtors[2]'(by decide +kernel)
/-- `MaterialLayerSetUsage::new`, examples/building.rs:112 -/
def cUsage : Ctor := materialCtors[3]'(by decide +kernel)
/-- `SiUnit::new`, examples/building.rs:28-30 -/
def cUnit : Ctor := unitCtors[0]'(by decide +kernel)
/-- `UnitAssigment::new`, examples/building.rs:33 -/
def cUnits : Ctor := unitCtors[1]'(by decide +kernel)
/-- `Axis2D::new`, examples/building.rs:209 -/
def cAxis2 : Ctor := axisCtors[0]'(by decide +kernel)
/-- `Axis3D::new`, examples/building.rs:36, 248 -/
def cAxis3 : Ctor := axisCtors[1]'(by decide +kernel)

/-- `Wall::owner_history`, examples/building.rs:271 -/
def sWallHistory : Setter := wallCalls[5]'(by decide +kernel)
/-- `Wall::object_placement`, examples/building.rs:272 -/
def sWallPlacement : Setter := wallCalls[2]'(by decide +kernel)
/-- `Wall::representation`, examples/building.rs:273 -/
def sWallRepresentation : Setter := wallCalls[3]'(by decide +kernel)
/-- `Building::owner_history`, examples/building.rs:52 -/
def sBuildingHistory : Setter := buildingCalls[8]'(by decide +kernel)
/-- `WallType::owner_history`, examples/building.rs:86 -/
def sTypeHistory : Setter := typeCalls[2]'(by decide +kernel)
/-- `WallType::name`, examples/building.rs:87 -/
def sTypeName : Setter := typeCalls[3]'(by decide +kernel)
/-- `Project::add_context`, examples/building.rs:48 -/
def sProjectContext : Setter := projectCalls[3]'(by decide +kernel)
/-- `Project::unit_assignment`, examples/building.rs:47 -/
def sProjectUnits : Setter := projectCalls[4]'(by decide +kernel)
/-- `Project::owner_history`, examples/building.rs:46 -/
def sProjectHistory : Setter := projectCalls[5]'(by decide +kernel)
/-- `OwnerHistory::owning_user`, examples/building.rs:179 -/
def sHistoryUser : Setter := historyCalls[0]'(by decide +kernel)
/-- `OwnerHistory::owning_application`, examples/building.rs:180 -/
def sHistoryApplication : Setter := historyCalls[1]'(by decide +kernel)
/-- `OwnerHistory::last_modified_date`, examples/building.rs:181 -/
def sHistoryModified : Setter := historyCalls[3]'(by decide +kernel)
/-- `MaterialLayer::material`, examples/building.rs:105 -/
def sLayerMaterial : Setter := layerCalls[0]'(by decide +kernel)
/-- `MaterialLayer::name`, examples/building.rs:106 -/
def sLayerName : Setter := layerCalls[1]'(by decide +kernel)
/-- `MaterialLayerSet::name`, examples/building.rs:108 -/
def sLayerSetName : Setter := layerSetCalls[0]'(by decide +kernel)
/-- `MaterialLayerSet::add_layer`, examples/building.rs:109 -/
def sLayerSetAdd : Setter := layerSetCalls[2]'(by decide +kernel)
/-- `RectangleProfileDef::position`, examples/building.rs:208 -/
def sRectanglePosition : Setter := rectangleCalls[1]'(by decide +kernel)
/-- `ShapeRepresentation::add_item`, examples/building.rs:259 -/
def sAddMapped : Setter := representationCalls[0]'(by decide +kernel)
/-- `ShapeRepresentation::add_item`, examples/building.rs:200 -/
def sAddSolid : Setter := representationCalls[2]'(by decide +kernel)
/-- `ProductDefinitionShape::add_representation`, examples/building.rs:265-266 -/
def sAddRepresentation : Setter := shapeCalls[2]'(by decide +kernel)
/-- `RelContainedInSpatialStructure::relate_structure`, examples/building.rs:143 -/
def sContainWall : Setter := containedCalls[10]'(by decide +kernel)
/-- `RelContainedInSpatialStructure::owner_history`, examples/building.rs:144 -/
def sContainHistory : Setter := containedCalls[11]'(by decide +kernel)
/-- `RelAssociatesMaterial::relate_obj`, examples/building.rs:136 -/
def sMaterialWallType : Setter := associatesCalls[10]'(by decide +kernel)
/-- `RelAssociatesMaterial::relate_obj`, examples/building.rs:126 -/
def sMaterialWall : Setter := associatesCalls[11]'(by decide +kernel)
/-- `RelAssociatesMaterial::owner_history`, examples/building.rs:127, 137 -/
def sMaterialHistory : Setter := associatesCalls[12]'(by decide +kernel)
/-- `RelDefinesByType::relate_obj`, examples/building.rs:99 -/
def sTypedWall : Setter := definesByTypeCalls[8]'(by decide +kernel)

/-- kind, name and kind of the argument -/
def used (s : Setter) : Kind × Str × Option Kind := (s.kind, s.name, match s.arg with
  | .plain _ => none
  | .entity k => some k
  | .fresh k => some k)

example : ([cWall, cBuilding, cWallType, cProject, cHistory, cApplication, cOrganization, cPersonAndOrganization, cMaterial, cLayer,
      cLayerSet, cUsage, cUnit, cUnits, cAxis2, cAxis3].map fun c => (c.kind, c.name)) =
    [(.Wall, cs! "new"), (.Building, cs! "new"), (.WallType, cs! "new"), (.Project, cs! "new"), (.OwnerHistory, cs! "new"),
     (.Application, cs! "new"), (.Organization, cs! "new"), (.PersonAndOrganization, cs! "new"), (.Material, cs! "new"),
     (.MaterialLayer, cs! "new"), (.MaterialLayerSet, cs! "new"), (.MaterialLayerSetUsage, cs! "new"), (.SiUnit, cs! "new"),
     (.UnitAssigment, cs! "new"), (.Axis2D, cs! "new"), (.Axis3D, cs! "new")] := by decide +kernel

example : [sWallHistory, sWallPlacement, sWallRepresentation, sBuildingHistory, sTypeHistory, sTypeName, sProjectContext,
      sProjectUnits, sProjectHistory, sHistoryUser, sHistoryApplication, sHistoryModified].map used =
    [(.Wall, cs! "owner_history", some .OwnerHistory), (.Wall, cs! "object_placement", some .LocalPlacement),
     (.Wall, cs! "representation", some .ProductDefinitionShape), (.Building, cs! "owner_history", some .OwnerHistory),
     (.WallType, cs! "owner_history", some .OwnerHistory), (.WallType, cs! "name", none),
     (.Project, cs! "add_context", some .GeometricRepresentationContext),
     (.Project, cs! "unit_assignment", some .UnitAssigment), (.Project, cs! "owner_history", some .OwnerHistory),
     (.OwnerHistory, cs! "owning_user", some .PersonAndOrganization),
     (.OwnerHistory, cs! "owning_application", some .Application), (.OwnerHistory, cs! "last_modified_date", none)] := by
  decide +kernel

example : [sLayerMaterial, sLayerName, sLayerSetName, sLayerSetAdd, sRectanglePosition, sAddMapped, sAddSolid, sAddRepresentation,
      sContainWall, sContainHistory, sMaterialWallType, sMaterialWall, sMaterialHistory, sTypedWall].map used =
    [(.MaterialLayer, cs! "material", some .Material), (.MaterialLayer, cs! "name", none), (.MaterialLayerSet, cs! "name", none),
     (.MaterialLayerSet, cs! "add_layer", some .MaterialLayer), (.RectangleProfileDef, cs! "position", some .Axis2D),
     (.ShapeRepresentation, cs! "add_item", some .MappedItem), (.ShapeRepresentation, cs! "add_item", some .ExtrudedAreaSolid),
     (.ProductDefinitionShape, cs! "add_representation", some .ShapeRepresentation),
     (.RelContainedInSpatialStructure, cs! "relate_structure", some .Wall),
     (.RelContainedInSpatialStructure, cs! "owner_history", some .OwnerHistory),
     (.RelAssociatesMaterial, cs! "relate_obj", some .WallType), (.RelAssociatesMaterial, cs! "relate_obj", some .Wall),
     (.RelAssociatesMaterial, cs! "owner_history", some .OwnerHistory), (.RelDefinesByType, cs! "relate_obj", some .Wall)] := by
  decide +kernel

/-! ### The program -/

open Verif.Build (numeral)

/-- examples/building.rs:150-171, called with the arguments of lines 16-22 -/
def createPeople (g : Nat → Guid) (m : DataMap) : Ret (DataMap × Nat × Nat) := do
  let (m, p) ← Persons.Person.empty.calls m [.id (strFrom (cs! "Max")), .givenName (strFrom (cs! "Max"))]
  let (m, person) ← m.insertNew (.known .Person p.val)
  let (m, v) ← cOrganization.run (g 0) m (none, strFrom (cs! "ExampleOrganization"), none, ())
  let (m, organization) ← m.insertNew (.known .Organization v)
  let (m, v) ← cPersonAndOrganization.run (g 0) m (person, organization, ())
  let (m, both) ← m.insertNew (.known .PersonAndOrganization v)
  let (m, v) ← cApplication.run (g 0) m
    (organization, strFrom (cs! "0.0.1"), strFrom (cs! "BuildingExample"), strFrom (cs! "BuildingExample"), ())
  let (m, application) ← m.insertNew (.known .Application v)
  return (m, both, application)

/-- examples/building.rs:173-184; `t₀` and `t₁` are the results of `IfcTimestamp::now()` -/
def createHistory (g : Nat → Guid) (t₀ t₁ : Stamp) (both application : Nat) (m : DataMap) : Ret (DataMap × Nat) := do
  let (m, v) ← cHistory.run (g 0) m (⟨2, by decide⟩, t₀, ())
  let (m, v) ← sHistoryUser.act (.id both) m v
  let (m, v) ← sHistoryApplication.act (.id application) m v
  let (m, v) ← sHistoryModified.act t₁ m v
  m.insertNew (.known .OwnerHistory v)

/-- examples/building.rs:186-274, called with the arguments of lines 69-81 -/
def createWall (g : Nat → Guid) (history placement sub : Nat) (m : DataMap) : Ret (DataMap × (row .Wall).Val) := do
  let height := numeral 2
  let thickness := numeral 2 (-2)
  let start := F64.zero
  let length := numeral 4
  -- lines 194-224
  let (m, shape) ← representationCtor.run (g 0) m (.id sub, ⟨8, by decide⟩, ⟨19, by decide⟩, ())
  let (m, rect) ← rectangleCtor.run (g 0) m (⟨1, by decide⟩, length, thickness, ())
  let (m, axis) ← cAxis2.run (g 0) m ((start.add (length.mul (numeral 5 (-1))), thickness.mul (numeral 5 (-1))), ())
  let (m, rect) ← sRectanglePosition.act (.custom axis) m rect
  let (m, solid) ← (solidCtor .RectangleProfileDef).run (g 0) m
    (.custom rect, .custom (Build.normalize3 (F64.zero, F64.zero, numeral 1)), height, ())
  let (m, shape) ← sAddSolid.act solid m shape
  let (m, body) ← m.insertNew (.known .ShapeRepresentation shape)
  -- lines 228-245
  let (m, transformation) ← nonUniformCtor.run (g 0) m (.custom (Build.normalize3 (numeral 1, numeral 1, F64.zero)),
    .custom (Build.normalize3 ((numeral 1).neg, numeral 1, F64.zero)), .custom (F64.zero, F64.zero, F64.zero), numeral 1,
    .custom (Build.normalize3 (F64.zero, F64.zero, numeral 1)), numeral 1, numeral 1, ())
  -- lines 247-251
  let (m, origin) ← cAxis3.run (g 0) m ((F64.zero, F64.zero, F64.zero), ())
  let (m, map) ← mapCtor.run (g 0) m (.custom origin, .id body, ())
  -- lines 253-262
  let (m, shape) ← representationCtor.run (g 0) m (.id sub, ⟨8, by decide⟩, ⟨28, by decide⟩, ())
  let (m, item) ← (mappedCtor .NonUniformTransform).run (g 0) m (.custom map, .custom transformation, ())
  let (m, shape) ← sAddMapped.act item m shape
  -- lines 264-273
  let (m, product) ← shapeCtor.run (g 0) m ()
  let (m, product) ← sAddRepresentation.act (.id body) m product
  let (m, product) ← sAddRepresentation.act (.custom shape) m product
  let (m, place) ← (placementCtor .Axis3D).run (g 0) m (.id placement, ())
  let (m, v) ← cWall.run (g 0) m (strFrom (cs! "ExampleWall"), ())
  let (m, v) ← sWallHistory.act (.id history) m v
  let (m, v) ← sWallPlacement.act (.custom place) m v
  sWallRepresentation.act (.custom product) m v

/-- examples/building.rs:12-145: the data of `ifc` at the end.  `g` are the global ids drawn, `t₀` and `t₁` the times. -/
def buildingExample (g : Nat → Guid) (t₀ t₁ : Stamp) : Ret DataMap := do
  let (m, both, application) ← createPeople g []
  let (m, history) ← createHistory g t₀ t₁ both application m
  -- lines 28-33
  let (m, u₁) ← cUnit.run (g 0) m (some ⟨14, by decide⟩, none, ⟨15, by decide⟩, ())
  let (m, u₂) ← cUnit.run (g 0) m (some ⟨20, by decide⟩, none, ⟨20, by decide⟩, ())
  let (m, u₃) ← cUnit.run (g 0) m (some ⟨26, by decide⟩, none, ⟨21, by decide⟩, ())
  let (m, units) ← cUnits.run (g 0) m ([.custom u₁, .custom u₂, .custom u₃], ())
  -- lines 36-42
  let (m, v) ← cAxis3.run (g 0) m ((F64.zero, F64.zero, F64.zero), ())
  let (m, root) ← m.insertNew (.known .Axis3D v)
  let (m, v) ← (contextCtor .Axis3D).run (g 0) m (.id root, ⟨2, by decide⟩, ())
  let (m, context) ← m.insertNew (.known .GeometricRepresentationContext v)
  -- lines 45-49
  let (m, v) ← cProject.run (g 0) m (strFrom (cs! "ExampleProject"), ())
  let (m, v) ← sProjectHistory.act (.id history) m v
  let (m, v) ← sProjectUnits.act (.custom units) m v
  let (m, v) ← sProjectContext.act (.id context) m v
  let (m, project) ← m.insertNew (.known .Project v)
  -- lines 52-58
  let (m, v) ← cBuilding.run (g 1) m (strFrom (cs! "ExampleBuilding"), ())
  let (m, v) ← sBuildingHistory.act (.id history) m v
  let (m, building) ← m.insertNew (.known .Building v)
  let (m, v) ← aggregatesCtor.run (g 2) m (strFrom (cs! "ProjectBuildingLink"), project, [building], ())
  let (m, _) ← m.insertNew (.known .RelAggregates v)
  -- lines 61-66
  let (m, v) ← subContextCtor.run (g 0) m (.id context, ⟨2, by decide⟩, ())
  let (m, sub) ← m.insertNew (.known .GeometricRepresentationSubContext v)
  -- lines 69-88
  let (m, v) ← createWall (fun n => g (n + 3)) history root sub m
  let (m, wall) ← m.insertNew (.known .Wall v)
  let (m, v) ← cWallType.run (g 4) m (strFrom (cs! "ExampleWallTypeId"), ⟨11, by decide⟩, ())
  let (m, v) ← sTypeHistory.act (.id history) m v
  let (m, v) ← sTypeName.act (strFrom (cs! "ExampleWallTypeName")) m v
  let (m, type) ← m.insertNew (.known .WallType v)
  -- lines 97-100
  let (m, v) ← (definesByTypeCtor .WallType).run (g 5) m (strFrom (cs! "WallToWallType"), .id type, ())
  let (m, v) ← sTypedWall.act (.id wall) m v
  let (m, _) ← m.insertNew (.known .RelDefinesByType v)
  -- lines 103-118
  let (m, material) ← cMaterial.run (g 0) m (strFrom (cs! "ExampleMaterial"), ())
  let (m, v) ← cLayer.run (g 0) m (numeral 2 (-2), false, ())
  let (m, v) ← sLayerMaterial.act (.custom material) m v
  let (m, layer) ← sLayerName.act (strFrom (cs! "ExampleMaterialLayer")) m v
  let (m, v) ← cLayerSet.run (g 0) m ()
  let (m, v) ← sLayerSetName.act (strFrom (cs! "ExampleMaterialLayerSet")) m v
  let (m, v) ← sLayerSetAdd.act (.custom layer) m v
  let (m, set) ← m.insertNew (.known .MaterialLayerSet v)
  let (m, usage) ← cUsage.run (g 0) m (.id set, ⟨1, by decide⟩, ⟨0, by decide⟩, F64.zero, ())
  -- lines 121-128
  let (m, v) ← (associatesCtor .MaterialLayerSetUsage).run (g 6) m
    (strFrom (cs! "MaterialWallAssociation"), .custom usage, ())
  let (m, v) ← sMaterialWall.act (.id wall) m v
  let (m, v) ← sMaterialHistory.act (.id history) m v
  let (m, _) ← m.insertNew (.known .RelAssociatesMaterial v)
  -- lines 131-138
  let (m, v) ← (associatesCtor .MaterialLayerSet).run (g 7) m (strFrom (cs! "MaterialWallTypeAssociation"), .id set, ())
  let (m, v) ← sMaterialWallType.act (.id type) m v
  let (m, v) ← sMaterialHistory.act (.id history) m v
  let (m, _) ← m.insertNew (.known .RelAssociatesMaterial v)
  -- lines 141-145
  let (m, v) ← (containedCtor .Building).run (g 8) m (strFrom (cs! "BuildingWallLink"), .id building, ())
  let (m, v) ← sContainWall.act (.id wall) m v
  let (m, v) ← sContainHistory.act (.id history) m v
  let (m, _) ← m.insertNew (.known .RelContainedInSpatialStructure v)
  return m

example : eRepresentationIdentifier.get ⟨8, by decide⟩ = cs! "'Body'" ∧ eRepresentationType.get ⟨19, by decide⟩ = cs! "'SweptSolid'" ∧
    eRepresentationType.get ⟨28, by decide⟩ = cs! "'MappedRepresentation'" ∧ eProfileType.get ⟨1, by decide⟩ = cs! ".AREA." ∧
    eChangeAction.get ⟨2, by decide⟩ = cs! ".ADDED." ∧ eGeometricProjection.get ⟨2, by decide⟩ = cs! ".MODEL_VIEW." ∧
    eDimensionCount.get ⟨2, by decide⟩ = cs! "3" ∧ eLayerSetDirectionEnum.get ⟨1, by decide⟩ = cs! ".AXIS2." ∧
    eDirectionSenseEnum.get ⟨0, by decide⟩ = cs! ".POSITIVE." ∧ eWallTypeEnum.get ⟨11, by decide⟩ = cs! ".NOTDEFINED." := by
  decide

example : [eIfcUnitEnum.get ⟨14, by decide⟩, eIfcUnitName.get ⟨15, by decide⟩, eIfcUnitEnum.get ⟨20, by decide⟩,
      eIfcUnitName.get ⟨20, by decide⟩, eIfcUnitEnum.get ⟨26, by decide⟩, eIfcUnitName.get ⟨21, by decide⟩] =
    [cs! ".LENGTHUNIT.", cs! ".METRE.", cs! ".PLANEANGLEUNIT.", cs! ".RADIAN.", cs! ".TIMEUNIT.", cs! ".SECOND."] := by
  decide

end Verif.Setters
