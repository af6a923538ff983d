import Verif.Model.DataMap
import Verif.Spec.GlobalId
/- Specification vocabulary for C72: owner history, name and description of the entries of a built model. -/
namespace Verif

/-- GlobalId, OwnerHistory, Name and Description: the four attributes of `IfcRoot`, which come first -/
def Fld.root : (f : Fld) → f.Val → Option (Guid × Opt Nat × Opt Str × Opt Str)
  | .seq .guid (.seq (.opt (.ref _)) (.seq (.opt .str) (.opt .str))), v => some v
  | .seq f _, v => f.root v.1
  | .ent _ _ b _, v => b.root v
  | _, _ => none

namespace Build

/-- `d` is the number `n` in decimal digits, without leading zeros -/
def Decimal (d : Str) (n : Nat) : Prop :=
  (∀ c ∈ d, '0' ≤ c ∧ c ≤ '9') ∧ d ≠ [] ∧ (d = ['0'] ∨ d.head? ≠ some '0') ∧ d.foldl (fun n c => 10 * n + (c.toNat - 48)) 0 = n

/-- the kinds of root a program can make with the builders; no doors, door types and declarations -/
def builtRoots : List Kind :=
  [.Project, .Site, .Building, .Storey, .Space, .Wall, .Slab, .Roof, .Window, .ShadingDevice, .OpeningElement,
   .WallType, .SlabType, .RoofType, .WindowType, .ShadingDeviceType, .SpaceType,
   .RelAggregates, .RelContainedInSpatialStructure, .RelDefinesByType, .RelDefinesByProperties, .RelVoidsElement, .RelFillsElement,
   .RelAssociatesMaterial, .PropertySet]

/-- the kinds of resource -/
def builtResources : List Kind :=
  [.Organization, .Application, .Person, .PersonAndOrganization, .OwnerHistory, .SiUnit, .UnitAssigment,
   .GeometricRepresentationContext, .GeometricRepresentationSubContext, .Axis2D, .Axis3D, .Point2D, .Point3D, .Direction3D,
   .LocalPlacement, .ProductDefinitionShape, .ShapeRepresentation, .PointList2D, .PointList3D, .PolyLine, .IndexedPolyCurve,
   .RectangleProfileDef, .ArbitraryClosedProfileDef, .ExtrudedAreaSolid, .NonUniformTransform, .RepresentationMap, .MappedItem,
   .Material, .MaterialLayer, .MaterialLayerSet, .MaterialLayerSetUsage, .MaterialConstituent, .MaterialConstituentSet,
   .PropertySingleValue]

/-- the roots that are made without an owner history -/
def unsigned : List Kind := [.RelAggregates, .RelDefinesByProperties, .PropertySet]

/-- the name of a relation: one of these and a number -/
def Numbered (l : List Str) (name : Str) : Prop := ∃ w ∈ l, ∃ d n, Decimal d n ∧ name = w ++ d

/-- what the name of a relation is; that of a relation of a material has the number of the material -/
def RelationName : (k : Kind) → (Schema.row k).Val → Str → Prop
  | .RelAggregates, _, n => n ∈ [cs! "ProjectSitesLink", cs! "SiteBuildingsLink", cs! "BuildingStoreysLink", cs! "StoreySpacesLink"]
  | .RelContainedInSpatialStructure, _, n => n = cs! "StoreyToStructureElements"
  | .RelDefinesByType, _, n => Numbered [cs! "WallTypeToWall", cs! "SlabTypeToSlab", cs! "RoofTypeToRoof", cs! "WindowTypeToWindow",
      cs! "ShadingDeviceTypeToShadingDevice"] n
  | .RelVoidsElement, _, n => Numbered [cs! "OpeningElementToWall", cs! "OpeningElementToSlab"] n
  | .RelFillsElement, _, n => Numbered [cs! "OpeningElementToWindow"] n
  | .RelDefinesByProperties, _, n => n = cs! "PropertiesLink"
  | .RelAssociatesMaterial, v, n =>
    let v : ((Guid × Opt Nat × Opt Str × Opt Str) × List Nat) × Nat := v
    ∃ d, Decimal d v.2 ∧ ∃ w ∈ [cs! "ToWalls", cs! "ToSlab", cs! "ToRoof", cs! "ToWindows", cs! "ToShadingDevices", cs! "ToWallType",
      cs! "ToSlabType", cs! "ToRoofType", cs! "ToShadingDeviceType"], n = cs! "Material" ++ (d ++ w)
  | _, _, _ => True

/-- a root made by the builders, with the owner history `h` -/
structure Signed (h : Nat) (k : Kind) (v : (Schema.row k).Val) : Prop where
  kind : k ∈ builtRoots
  root : ∃ g n, (Schema.row k).root v = some (g, if k ∈ unsigned then .omitted else .custom h, .custom n, .omitted) ∧
    RelationName k v n

end Build
end Verif
