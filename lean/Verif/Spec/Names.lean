import Verif.Model.Codec
/-
Specification vocabulary: the EXPRESS names of the entity types and their numbers of explicit attributes.

The source links a page of the standard for most types, but not always of the same edition: mostly IFC4.2, IFC2x3 for
the actor, address, owner history, context and slab types (e.g. objects/address/mod.rs:14, 47), IFC4 ADD2 for doors and
roof types, IFC4x3 for shading devices and material properties. `attributeCount` counts per linked edition;
`attributeCountIfc4` counts per IFC4 ADD2 for every type, so that the differences between the two are visible.
Both tables were written from knowledge of the standard, which is not in the repository and could not be looked up
here: they belong to the trusted base.
-/
namespace Verif

/-- ASCII upper case -/
def upperAscii (c : Char) : Char := if 97 ≤ c.toNat ∧ c.toNat ≤ 122 then Char.ofNat (c.toNat - 32) else c

/-- EXPRESS names under which a type may be written in a file; the first is the one to be written -/
def expressNames : Kind → List Str
  | .ActorRole => [cs! "IfcActorRole"]
  | .PostalAddress => [cs! "IfcPostalAddress"]
  | .TelecomAddress => [cs! "IfcTelecomAddress"]
  | .Application => [cs! "IfcApplication"]
  | .Organization => [cs! "IfcOrganization"]
  | .OwnerHistory => [cs! "IfcOwnerHistory"]
  | .Person => [cs! "IfcPerson"]
  | .PersonAndOrganization => [cs! "IfcPersonAndOrganization"]
  | .Wall => [cs! "IfcWall", cs! "IfcWallStandardCase"]
  | .WallType => [cs! "IfcWallType"]
  | .Slab => [cs! "IfcSlab", cs! "IfcSlabStandardCase"]
  | .SlabType => [cs! "IfcSlabType"]
  | .Roof => [cs! "IfcRoof"]
  | .RoofType => [cs! "IfcRoofType"]
  | .Building => [cs! "IfcBuilding"]
  | .Storey => [cs! "IfcBuildingStorey"]
  | .Site => [cs! "IfcSite"]
  | .OpeningElement => [cs! "IfcOpeningElement"]
  | .Window => [cs! "IfcWindow", cs! "IfcWindowStandardCase"]
  | .WindowType => [cs! "IfcWindowType"]
  | .Project => [cs! "IfcProject"]
  | .Space => [cs! "IfcSpace"]
  | .SpaceType => [cs! "IfcSpaceType"]
  | .Door => [cs! "IfcDoor", cs! "IfcDoorStandardCase"]
  | .DoorType => [cs! "IfcDoorType"]
  | .ShadingDevice => [cs! "IfcShadingDevice"]
  | .ShadingDeviceType => [cs! "IfcShadingDeviceType"]
  | .ArbitraryClosedProfileDef => [cs! "IfcArbitraryClosedProfileDef"]
  | .Axis2D => [cs! "IfcAxis2Placement2D"]
  | .Axis3D => [cs! "IfcAxis2Placement3D"]
  | .Direction2D => [cs! "IfcDirection"]
  | .Direction3D => [cs! "IfcDirection"]
  | .ExtrudedAreaSolid => [cs! "IfcExtrudedAreaSolid"]
  | .IndexedPolyCurve => [cs! "IfcIndexedPolyCurve"]
  | .Point2D => [cs! "IfcCartesianPoint"]
  | .Point3D => [cs! "IfcCartesianPoint"]
  | .PointList2D => [cs! "IfcCartesianPointList2D"]
  | .PointList3D => [cs! "IfcCartesianPointList3D"]
  | .PolyLine => [cs! "IfcPolyline"]
  | .ProductDefinitionShape => [cs! "IfcProductDefinitionShape"]
  | .RectangleProfileDef => [cs! "IfcRectangleProfileDef"]
  | .GeometricRepresentationContext => [cs! "IfcGeometricRepresentationContext"]
  | .GeometricRepresentationSubContext => [cs! "IfcGeometricRepresentationSubContext"]
  | .ShapeRepresentation => [cs! "IfcShapeRepresentation"]
  | .LocalPlacement => [cs! "IfcLocalPlacement"]
  | .NonUniformTransform => [cs! "IfcCartesianTransformationOperator3DnonUniform"]
  | .UniformTransform => [cs! "IfcCartesianTransformationOperator3D"]
  | .RelAggregates => [cs! "IfcRelAggregates"]
  | .RelAssociatesMaterial => [cs! "IfcRelAssociatesMaterial"]
  | .RelContainedInSpatialStructure => [cs! "IfcRelContainedInSpatialStructure"]
  | .RelDeclares => [cs! "IfcRelDeclares"]
  | .RelDefinesByType => [cs! "IfcRelDefinesByType"]
  | .RelDefinesByProperties => [cs! "IfcRelDefinesByProperties"]
  | .RelVoidsElement => [cs! "IfcRelVoidsElement"]
  | .RelFillsElement => [cs! "IfcRelFillsElement"]
  | .MappedItem => [cs! "IfcMappedItem"]
  | .RepresentationMap => [cs! "IfcRepresentationMap"]
  | .UnitAssigment => [cs! "IfcUnitAssignment"]
  | .ConversionBasedUnit => [cs! "IfcConversionBasedUnit"]
  | .SiUnit => [cs! "IfcSIUnit"]
  | .DimensionalExponents => [cs! "IfcDimensionalExponents"]
  | .MeasureWithUnit => [cs! "IfcMeasureWithUnit"]
  | .PlaneAngleMeasure => [cs! "IfcPlaneAngleMeasure"]
  | .DerivedUnit => [cs! "IfcDerivedUnit"]
  | .DerivedUnitElement => [cs! "IfcDerivedUnitElement"]
  | .MonetaryUnit => [cs! "IfcMonetaryUnit"]
  | .MaterialLayerSetUsage => [cs! "IfcMaterialLayerSetUsage"]
  | .MaterialLayerSet => [cs! "IfcMaterialLayerSet"]
  | .MaterialLayer => [cs! "IfcMaterialLayer"]
  | .Material => [cs! "IfcMaterial"]
  | .MaterialConstituent => [cs! "IfcMaterialConstituent"]
  | .MaterialConstituentSet => [cs! "IfcMaterialConstituentSet"]
  | .MaterialProperties => [cs! "IfcMaterialProperties"]
  | .PropertySet => [cs! "IfcPropertySet"]
  | .PropertySingleValue => [cs! "IfcPropertySingleValue"]

/-- the keyword and opening parenthesis as they stand in a file -/
def keywordTexts (k : Kind) : List Str := (expressNames k).map fun n => n.map upperAscii ++ ['(']

/-- number of explicit attributes of the type in the edition the source links -/
def attributeCount : Kind → Nat
  | .ActorRole => 3 | .PostalAddress => 10 | .TelecomAddress => 8 | .Application => 4 | .Organization => 5
  | .OwnerHistory => 8 | .Person => 8 | .PersonAndOrganization => 3
  | .Wall => 9 | .WallType => 10 | .Slab => 9 | .SlabType => 10 | .Roof => 9 | .RoofType => 10
  | .Building => 12 | .Storey => 10 | .Site => 14 | .OpeningElement => 9 | .Window => 13 | .WindowType => 13
  | .Project => 9 | .Space => 11 | .SpaceType => 11 | .Door => 13 | .DoorType => 13 | .ShadingDevice => 9
  | .ShadingDeviceType => 10
  | .ArbitraryClosedProfileDef => 3 | .Axis2D => 2 | .Axis3D => 3 | .Direction2D => 1 | .Direction3D => 1
  | .ExtrudedAreaSolid => 4 | .IndexedPolyCurve => 3 | .Point2D => 1 | .Point3D => 1 | .PointList2D => 2
  | .PointList3D => 2 | .PolyLine => 1 | .ProductDefinitionShape => 3 | .RectangleProfileDef => 5
  | .GeometricRepresentationContext => 6 | .GeometricRepresentationSubContext => 10 | .ShapeRepresentation => 4
  | .LocalPlacement => 2 | .NonUniformTransform => 7 | .UniformTransform => 5
  | .RelAggregates => 6 | .RelAssociatesMaterial => 6 | .RelContainedInSpatialStructure => 6 | .RelDeclares => 6
  | .RelDefinesByType => 6 | .RelDefinesByProperties => 6 | .RelVoidsElement => 6 | .RelFillsElement => 6
  | .MappedItem => 2 | .RepresentationMap => 2
  | .UnitAssigment => 1 | .ConversionBasedUnit => 4 | .SiUnit => 4 | .DimensionalExponents => 7
  | .MeasureWithUnit => 2 | .PlaneAngleMeasure => 1 | .DerivedUnit => 3 | .DerivedUnitElement => 2 | .MonetaryUnit => 1
  | .MaterialLayerSetUsage => 5 | .MaterialLayerSet => 3 | .MaterialLayer => 7 | .Material => 3
  | .MaterialConstituent => 5 | .MaterialConstituentSet => 3
  | .MaterialProperties => 4 | .PropertySet => 5 | .PropertySingleValue => 4

/-- number of explicit attributes of the type in IFC4 ADD2, where telecom addresses have `MessagingIDs` as a ninth
attribute and point lists do not have `TagList` yet -/
def attributeCountIfc4 : Kind → Nat
  | .TelecomAddress => 9
  | .PointList2D => 1
  | .PointList3D => 1
  | k => attributeCount k

end Verif
