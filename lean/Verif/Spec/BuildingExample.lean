import Verif.Model.ExampleApi
/-
Specification: the entities of the file written by examples/building.rs, in the order of the file.
-/
namespace Verif.Setters
open Verif Schema
open Verif.Build (numeral)

/-- a text of the program -/
def said (s : Str) : Opt Str := .custom (strFrom s)

def zeroPoint : F64 × F64 × F64 := (F64.zero, F64.zero, F64.zero)

/-- `(global id, owner history, name, description)` -/
def named (g : Guid) (history : Opt Nat) (name : Str) : RootV := (g, history, said name, .omitted)

/-- the root of one half, as the program stores it -/
def rootHalf : F64 := numeral 7071067811865475 (-16)

/-- the same, after it has been written with 15 digits and read -/
def rootHalfRead : F64 := numeral 707106781186547 (-15)

/-- The 44 entities, with `r` for the root of one half.  The program chooses all but the global ids `g` and the times `t₀`
and `t₁`. -/
def buildingData (r : F64) (g : Nat → Guid) (t₀ t₁ : Stamp) : DataMap :=
  [(1, .known .Person ((said (cs! "Max"), .omitted, said (cs! "Max"), .omitted, .omitted, .omitted, .omitted, .omitted) :
      Opt Str × Opt Str × Opt Str × Opt (List Str) × Opt (List Str) × Opt (List Str) × Opt (List Nat) × Opt (List Nat))),
   (2, .known .Organization ((.omitted, strFrom (cs! "ExampleOrganization"), .omitted, .omitted, .omitted) :
      Opt Str × Str × Opt Str × Opt (List Nat) × Opt (List Nat))),
   (3, .known .PersonAndOrganization ((1, 2, .omitted) : Nat × Nat × Opt (List Nat))),
   (4, .known .Application ((2, strFrom (cs! "0.0.1"), strFrom (cs! "BuildingExample"), strFrom (cs! "BuildingExample")) :
      Nat × Str × Str × Str)),
   (5, .known .OwnerHistory ((.custom 3, .custom 4, .omitted, ⟨2, by decide⟩, .custom t₁, .custom 3, .custom 4, t₀) : Build.HistVal)),
   (6, .known .SiUnit (((.inherited, .custom ⟨14, by decide⟩), .omitted, ⟨15, by decide⟩) :
      (Opt Nat × Opt (Fin eIfcUnitEnum.length)) × Opt (Fin eIfcPrefix.length) × Fin eIfcUnitName.length)),
   (7, .known .SiUnit (((.inherited, .custom ⟨20, by decide⟩), .omitted, ⟨20, by decide⟩) :
      (Opt Nat × Opt (Fin eIfcUnitEnum.length)) × Opt (Fin eIfcPrefix.length) × Fin eIfcUnitName.length)),
   (8, .known .SiUnit (((.inherited, .custom ⟨26, by decide⟩), .omitted, ⟨21, by decide⟩) :
      (Opt Nat × Opt (Fin eIfcUnitEnum.length)) × Opt (Fin eIfcPrefix.length) × Fin eIfcUnitName.length)),
   (9, .known .Point3D (zeroPoint : F64 × F64 × F64)),
   (10, .known .Axis3D ((9, .omitted, .omitted) : Nat × Opt Nat × Opt Nat)),
   (11, .known .GeometricRepresentationContext
      ((.custom ⟨8, by decide⟩, said (cs! "Model"), ⟨2, by decide⟩, .omitted, 10, .omitted) :
      Opt (Fin eRepresentationIdentifier.length) × Opt Str × Fin eDimensionCount.length × Opt F64 × Nat × Opt Nat)),
   (12, .known .UnitAssigment ([6, 7, 8] : List Nat)),
   (13, .known .Project ((named (g 0) (.custom 5) (cs! "ExampleProject"), .omitted, .omitted, .omitted, [11], .custom 12) :
      RootV × Opt Str × Opt Str × Opt Str × List Nat × Opt Nat)),
   (14, .known .Building ((((((named (g 1) (.custom 5) (cs! "ExampleBuilding"), .omitted), .omitted, .omitted), .omitted), .omitted),
        .omitted, .omitted, .omitted) : StructureV × Opt F64 × Opt F64 × Opt Nat)),
   (15, .known .RelAggregates ((named (g 2) .omitted (cs! "ProjectBuildingLink"), 13, [14]) : RootV × Nat × List Nat)),
   (16, .known .GeometricRepresentationSubContext
      ((.custom ⟨8, by decide⟩, said (cs! "Model"), .inherited, .inherited, .inherited, .inherited, 11, .omitted, ⟨2, by decide⟩, .omitted) :
      Opt (Fin eRepresentationIdentifier.length) × Opt Str × Opt (Fin eDimensionCount.length) × Opt F64 × Opt Nat × Opt Nat × Nat ×
        Opt F64 × Fin eGeometricProjection.length × Opt Str)),
   (17, .known .Point2D ((numeral 2, numeral 1 (-2)) : F64 × F64)),
   (18, .known .Axis2D ((17, .omitted) : Nat × Opt Nat)),
   (19, .known .RectangleProfileDef ((⟨1, by decide⟩, .omitted, .custom 18, numeral 4, numeral 2 (-2)) :
      Fin eProfileType.length × Opt Str × Opt Nat × F64 × F64)),
   (20, .known .Direction3D ((F64.zero, F64.zero, numeral 1) : F64 × F64 × F64)),
   (21, .known .ExtrudedAreaSolid ((19, .omitted, 20, numeral 2) : Nat × Opt Nat × Nat × F64)),
   (22, .known .ShapeRepresentation ((16, .custom ⟨8, by decide⟩, .custom ⟨19, by decide⟩, [21]) :
      Nat × Opt (Fin eRepresentationIdentifier.length) × Opt (Fin eRepresentationType.length) × List Nat)),
   (23, .known .Direction3D ((r, r, F64.zero) : F64 × F64 × F64)),
   (24, .known .Direction3D ((r.neg, r, F64.zero) : F64 × F64 × F64)),
   (25, .known .Point3D (zeroPoint : F64 × F64 × F64)),
   (26, .known .Direction3D ((F64.zero, F64.zero, numeral 1) : F64 × F64 × F64)),
   (27, .known .Point3D (zeroPoint : F64 × F64 × F64)),
   (28, .known .Axis3D ((27, .omitted, .omitted) : Nat × Opt Nat × Opt Nat)),
   (29, .known .RepresentationMap ((.id 28, .id 22) : IdOr (Nat × Opt Nat × Opt Nat) ×
      IdOr (Nat × Opt (Fin eRepresentationIdentifier.length) × Opt (Fin eRepresentationType.length) × List Nat))),
   (30, .known .NonUniformTransform
      (((.custom (.id 23), .custom (.id 24), .custom (.id 25), .custom (numeral 1), .custom (.id 26)), .custom (numeral 1), .custom (numeral 1)) :
      TransformV × Opt F64 × Opt F64)),
   (31, .known .MappedItem ((.id 29, 30) : IdOr (row .RepresentationMap).Val × Nat)),
   (32, .known .ShapeRepresentation ((16, .custom ⟨8, by decide⟩, .custom ⟨28, by decide⟩, [31]) :
      Nat × Opt (Fin eRepresentationIdentifier.length) × Opt (Fin eRepresentationType.length) × List Nat)),
   (33, .known .LocalPlacement ((.omitted, 10) : Opt Nat × Nat)),
   (34, .known .ProductDefinitionShape ((.omitted, .omitted, [22, 32]) : Opt Str × Opt Str × List Nat)),
   (35, .known .Wall ((((((named (g 3) (.custom 5) (cs! "ExampleWall")), .omitted), .custom 33, .custom 34), .omitted), .omitted) :
      ElementV × Opt (IdOr (row .WallType).Val))),
   (36, .known .WallType ((((((named (g 4) (.custom 5) (cs! "ExampleWallTypeName")), .omitted, .omitted), .omitted, .omitted), .omitted),
      ⟨11, by decide⟩) : Build.TypeVal × Fin eWallTypeEnum.length)),
   (37, .known .RelDefinesByType ((named (g 5) .omitted (cs! "WallToWallType"), [35], 36) : RootV × List Nat × Nat)),
   (38, .known .Material ((said (cs! "ExampleMaterial"), .omitted, .omitted) : Opt Str × Opt Str × Opt Str)),
   (39, .known .MaterialLayer ((.custom 38, numeral 2 (-2), .ff, said (cs! "ExampleMaterialLayer"), .omitted, .omitted, .omitted) :
      Build.LayerVal)),
   (40, .known .MaterialLayerSet (([39], said (cs! "ExampleMaterialLayerSet"), .omitted) : List Nat × Opt Str × Opt Str)),
   (41, .known .MaterialLayerSetUsage ((40, ⟨1, by decide⟩, ⟨0, by decide⟩, F64.zero, .omitted) :
      Nat × Fin eLayerSetDirectionEnum.length × Fin eDirectionSenseEnum.length × F64 × Opt F64)),
   (42, .known .RelAssociatesMaterial (((named (g 6) (.custom 5) (cs! "MaterialWallAssociation"), [35]), 41) : (RootV × List Nat) × Nat)),
   (43, .known .RelAssociatesMaterial (((named (g 7) (.custom 5) (cs! "MaterialWallTypeAssociation"), [36]), 40) :
      (RootV × List Nat) × Nat)),
   (44, .known .RelContainedInSpatialStructure ((named (g 8) (.custom 5) (cs! "BuildingWallLink"), [35], 14) :
      RootV × List Nat × Nat))]

end Verif.Setters
