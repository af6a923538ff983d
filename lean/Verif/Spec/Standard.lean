import Verif.Model.Codec
import Verif.Spec.Guid
import Verif.Spec.Names
import Verif.Spec.Exchange
/-
Specification vocabulary: the attributes of the entity types in IFC4 ADD2 — name, form, enumeration constants, and which
of the types of the library (`Kind`) an attribute may point to.

Written from knowledge of the standard, which is not in the repository and could not be looked up here: trusted base.
Where an EXPRESS rule narrows the declared type (dimension of a placement's point, no spatial element inside a
containment relation, two-dimensional true north, no type objects with property relations) the narrowed type is given.
-/
namespace Verif.Standard
open Verif

/-- form of an attribute -/
inductive Std where
  /-- globally unique id -/
  | guid
  | text
  | real
  | int
  /-- boolean or logical -/
  | truth
  | time
  /-- a value with its type name, `IFCREAL(1.)` -/
  | value
  /-- a segment of an indexed curve, `IFCLINEINDEX((1,2))` -/
  | segment
  /-- a number of dimensions, 1 to 3 -/
  | dim
  /-- an enumeration constant, written between dots -/
  | word (ws : List Str)
  /-- a reference to an entity of one of these types -/
  | ref (ks : List Kind)
  | coords (n : Nat)
  | list (a : Std)
  | opt (a : Std)
  /-- redeclared as derived, written `*` -/
  | derived

/-! ### Enumerations -/

def wordsGeometricProjection : List Str :=
  [cs! "GRAPH_VIEW", cs! "SKETCH_VIEW", cs! "MODEL_VIEW", cs! "PLAN_VIEW", cs! "REFLECTED_PLAN_VIEW",
   cs! "SECTION_VIEW", cs! "ELEVATION_VIEW", cs! "USERDEFINED", cs! "NOTDEFINED"]
def wordsProfileType : List Str :=
  [cs! "CURVE", cs! "AREA"]
def wordsDirectionSense : List Str :=
  [cs! "POSITIVE", cs! "NEGATIVE"]
def wordsLayerSetDirection : List Str :=
  [cs! "AXIS1", cs! "AXIS2", cs! "AXIS3"]
def wordsShadingDeviceType : List Str :=
  [cs! "JALOUSIE", cs! "SHUTTER", cs! "AWNING", cs! "USERDEFINED", cs! "NOTDEFINED"]
def wordsState : List Str :=
  [cs! "READWRITE", cs! "READONLY", cs! "LOCKED", cs! "READWRITELOCKED", cs! "READONLYLOCKED"]
def wordsChangeAction : List Str :=
  [cs! "NOCHANGE", cs! "MODIFIED", cs! "ADDED", cs! "DELETED", cs! "NOTDEFINED"]
def wordsRole : List Str :=
  [cs! "SUPPLIER", cs! "MANUFACTURER", cs! "CONTRACTOR", cs! "SUBCONTRACTOR", cs! "ARCHITECT",
   cs! "STRUCTURALENGINEER", cs! "COSTENGINEER", cs! "CLIENT", cs! "BUILDINGOWNER", cs! "BUILDINGOPERATOR",
   cs! "MECHANICALENGINEER", cs! "ELECTRICALENGINEER", cs! "PROJECTMANAGER", cs! "FACILITIESMANAGER",
   cs! "CIVILENGINEER", cs! "COMMISSIONINGENGINEER", cs! "ENGINEER", cs! "OWNER", cs! "CONSULTANT",
   cs! "CONSTRUCTIONMANAGER", cs! "FIELDCONSTRUCTIONMANAGER", cs! "RESELLER", cs! "USERDEFINED"]
def wordsAddressType : List Str :=
  [cs! "OFFICE", cs! "SITE", cs! "HOME", cs! "DISTRIBUTIONPOINT", cs! "USERDEFINED"]
def wordsDoorOperation : List Str :=
  [cs! "SINGLE_SWING_LEFT", cs! "SINGLE_SWING_RIGHT", cs! "DOUBLE_DOOR_SINGLE_SWING",
   cs! "DOUBLE_DOOR_SINGLE_SWING_OPPOSITE_LEFT", cs! "DOUBLE_DOOR_SINGLE_SWING_OPPOSITE_RIGHT",
   cs! "DOUBLE_SWING_LEFT", cs! "DOUBLE_SWING_RIGHT", cs! "DOUBLE_DOOR_DOUBLE_SWING", cs! "SLIDING_TO_LEFT",
   cs! "SLIDING_TO_RIGHT", cs! "DOUBLE_DOOR_SLIDING", cs! "FOLDING_TO_LEFT", cs! "FOLDING_TO_RIGHT",
   cs! "DOUBLE_DOOR_FOLDING", cs! "REVOLVING", cs! "ROLLINGUP", cs! "SWING_FIXED_LEFT", cs! "SWING_FIXED_RIGHT",
   cs! "USERDEFINED", cs! "NOTDEFINED"]
def wordsDoorType : List Str :=
  [cs! "DOOR", cs! "GATE", cs! "TRAPDOOR", cs! "USERDEFINED", cs! "NOTDEFINED"]
def wordsOpeningType : List Str :=
  [cs! "OPENING", cs! "RECESS", cs! "USERDEFINED", cs! "NOTDEFINED"]
def wordsRoofType : List Str :=
  [cs! "FLAT_ROOF", cs! "SHED_ROOF", cs! "GABLE_ROOF", cs! "HIP_ROOF", cs! "HIPPED_GABLE_ROOF", cs! "GAMBREL_ROOF",
   cs! "MANSARD_ROOF", cs! "BARREL_ROOF", cs! "RAINBOW_ROOF", cs! "BUTTERFLY_ROOF", cs! "PAVILION_ROOF",
   cs! "DOME_ROOF", cs! "FREEFORM", cs! "USERDEFINED", cs! "NOTDEFINED"]
def wordsComposition : List Str :=
  [cs! "COMPLEX", cs! "ELEMENT", cs! "PARTIAL"]
def wordsSlabType : List Str :=
  [cs! "FLOOR", cs! "ROOF", cs! "LANDING", cs! "BASESLAB", cs! "USERDEFINED", cs! "NOTDEFINED"]
def wordsSpaceType : List Str :=
  [cs! "SPACE", cs! "PARKING", cs! "GFA", cs! "INTERNAL", cs! "EXTERNAL", cs! "USERDEFINED", cs! "NOTDEFINED"]
def wordsWallType : List Str :=
  [cs! "MOVABLE", cs! "PARAPET", cs! "PARTITIONING", cs! "PLUMBINGWALL", cs! "SHEAR", cs! "SOLIDWALL",
   cs! "STANDARD", cs! "POLYGONAL", cs! "ELEMENTEDWALL", cs! "USERDEFINED", cs! "NOTDEFINED"]
def wordsWindowPartitioning : List Str :=
  [cs! "SINGLE_PANEL", cs! "DOUBLE_PANEL_VERTICAL", cs! "DOUBLE_PANEL_HORIZONTAL", cs! "TRIPLE_PANEL_VERTICAL",
   cs! "TRIPLE_PANEL_BOTTOM", cs! "TRIPLE_PANEL_TOP", cs! "TRIPLE_PANEL_LEFT", cs! "TRIPLE_PANEL_RIGHT",
   cs! "TRIPLE_PANEL_HORIZONTAL", cs! "USERDEFINED", cs! "NOTDEFINED"]
def wordsWindowType : List Str :=
  [cs! "WINDOW", cs! "SKYLIGHT", cs! "LIGHTDOME", cs! "USERDEFINED", cs! "NOTDEFINED"]
def wordsDerivedUnit : List Str :=
  [cs! "ANGULARVELOCITYUNIT", cs! "AREADENSITYUNIT", cs! "COMPOUNDPLANEANGLEUNIT", cs! "DYNAMICVISCOSITYUNIT",
   cs! "HEATFLUXDENSITYUNIT", cs! "INTEGERCOUNTRATEUNIT", cs! "ISOTHERMALMOISTURECAPACITYUNIT",
   cs! "KINEMATICVISCOSITYUNIT", cs! "LINEARVELOCITYUNIT", cs! "MASSDENSITYUNIT", cs! "MASSFLOWRATEUNIT",
   cs! "MOISTUREDIFFUSIVITYUNIT", cs! "MOLECULARWEIGHTUNIT", cs! "SPECIFICHEATCAPACITYUNIT",
   cs! "THERMALADMITTANCEUNIT", cs! "THERMALCONDUCTANCEUNIT", cs! "THERMALRESISTANCEUNIT",
   cs! "THERMALTRANSMITTANCEUNIT", cs! "VAPORPERMEABILITYUNIT", cs! "VOLUMETRICFLOWRATEUNIT",
   cs! "ROTATIONALFREQUENCYUNIT", cs! "TORQUEUNIT", cs! "MOMENTOFINERTIAUNIT", cs! "LINEARMOMENTUNIT",
   cs! "LINEARFORCEUNIT", cs! "PLANARFORCEUNIT", cs! "MODULUSOFELASTICITYUNIT", cs! "SHEARMODULUSUNIT",
   cs! "LINEARSTIFFNESSUNIT", cs! "ROTATIONALSTIFFNESSUNIT", cs! "MODULUSOFSUBGRADEREACTIONUNIT",
   cs! "ACCELERATIONUNIT", cs! "CURVATUREUNIT", cs! "HEATINGVALUEUNIT", cs! "IONCONCENTRATIONUNIT",
   cs! "LUMINOUSINTENSITYDISTRIBUTIONUNIT", cs! "MASSPERLENGTHUNIT", cs! "MODULUSOFLINEARSUBGRADEREACTIONUNIT",
   cs! "MODULUSOFROTATIONALSUBGRADEREACTIONUNIT", cs! "PHUNIT", cs! "ROTATIONALMASSUNIT",
   cs! "SECTIONAREAINTEGRALUNIT", cs! "SECTIONMODULUSUNIT", cs! "SOUNDPOWERLEVELUNIT", cs! "SOUNDPOWERUNIT",
   cs! "SOUNDPRESSURELEVELUNIT", cs! "SOUNDPRESSUREUNIT", cs! "TEMPERATUREGRADIENTUNIT",
   cs! "TEMPERATURERATEOFCHANGEUNIT", cs! "THERMALEXPANSIONCOEFFICIENTUNIT", cs! "WARPINGCONSTANTUNIT",
   cs! "WARPINGMOMENTUNIT", cs! "USERDEFINED"]
def wordsSiUnitName : List Str :=
  [cs! "AMPERE", cs! "BECQUEREL", cs! "CANDELA", cs! "COULOMB", cs! "CUBIC_METRE", cs! "DEGREE_CELSIUS", cs! "FARAD",
   cs! "GRAM", cs! "GRAY", cs! "HENRY", cs! "HERTZ", cs! "JOULE", cs! "KELVIN", cs! "LUMEN", cs! "LUX", cs! "METRE",
   cs! "MOLE", cs! "NEWTON", cs! "OHM", cs! "PASCAL", cs! "RADIAN", cs! "SECOND", cs! "SIEMENS", cs! "SIEVERT",
   cs! "SQUARE_METRE", cs! "STERADIAN", cs! "TESLA", cs! "VOLT", cs! "WATT", cs! "WEBER"]
def wordsSiPrefix : List Str :=
  [cs! "EXA", cs! "PETA", cs! "TERA", cs! "GIGA", cs! "MEGA", cs! "KILO", cs! "HECTO", cs! "DECA", cs! "DECI",
   cs! "CENTI", cs! "MILLI", cs! "MICRO", cs! "NANO", cs! "PICO", cs! "FEMTO", cs! "ATTO"]
def wordsUnit : List Str :=
  [cs! "ABSORBEDDOSEUNIT", cs! "AMOUNTOFSUBSTANCEUNIT", cs! "AREAUNIT", cs! "DOSEEQUIVALENTUNIT",
   cs! "ELECTRICCAPACITANCEUNIT", cs! "ELECTRICCHARGEUNIT", cs! "ELECTRICCONDUCTANCEUNIT", cs! "ELECTRICCURRENTUNIT",
   cs! "ELECTRICRESISTANCEUNIT", cs! "ELECTRICVOLTAGEUNIT", cs! "ENERGYUNIT", cs! "FORCEUNIT", cs! "FREQUENCYUNIT",
   cs! "ILLUMINANCEUNIT", cs! "INDUCTANCEUNIT", cs! "LENGTHUNIT", cs! "LUMINOUSFLUXUNIT",
   cs! "LUMINOUSINTENSITYUNIT", cs! "MAGNETICFLUXDENSITYUNIT", cs! "MAGNETICFLUXUNIT", cs! "MASSUNIT",
   cs! "PLANEANGLEUNIT", cs! "POWERUNIT", cs! "PRESSUREUNIT", cs! "RADIOACTIVITYUNIT", cs! "SOLIDANGLEUNIT",
   cs! "THERMODYNAMICTEMPERATUREUNIT", cs! "TIMEUNIT", cs! "VOLUMEUNIT", cs! "USERDEFINED"]

/-! ### Select types and supertypes, cut down to the types of the library -/

def elements : List Kind :=
  [.Wall, .Slab, .Roof, .Window, .Door, .ShadingDevice, .OpeningElement]
def spatials : List Kind :=
  [.Site, .Building, .Storey, .Space]
def types : List Kind :=
  [.WallType, .SlabType, .RoofType, .WindowType, .DoorType, .SpaceType, .ShadingDeviceType]
def contexts : List Kind :=
  [.GeometricRepresentationContext, .GeometricRepresentationSubContext]
def units : List Kind :=
  [.SiUnit, .ConversionBasedUnit, .DerivedUnit, .MonetaryUnit]
def materials : List Kind :=
  [.Material, .MaterialLayer, .MaterialLayerSet, .MaterialConstituent, .MaterialConstituentSet]
def geometricItems : List Kind :=
  [.ExtrudedAreaSolid, .PolyLine, .IndexedPolyCurve, .Axis2D, .Axis3D, .Direction2D, .Direction3D, .Point2D,
   .Point3D, .PointList2D, .PointList3D, .NonUniformTransform, .UniformTransform]
def products : List Kind := elements ++ spatials
def definitions : List Kind := products ++ types ++ [.Project]
def items : List Kind := geometricItems ++ [.MappedItem]

/-! ### Attributes of supertypes -/

def rootAttrs : List (Str × Std) :=
  [(cs! "GlobalId", .guid), (cs! "OwnerHistory", .opt (.ref [.OwnerHistory])), (cs! "Name", .opt .text),
    (cs! "Description", .opt .text)]
def objectAttrs : List (Str × Std) :=
  rootAttrs ++ [(cs! "ObjectType", .opt .text)]
def productAttrs : List (Str × Std) :=
  objectAttrs ++ [(cs! "ObjectPlacement", .opt (.ref [.LocalPlacement])),
    (cs! "Representation", .opt (.ref [.ProductDefinitionShape]))]
def elementAttrs : List (Str × Std) :=
  productAttrs ++ [(cs! "Tag", .opt .text)]
def spatialAttrs : List (Str × Std) :=
  productAttrs ++ [(cs! "LongName", .opt .text), (cs! "CompositionType", .opt (.word wordsComposition))]
def elementTypeAttrs : List (Str × Std) :=
  rootAttrs ++ [(cs! "ApplicableOccurrence", .opt .text),
    (cs! "HasPropertySets", .opt (.list (.ref [.PropertySet]))),
    (cs! "RepresentationMaps", .opt (.list (.ref [.RepresentationMap]))), (cs! "Tag", .opt .text),
    (cs! "ElementType", .opt .text)]
def addressAttrs : List (Str × Std) :=
  [(cs! "Purpose", .opt (.word wordsAddressType)), (cs! "Description", .opt .text),
    (cs! "UserDefinedPurpose", .opt .text)]

/-! ### Attributes of the entity types -/

def attributes : Kind → List (Str × Std)
  | .ActorRole =>
    [(cs! "Role", .word wordsRole), (cs! "UserDefinedRole", .opt .text), (cs! "Description", .opt .text)]
  | .PostalAddress =>
    addressAttrs ++ [(cs! "InternalLocation", .opt .text), (cs! "AddressLines", .opt (.list .text)),
      (cs! "PostalBox", .opt .text), (cs! "Town", .opt .text), (cs! "Region", .opt .text),
      (cs! "PostalCode", .opt .text), (cs! "Country", .opt .text)]
  | .TelecomAddress =>
    addressAttrs ++ [(cs! "TelephoneNumbers", .opt (.list .text)), (cs! "FacsimileNumbers", .opt (.list .text)),
      (cs! "PagerNumber", .opt .text), (cs! "ElectronicMailAddresses", .opt (.list .text)),
      (cs! "WWWHomePageURL", .opt .text), (cs! "MessagingIDs", .opt (.list .text))]
  | .Application =>
    [(cs! "ApplicationDeveloper", .ref [.Organization]), (cs! "Version", .text), (cs! "ApplicationFullName", .text),
      (cs! "ApplicationIdentifier", .text)]
  | .Organization =>
    [(cs! "Identification", .opt .text), (cs! "Name", .text), (cs! "Description", .opt .text),
      (cs! "Roles", .opt (.list (.ref [.ActorRole]))),
      (cs! "Addresses", .opt (.list (.ref [.PostalAddress, .TelecomAddress])))]
  | .OwnerHistory =>
    [(cs! "OwningUser", .ref [.PersonAndOrganization]), (cs! "OwningApplication", .ref [.Application]),
      (cs! "State", .opt (.word wordsState)), (cs! "ChangeAction", .opt (.word wordsChangeAction)),
      (cs! "LastModifiedDate", .opt .time), (cs! "LastModifyingUser", .opt (.ref [.PersonAndOrganization])),
      (cs! "LastModifyingApplication", .opt (.ref [.Application])), (cs! "CreationDate", .time)]
  | .Person =>
    [(cs! "Identification", .opt .text), (cs! "FamilyName", .opt .text), (cs! "GivenName", .opt .text),
      (cs! "MiddleNames", .opt (.list .text)), (cs! "PrefixTitles", .opt (.list .text)),
      (cs! "SuffixTitles", .opt (.list .text)), (cs! "Roles", .opt (.list (.ref [.ActorRole]))),
      (cs! "Addresses", .opt (.list (.ref [.PostalAddress, .TelecomAddress])))]
  | .PersonAndOrganization =>
    [(cs! "ThePerson", .ref [.Person]), (cs! "TheOrganization", .ref [.Organization]),
      (cs! "Roles", .opt (.list (.ref [.ActorRole])))]
  | .Wall =>
    elementAttrs ++ [(cs! "PredefinedType", .opt (.word wordsWallType))]
  | .WallType =>
    elementTypeAttrs ++ [(cs! "PredefinedType", .word wordsWallType)]
  | .Slab =>
    elementAttrs ++ [(cs! "PredefinedType", .opt (.word wordsSlabType))]
  | .SlabType =>
    elementTypeAttrs ++ [(cs! "PredefinedType", .word wordsSlabType)]
  | .Roof =>
    elementAttrs ++ [(cs! "PredefinedType", .opt (.word wordsRoofType))]
  | .RoofType =>
    elementTypeAttrs ++ [(cs! "PredefinedType", .word wordsRoofType)]
  | .Building =>
    spatialAttrs ++ [(cs! "ElevationOfRefHeight", .opt .real), (cs! "ElevationOfTerrain", .opt .real),
      (cs! "BuildingAddress", .opt (.ref [.PostalAddress]))]
  | .Storey =>
    spatialAttrs ++ [(cs! "Elevation", .opt .real)]
  | .Site =>
    spatialAttrs ++ [(cs! "RefLatitude", .opt (.list .int)), (cs! "RefLongitude", .opt (.list .int)),
      (cs! "RefElevation", .opt .real), (cs! "LandTitleNumber", .opt .text),
      (cs! "SiteAddress", .opt (.ref [.PostalAddress]))]
  | .OpeningElement =>
    elementAttrs ++ [(cs! "PredefinedType", .opt (.word wordsOpeningType))]
  | .Window =>
    elementAttrs ++ [(cs! "OverallHeight", .opt .real), (cs! "OverallWidth", .opt .real),
      (cs! "PredefinedType", .opt (.word wordsWindowType)),
      (cs! "PartitioningType", .opt (.word wordsWindowPartitioning)),
      (cs! "UserDefinedPartitioningType", .opt .text)]
  | .WindowType =>
    elementTypeAttrs ++ [(cs! "PredefinedType", .word wordsWindowType),
      (cs! "PartitioningType", .word wordsWindowPartitioning), (cs! "ParameterTakesPrecedence", .opt .truth),
      (cs! "UserDefinedPartitioningType", .opt .text)]
  | .Project =>
    objectAttrs ++ [(cs! "LongName", .opt .text), (cs! "Phase", .opt .text),
      (cs! "RepresentationContexts", .opt (.list (.ref contexts))),
      (cs! "UnitsInContext", .opt (.ref [.UnitAssigment]))]
  | .Space =>
    spatialAttrs ++ [(cs! "PredefinedType", .opt (.word wordsSpaceType)), (cs! "ElevationWithFlooring", .opt .real)]
  | .SpaceType =>
    elementTypeAttrs ++ [(cs! "PredefinedType", .word wordsSpaceType), (cs! "LongName", .opt .text)]
  | .Door =>
    elementAttrs ++ [(cs! "OverallHeight", .opt .real), (cs! "OverallWidth", .opt .real),
      (cs! "PredefinedType", .opt (.word wordsDoorType)), (cs! "OperationType", .opt (.word wordsDoorOperation)),
      (cs! "UserDefinedOperationType", .opt .text)]
  | .DoorType =>
    elementTypeAttrs ++ [(cs! "PredefinedType", .word wordsDoorType),
      (cs! "OperationType", .word wordsDoorOperation), (cs! "ParameterTakesPrecedence", .opt .truth),
      (cs! "UserDefinedOperationType", .opt .text)]
  | .ShadingDevice =>
    elementAttrs ++ [(cs! "PredefinedType", .opt (.word wordsShadingDeviceType))]
  | .ShadingDeviceType =>
    elementTypeAttrs ++ [(cs! "PredefinedType", .word wordsShadingDeviceType)]
  | .ArbitraryClosedProfileDef =>
    [(cs! "ProfileType", .word wordsProfileType), (cs! "ProfileName", .opt .text),
      (cs! "OuterCurve", .ref [.IndexedPolyCurve, .PolyLine])]
  | .Axis2D =>
    [(cs! "Location", .ref [.Point2D]), (cs! "RefDirection", .opt (.ref [.Direction2D]))]
  | .Axis3D =>
    [(cs! "Location", .ref [.Point3D]), (cs! "Axis", .opt (.ref [.Direction3D])),
      (cs! "RefDirection", .opt (.ref [.Direction3D]))]
  | .Direction2D =>
    [(cs! "DirectionRatios", .coords 2)]
  | .Direction3D =>
    [(cs! "DirectionRatios", .coords 3)]
  | .ExtrudedAreaSolid =>
    [(cs! "SweptArea", .ref [.RectangleProfileDef, .ArbitraryClosedProfileDef]),
      (cs! "Position", .opt (.ref [.Axis3D])), (cs! "ExtrudedDirection", .ref [.Direction3D]), (cs! "Depth", .real)]
  | .IndexedPolyCurve =>
    [(cs! "Points", .ref [.PointList2D, .PointList3D]), (cs! "Segments", .opt (.list .segment)),
      (cs! "SelfIntersect", .opt .truth)]
  | .Point2D =>
    [(cs! "Coordinates", .coords 2)]
  | .Point3D =>
    [(cs! "Coordinates", .coords 3)]
  | .PointList2D =>
    [(cs! "CoordList", .list (.coords 2))]
  | .PointList3D =>
    [(cs! "CoordList", .list (.coords 3))]
  | .PolyLine =>
    [(cs! "Points", .list (.ref [.Point2D, .Point3D]))]
  | .ProductDefinitionShape =>
    [(cs! "Name", .opt .text), (cs! "Description", .opt .text),
      (cs! "Representations", .list (.ref [.ShapeRepresentation]))]
  | .RectangleProfileDef =>
    [(cs! "ProfileType", .word wordsProfileType), (cs! "ProfileName", .opt .text),
      (cs! "Position", .opt (.ref [.Axis2D])), (cs! "XDim", .real), (cs! "YDim", .real)]
  | .GeometricRepresentationContext =>
    [(cs! "ContextIdentifier", .opt .text), (cs! "ContextType", .opt .text), (cs! "CoordinateSpaceDimension", .dim),
      (cs! "Precision", .opt .real), (cs! "WorldCoordinateSystem", .ref [.Axis2D, .Axis3D]),
      (cs! "TrueNorth", .opt (.ref [.Direction2D]))]
  | .GeometricRepresentationSubContext =>
    [(cs! "ContextIdentifier", .opt .text), (cs! "ContextType", .opt .text),
      (cs! "CoordinateSpaceDimension", .derived), (cs! "Precision", .derived),
      (cs! "WorldCoordinateSystem", .derived), (cs! "TrueNorth", .derived),
      (cs! "ParentContext", .ref [.GeometricRepresentationContext]), (cs! "TargetScale", .opt .real),
      (cs! "TargetView", .word wordsGeometricProjection), (cs! "UserDefinedTargetView", .opt .text)]
  | .ShapeRepresentation =>
    [(cs! "ContextOfItems", .ref contexts), (cs! "RepresentationIdentifier", .opt .text),
      (cs! "RepresentationType", .opt .text), (cs! "Items", .list (.ref items))]
  | .LocalPlacement =>
    [(cs! "PlacementRelTo", .opt (.ref [.LocalPlacement])), (cs! "RelativePlacement", .ref [.Axis2D, .Axis3D])]
  | .NonUniformTransform =>
    [(cs! "Axis1", .opt (.ref [.Direction3D])), (cs! "Axis2", .opt (.ref [.Direction3D])),
      (cs! "LocalOrigin", .ref [.Point3D]), (cs! "Scale", .opt .real), (cs! "Axis3", .opt (.ref [.Direction3D])),
      (cs! "Scale2", .opt .real), (cs! "Scale3", .opt .real)]
  | .UniformTransform =>
    [(cs! "Axis1", .opt (.ref [.Direction3D])), (cs! "Axis2", .opt (.ref [.Direction3D])),
      (cs! "LocalOrigin", .ref [.Point3D]), (cs! "Scale", .opt .real), (cs! "Axis3", .opt (.ref [.Direction3D]))]
  | .RelAggregates =>
    rootAttrs ++ [(cs! "RelatingObject", .ref definitions), (cs! "RelatedObjects", .list (.ref definitions))]
  | .RelAssociatesMaterial =>
    rootAttrs ++ [(cs! "RelatedObjects", .list (.ref (definitions ++ [.PropertySet]))),
      (cs! "RelatingMaterial", .ref (materials ++ [.MaterialLayerSetUsage]))]
  | .RelContainedInSpatialStructure =>
    rootAttrs ++ [(cs! "RelatedElements", .list (.ref elements)), (cs! "RelatingStructure", .ref spatials)]
  | .RelDeclares =>
    rootAttrs ++ [(cs! "RelatingContext", .ref [.Project]),
      (cs! "RelatedDefinitions", .list (.ref (definitions ++ [.PropertySet])))]
  | .RelDefinesByType =>
    rootAttrs ++ [(cs! "RelatedObjects", .list (.ref products)), (cs! "RelatingType", .ref types)]
  | .RelDefinesByProperties =>
    rootAttrs ++ [(cs! "RelatedObjects", .list (.ref (products ++ [.Project]))),
      (cs! "RelatingPropertyDefinition", .ref [.PropertySet])]
  | .RelVoidsElement =>
    rootAttrs ++ [(cs! "RelatingBuildingElement", .ref elements),
      (cs! "RelatedOpeningElement", .ref [.OpeningElement])]
  | .RelFillsElement =>
    rootAttrs ++ [(cs! "RelatingOpeningElement", .ref [.OpeningElement]),
      (cs! "RelatedBuildingElement", .ref elements)]
  | .MappedItem =>
    [(cs! "MappingSource", .ref [.RepresentationMap]),
      (cs! "MappingTarget", .ref [.NonUniformTransform, .UniformTransform])]
  | .RepresentationMap =>
    [(cs! "MappingOrigin", .ref [.Axis2D, .Axis3D]), (cs! "MappedRepresentation", .ref [.ShapeRepresentation])]
  | .UnitAssigment =>
    [(cs! "Units", .list (.ref units))]
  | .ConversionBasedUnit =>
    [(cs! "Dimensions", .ref [.DimensionalExponents]), (cs! "UnitType", .word wordsUnit), (cs! "Name", .text),
      (cs! "ConversionFactor", .ref [.MeasureWithUnit])]
  | .SiUnit =>
    [(cs! "Dimensions", .derived), (cs! "UnitType", .word wordsUnit), (cs! "Prefix", .opt (.word wordsSiPrefix)),
      (cs! "Name", .word wordsSiUnitName)]
  | .DimensionalExponents =>
    [(cs! "LengthExponent", .int), (cs! "MassExponent", .int), (cs! "TimeExponent", .int),
      (cs! "ElectricCurrentExponent", .int), (cs! "ThermodynamicTemperatureExponent", .int),
      (cs! "AmountOfSubstanceExponent", .int), (cs! "LuminousIntensityExponent", .int)]
  | .MeasureWithUnit =>
    [(cs! "ValueComponent", .value), (cs! "UnitComponent", .ref units)]
  | .PlaneAngleMeasure =>
    [(cs! "Value", .real)]
  | .DerivedUnit =>
    [(cs! "Elements", .list (.ref [.DerivedUnitElement])), (cs! "UnitType", .word wordsDerivedUnit),
      (cs! "UserDefinedType", .opt .text)]
  | .DerivedUnitElement =>
    [(cs! "Unit", .ref [.SiUnit, .ConversionBasedUnit]), (cs! "Exponent", .int)]
  | .MonetaryUnit =>
    [(cs! "Currency", .text)]
  | .MaterialLayerSetUsage =>
    [(cs! "ForLayerSet", .ref [.MaterialLayerSet]), (cs! "LayerSetDirection", .word wordsLayerSetDirection),
      (cs! "DirectionSense", .word wordsDirectionSense), (cs! "OffsetFromReferenceLine", .real),
      (cs! "ReferenceExtent", .opt .real)]
  | .MaterialLayerSet =>
    [(cs! "MaterialLayers", .list (.ref [.MaterialLayer])), (cs! "LayerSetName", .opt .text),
      (cs! "Description", .opt .text)]
  | .MaterialLayer =>
    [(cs! "Material", .opt (.ref [.Material])), (cs! "LayerThickness", .real), (cs! "IsVentilated", .opt .truth),
      (cs! "Name", .opt .text), (cs! "Description", .opt .text), (cs! "Category", .opt .text),
      (cs! "Priority", .opt .int)]
  | .Material =>
    [(cs! "Name", .text), (cs! "Description", .opt .text), (cs! "Category", .opt .text)]
  | .MaterialConstituent =>
    [(cs! "Name", .opt .text), (cs! "Description", .opt .text), (cs! "Material", .ref [.Material]),
      (cs! "Fraction", .opt .real), (cs! "Category", .opt .text)]
  | .MaterialConstituentSet =>
    [(cs! "Name", .opt .text), (cs! "Description", .opt .text),
      (cs! "MaterialConstituents", .opt (.list (.ref [.MaterialConstituent])))]
  | .MaterialProperties =>
    [(cs! "Name", .opt .text), (cs! "Description", .opt .text),
      (cs! "Properties", .list (.ref [.PropertySingleValue])), (cs! "Material", .ref materials)]
  | .PropertySet =>
    rootAttrs ++ [(cs! "HasProperties", .list (.ref [.PropertySingleValue]))]
  | .PropertySingleValue =>
    [(cs! "Name", .text), (cs! "Description", .opt .text), (cs! "NominalValue", .opt .value),
      (cs! "Unit", .opt (.ref units))]

/-! ### Types of values -/

/-- what a value consists of beside its type name -/
inductive Base where
  | text
  | real
  | int
  /-- integer or real -/
  | number
  | boolean
  | logical
  | binary
  /-- two reals -/
  | complex
  /-- three or four integers -/
  | angle

/-- `IfcSimpleValue` -/
def simpleValues : List (Str × Base) :=
  [(cs! "IFCBINARY", .binary), (cs! "IFCBOOLEAN", .boolean), (cs! "IFCDATE", .text), (cs! "IFCDATETIME", .text),
   (cs! "IFCDURATION", .text), (cs! "IFCIDENTIFIER", .text), (cs! "IFCINTEGER", .int), (cs! "IFCLABEL", .text),
   (cs! "IFCLOGICAL", .logical), (cs! "IFCPOSITIVEINTEGER", .int), (cs! "IFCREAL", .real), (cs! "IFCTEXT", .text),
   (cs! "IFCTIME", .text), (cs! "IFCTIMESTAMP", .int)]
/-- `IfcMeasureValue` -/
def measureValues : List (Str × Base) :=
  [(cs! "IFCAMOUNTOFSUBSTANCEMEASURE", .real), (cs! "IFCAREAMEASURE", .real), (cs! "IFCCOMPLEXNUMBER", .complex),
   (cs! "IFCCONTEXTDEPENDENTMEASURE", .real), (cs! "IFCCOUNTMEASURE", .number), (cs! "IFCDESCRIPTIVEMEASURE", .text),
   (cs! "IFCELECTRICCURRENTMEASURE", .real), (cs! "IFCLENGTHMEASURE", .real),
   (cs! "IFCLUMINOUSINTENSITYMEASURE", .real), (cs! "IFCMASSMEASURE", .real),
   (cs! "IFCNONNEGATIVELENGTHMEASURE", .real), (cs! "IFCNORMALISEDRATIOMEASURE", .real),
   (cs! "IFCNUMERICMEASURE", .number), (cs! "IFCPARAMETERVALUE", .real), (cs! "IFCPLANEANGLEMEASURE", .real),
   (cs! "IFCPOSITIVELENGTHMEASURE", .real), (cs! "IFCPOSITIVEPLANEANGLEMEASURE", .real),
   (cs! "IFCPOSITIVERATIOMEASURE", .real), (cs! "IFCRATIOMEASURE", .real), (cs! "IFCSOLIDANGLEMEASURE", .real),
   (cs! "IFCTHERMODYNAMICTEMPERATUREMEASURE", .real), (cs! "IFCTIMEMEASURE", .real), (cs! "IFCVOLUMEMEASURE", .real)]
/-- `IfcDerivedMeasureValue` -/
def derivedValues : List (Str × Base) :=
  [(cs! "IFCABSORBEDDOSEMEASURE", .real), (cs! "IFCACCELERATIONMEASURE", .real),
   (cs! "IFCANGULARVELOCITYMEASURE", .real), (cs! "IFCAREADENSITYMEASURE", .real),
   (cs! "IFCCOMPOUNDPLANEANGLEMEASURE", .angle), (cs! "IFCCURVATUREMEASURE", .real),
   (cs! "IFCDOSEEQUIVALENTMEASURE", .real), (cs! "IFCDYNAMICVISCOSITYMEASURE", .real),
   (cs! "IFCELECTRICCAPACITANCEMEASURE", .real), (cs! "IFCELECTRICCHARGEMEASURE", .real),
   (cs! "IFCELECTRICCONDUCTANCEMEASURE", .real), (cs! "IFCELECTRICRESISTANCEMEASURE", .real),
   (cs! "IFCELECTRICVOLTAGEMEASURE", .real), (cs! "IFCENERGYMEASURE", .real), (cs! "IFCFORCEMEASURE", .real),
   (cs! "IFCFREQUENCYMEASURE", .real), (cs! "IFCHEATFLUXDENSITYMEASURE", .real),
   (cs! "IFCHEATINGVALUEMEASURE", .real), (cs! "IFCILLUMINANCEMEASURE", .real), (cs! "IFCINDUCTANCEMEASURE", .real),
   (cs! "IFCINTEGERCOUNTRATEMEASURE", .int), (cs! "IFCIONCONCENTRATIONMEASURE", .real),
   (cs! "IFCISOTHERMALMOISTURECAPACITYMEASURE", .real), (cs! "IFCKINEMATICVISCOSITYMEASURE", .real),
   (cs! "IFCLINEARFORCEMEASURE", .real), (cs! "IFCLINEARMOMENTMEASURE", .real),
   (cs! "IFCLINEARSTIFFNESSMEASURE", .real), (cs! "IFCLINEARVELOCITYMEASURE", .real),
   (cs! "IFCLUMINOUSFLUXMEASURE", .real), (cs! "IFCLUMINOUSINTENSITYDISTRIBUTIONMEASURE", .real),
   (cs! "IFCMAGNETICFLUXDENSITYMEASURE", .real), (cs! "IFCMAGNETICFLUXMEASURE", .real),
   (cs! "IFCMASSDENSITYMEASURE", .real), (cs! "IFCMASSFLOWRATEMEASURE", .real),
   (cs! "IFCMASSPERLENGTHMEASURE", .real), (cs! "IFCMODULUSOFELASTICITYMEASURE", .real),
   (cs! "IFCMODULUSOFLINEARSUBGRADEREACTIONMEASURE", .real),
   (cs! "IFCMODULUSOFROTATIONALSUBGRADEREACTIONMEASURE", .real), (cs! "IFCMODULUSOFSUBGRADEREACTIONMEASURE", .real),
   (cs! "IFCMOISTUREDIFFUSIVITYMEASURE", .real), (cs! "IFCMOLECULARWEIGHTMEASURE", .real),
   (cs! "IFCMOMENTOFINERTIAMEASURE", .real), (cs! "IFCMONETARYMEASURE", .real), (cs! "IFCPHMEASURE", .real),
   (cs! "IFCPLANARFORCEMEASURE", .real), (cs! "IFCPOWERMEASURE", .real), (cs! "IFCPRESSUREMEASURE", .real),
   (cs! "IFCRADIOACTIVITYMEASURE", .real), (cs! "IFCROTATIONALFREQUENCYMEASURE", .real),
   (cs! "IFCROTATIONALMASSMEASURE", .real), (cs! "IFCROTATIONALSTIFFNESSMEASURE", .real),
   (cs! "IFCSECTIONMODULUSMEASURE", .real), (cs! "IFCSECTIONALAREAINTEGRALMEASURE", .real),
   (cs! "IFCSHEARMODULUSMEASURE", .real), (cs! "IFCSOUNDPOWERLEVELMEASURE", .real),
   (cs! "IFCSOUNDPOWERMEASURE", .real), (cs! "IFCSOUNDPRESSURELEVELMEASURE", .real),
   (cs! "IFCSOUNDPRESSUREMEASURE", .real), (cs! "IFCSPECIFICHEATCAPACITYMEASURE", .real),
   (cs! "IFCTEMPERATUREGRADIENTMEASURE", .real), (cs! "IFCTEMPERATURERATEOFCHANGEMEASURE", .real),
   (cs! "IFCTHERMALADMITTANCEMEASURE", .real), (cs! "IFCTHERMALCONDUCTIVITYMEASURE", .real),
   (cs! "IFCTHERMALEXPANSIONCOEFFICIENTMEASURE", .real), (cs! "IFCTHERMALRESISTANCEMEASURE", .real),
   (cs! "IFCTHERMALTRANSMITTANCEMEASURE", .real), (cs! "IFCTORQUEMEASURE", .real),
   (cs! "IFCVAPORPERMEABILITYMEASURE", .real), (cs! "IFCVOLUMETRICFLOWRATEMEASURE", .real),
   (cs! "IFCWARPINGCONSTANTMEASURE", .real), (cs! "IFCWARPINGMOMENTMEASURE", .real)]
/-- `IfcValue` -/
def valueTypes : List (Str × Base) := simpleValues ++ (measureValues ++ derivedValues)

/-- a list with elements of one form -/
def ItemsText (p : Str → Prop) (n : Nat → Prop) (s : Str) : Prop :=
  ∃ es : List Str, n es.length ∧ (∀ e ∈ es, p e) ∧ s = '(' :: (commas es ++ [')'])

def BaseText : Base → Str → Prop
  | .text, s => Exchange.StepString s
  | .real, s => StepReal s
  | .int, s => Exchange.StepInteger s
  | .number, s => Exchange.StepInteger s ∨ StepReal s
  | .boolean, s => s = cs! ".T." ∨ s = cs! ".F."
  | .logical, s => s = cs! ".T." ∨ s = cs! ".F." ∨ s = cs! ".U."
  | .binary, s => Exchange.StepBinary s
  | .complex, s => ItemsText StepReal (· = 2) s
  | .angle, s => ItemsText Exchange.StepInteger (fun n => n = 3 ∨ n = 4) s

/-- a value with its type name -/
def ValueText (s : Str) : Prop := ∃ x ∈ valueTypes, ∃ t, BaseText x.2 t ∧ s = x.1 ++ '(' :: (t ++ [')'])

/-- a segment of an indexed curve: the indices of the points of a line or of an arc -/
def SegmentText (s : Str) : Prop :=
  (∃ t, ItemsText Exchange.StepInteger (2 ≤ ·) t ∧ s = cs! "IFCLINEINDEX(" ++ (t ++ [')'])) ∨
    ∃ t, ItemsText Exchange.StepInteger (· = 3) t ∧ s = cs! "IFCARCINDEX(" ++ (t ++ [')'])

/-! ### Texts -/

/-- Texts of an attribute, without blanks: a part of what the standard allows, as broad as the other theorems allow
(no doubled apostrophe in texts, integers of 32 bits without leading zeros or `+`). -/
def StdText : Std → Str → Prop
  | .guid, s => ∃ w, s = '\'' :: (w ++ ['\'']) ∧ w.length = 22 ∧ ∀ c ∈ w, GuidLetter c
  | .text, s => ∃ w, s = '\'' :: (w ++ ['\'']) ∧ '\'' ∉ w
  | .real, s => StepReal s
  | .int, s => ∃ i : Int, -(2 ^ 31) ≤ i ∧ i < 2 ^ 31 ∧ s = intStr i
  | .truth, s => s = cs! ".T." ∨ s = cs! ".F." ∨ s = cs! ".U."
  | .time, s => ∃ i : Int, -(2 ^ 31) ≤ i ∧ i < 2 ^ 31 ∧ s = intStr i
  | .value, s => ValueText s
  | .segment, s => SegmentText s
  | .dim, s => s = ['1'] ∨ s = ['2'] ∨ s = ['3']
  | .word ws, s => ∃ w ∈ ws, s = '.' :: (w ++ ['.'])
  | .ref _, s => ∃ n, n < 2 ^ 64 ∧ s = '#' :: natStr n
  | .coords n, s => ∃ rs : List Str, rs.length = n ∧ (∀ r ∈ rs, StepReal r) ∧ s = '(' :: (commas rs ++ [')'])
  | .list a, s => ∃ es : List Str, (∀ e ∈ es, StdText a e) ∧ s = '(' :: (commas es ++ [')'])
  | .opt a, s => s = ['$'] ∨ StdText a s
  | .derived, s => s = ['*']

/-- the attribute texts of an entity, one for each attribute -/
inductive AttrTexts : List (Str × Std) → List Str → Prop
  | nil : AttrTexts [] []
  | cons {n : Str} {a : Std} {as : List (Str × Std)} {t : Str} {ts : List Str} :
      StdText a t → AttrTexts as ts → AttrTexts ((n, a) :: as) (t :: ts)

/-- an instance without its number: keyword, attributes in order, closing parenthesis and semicolon -/
def StdLine (k : Kind) (s : Str) : Prop :=
  ∃ w ∈ keywordTexts k, ∃ ts, AttrTexts (attributes k) ts ∧ s = w ++ (commas ts ++ cs! ");")

end Verif.Standard
