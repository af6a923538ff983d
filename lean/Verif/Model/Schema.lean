import Verif.Model.Codec
/-
The enumerations and the entity table: one row per Rust struct, in the order the readers are tried.
Paths are relative to /repo/ifc_rs/src.
-/
namespace Verif.Schema
open Verif Fld
set_option linter.unusedVariables false

/-! ### Enumerations (names in declaration order, from the `strum(to_string = …)` attributes) -/

/-- geometry/dimension_count.rs:22-32 -/
def eDimensionCount : List Str :=
  [cs! "1", cs! "2", cs! "3"]

/-- geometry/geometric_projection.rs:15-67 -/
def eGeometricProjection : List Str :=
  [cs! ".GRAPH_VIEW.", cs! ".SKETCH_VIEW.", cs! ".MODEL_VIEW.", cs! ".PLAN_VIEW.", cs! ".REFLECTED_PLAN_VIEW.",
   cs! ".SECTION_VIEW.", cs! ".ELEVATION_VIEW.", cs! ".USERDEFINED.", cs! ".NOTDEFINED."]

/-- geometry/profile_type.rs:14-20 -/
def eProfileType : List Str :=
  [cs! ".CURVE.", cs! ".AREA."]

/-- geometry/shape_representation/repr_identifier.rs:7-44 -/
def eRepresentationIdentifier : List Str :=
  [cs! "'CoG'", cs! "'Box'", cs! "'Annotation'", cs! "'Axis'", cs! "'FootPrint'", cs! "'Profile'",
   cs! "'Surface'", cs! "'Reference'", cs! "'Body'", cs! "'Body-FallBack'", cs! "'Clearance'",
   cs! "'Lighting'"]

/-- geometry/shape_representation/repr_type.rs:8-96 -/
def eRepresentationType : List Str :=
  [cs! "'Point'", cs! "'PointCloud'", cs! "'Curve'", cs! "'Curve2D'", cs! "'Curve3D'", cs! "'Surface'",
   cs! "'Surface2D'", cs! "'Surface3D'", cs! "'SectionedSurface'", cs! "'FillArea'", cs! "'Text'",
   cs! "'AdvancedSurface'", cs! "'GeometricSet'", cs! "'GeometricCurveSet'", cs! "'Annotation2D'",
   cs! "'SurfaceModel'", cs! "'Tessellation'", cs! "'Segment'", cs! "'SolidModel'", cs! "'SweptSolid'",
   cs! "'AdvancedSweptSolid'", cs! "'Brep'", cs! "'AdvancedBrep'", cs! "'CSG'", cs! "'Clipping'",
   cs! "'BoundingBox'", cs! "'SectionedSpine'", cs! "'LightSource'", cs! "'MappedRepresentation'"]

/-- materials/direction_sense_enum.rs:14-22 -/
def eDirectionSenseEnum : List Str :=
  [cs! ".POSITIVE.", cs! ".NEGATIVE."]

/-- materials/layer_set_direction_enum.rs:15-27 -/
def eLayerSetDirectionEnum : List Str :=
  [cs! ".AXIS1.", cs! ".AXIS2.", cs! ".AXIS3."]

/-- objects/shading_device_type_enum.rs:14-38 -/
def eShadingDeviceTypeEnum : List Str :=
  [cs! ".AWNING.", cs! ".JALOUSIE.", cs! ".SHUTTER.", cs! ".USERDEFINED.", cs! ".NOTDEFINED."]

/-- objects/access_state/mod.rs:19-37 -/
def eAccessState : List Str :=
  [cs! ".READWRITE.", cs! ".READONLY.", cs! ".LOCKED.", cs! ".READWRITELOCKED.", cs! ".READONLYLOCKED."]

/-- objects/actor_role/mod.rs:37-84 -/
def eRole : List Str :=
  [cs! ".SUPPLIER.", cs! ".MANUFACTURER.", cs! ".CONTRACTOR.", cs! ".SUBCONTRACTOR.", cs! ".ARCHITECT.",
   cs! ".STRUCTURALENGINEER.", cs! ".COSTENGINEER.", cs! ".CLIENT.", cs! ".BUILDINGOWNER.",
   cs! ".BUILDINGOPERATOR.", cs! ".MECHANICALENGINEER.", cs! ".ELECTRICALENGINEER.", cs! ".PROJECTMANAGER.",
   cs! ".FACILITIESMANAGER.", cs! ".CIVILENGINEER.", cs! ".COMISSIONENGINEER.", cs! ".ENGINEER.",
   cs! ".OWNER.", cs! ".CONSULTANT.", cs! ".CONSTRUCTIONMANAGER.", cs! ".FIELDCONSTRUCTIONMANAGER.",
   cs! ".RESELLER.", cs! ".USERDEFINED."]

/-- objects/change_action/mod.rs:21-45 -/
def eChangeAction : List Str :=
  [cs! ".NOCHANGE.", cs! ".MODIFIED.", cs! ".ADDED.", cs! ".DELETED.", cs! ".MODIFIEDADDED.",
   cs! ".MODIFIEDDELETED."]

/-- objects/doortype/door_operation_type_enum.rs:21-117 -/
def eDoorOperationTypeEnum : List Str :=
  [cs! ".SINGLE_SWING_LEFT.", cs! ".SINGLE_SWING_RIGHT.", cs! ".DOUBLE_DOOR_SINGLE_SWING.",
   cs! ".DOUBLE_SWING_LEFT.", cs! ".DOUBLE_SWING_RIGHT.", cs! ".DOUBLE_DOOR_DOUBLE_SWING.",
   cs! ".DOUBLE_DOOR_SINGLE_SWING_OPPOSITE_LEFT.", cs! ".DOUBLE_DOOR_SINGLE_SWING_OPPOSITE_RIGHT.",
   cs! ".SLIDING_TO_LEFT.", cs! ".SLIDING_TO_RIGHT.", cs! ".DOUBLE_DOOR_SLIDING.", cs! ".FOLDING_TO_LEFT.",
   cs! ".FOLDING_TO_RIGHT.", cs! ".DOUBLE_DOOR_FOLDING.", cs! ".REVOLVING.", cs! ".ROLLINGUP.",
   cs! ".SWING_FIXED_LEFT.", cs! ".SWING_FIXED_RIGHT.", cs! ".USERDEFINED.", cs! ".NOTDEFINED."]

/-- objects/doortype/door_type_enum.rs:14-37 -/
def eDoorTypeEnum : List Str :=
  [cs! ".DOOR.", cs! ".GATE.", cs! ".TRAPDOOR.", cs! ".USERDEFINED.", cs! ".NOTDEFINED."]

/-- objects/opening_element/opening_element_type_enum.rs:11-31 -/
def eOpeningElementTypeEnum : List Str :=
  [cs! ".OPENING.", cs! ".RECESS.", cs! ".USERDEFINED.", cs! ".NOTDEFINED."]

/-- objects/rooftype/type_enum.rs:17-76 -/
def eRoofTypeEnum : List Str :=
  [cs! ".FLAT_ROOF.", cs! ".SHED_ROOF.", cs! ".GABLE_ROOF.", cs! ".HIP_ROOF.", cs! ".HIPPED_GABLE_ROOF.",
   cs! ".GAMBREL_ROOF.", cs! ".MANSARD_ROOF.", cs! ".BARREL_ROOF.", cs! ".RAINBOW_ROOF.",
   cs! ".BUTTERFLY_ROOF.", cs! ".PAVILION_ROOF.", cs! ".DOME_ROOF.", cs! ".USERDEFINED.", cs! ".NOTDEFINED."]

/-- objects/shared/composition_type_enum.rs:11-23 -/
def eCompositionTypeEnum : List Str :=
  [cs! ".COMPLEX.", cs! ".ELEMENT.", cs! ".PARTIAL."]

/-- objects/slabtype/type_enum.rs:14-39 -/
def eSlabTypeEnum : List Str :=
  [cs! ".FLOOR.", cs! ".ROOF.", cs! ".LANDING.", cs! ".BASESLAB.", cs! ".USERDEFINED.", cs! ".NOTDEFINED."]

/-- objects/spacetype/type_enum.rs:14-43 -/
def eSpaceTypeEnum : List Str :=
  [cs! ".SPACE.", cs! ".PARKING.", cs! ".GFA.", cs! ".INTERNAL.", cs! ".EXTERNAL.", cs! ".USERDEFINED.",
   cs! ".NOTDEFINED."]

/-- objects/walltype/type_enum.rs:13-74 -/
def eWallTypeEnum : List Str :=
  [cs! ".MOVABLE.", cs! ".PARAPET.", cs! ".PARTITIONING.", cs! ".PLUMBINGWALL.", cs! ".SHEAR.",
   cs! ".SOLIDWALL.", cs! ".STANDARD.", cs! ".POLYGONAL.", cs! ".ELEMENTEDWALL.", cs! ".RETAININGWALL.",
   cs! ".USERDEFINED.", cs! ".NOTDEFINED."]

/-- objects/windowtype/window_partitioning_type_enum.rs:19-67 -/
def eWindowPartitioningTypeEnum : List Str :=
  [cs! ".SINGLE_PANEL.", cs! ".DOUBLE_PANEL_VERTICAL.", cs! ".DOUBLE_PANEL_HORIZONTAL.",
   cs! ".TRIPLE_PANEL_VERTICAL.", cs! ".TRIPLE_PANEL_HORIZONTAL.", cs! ".TRIPLE_PANEL_BOTTOM.",
   cs! ".TRIPLE_PANEL_TOP.", cs! ".TRIPLE_PANEL_LEFT.", cs! ".TRIPLE_PANEL_RIGHT.", cs! ".USERDEFINED.",
   cs! ".NOTDEFINED."]

/-- objects/windowtype/window_type_enum.rs:14-35 -/
def eWindowTypeEnum : List Str :=
  [cs! ".WINDOW.", cs! ".SKYLIGHT.", cs! ".LIGHTDOME.", cs! ".USERDEFINED.", cs! ".NOTDEFINED."]

/-- units/conversion_based_unit.rs:79-207 -/
def eConversionUnitName : List Str :=
  [cs! "'DEGREE'", cs! "'INCH'", cs! "'FOOT'", cs! "'YARD'", cs! "'MILE'", cs! "'SQUARE INCH'",
   cs! "'SQUARE FOOT'", cs! "'SQUARE YARD'", cs! "'ACRE'", cs! "'SQUARE MILE'", cs! "'CUBIC INCH'",
   cs! "'CUBIC FOOT'", cs! "'CUBIC YARD'", cs! "'LITRE'", cs! "'FLUID OUNCE UK'", cs! "'FLUID OUNCE US'",
   cs! "'PINT UK'", cs! "'PINT US'", cs! "'GALLON UK'", cs! "'GALLON US'", cs! "'OUNCE'", cs! "'POUND'",
   cs! "'TON UK'", cs! "'TON US'", cs! "'LBF'", cs! "'KIP'", cs! "'PSI'", cs! "'KSI'", cs! "'MINUTE'",
   cs! "'HOUR'", cs! "'DAY'", cs! "'BTU'"]

/-- units/derived_unit_enum.rs:13-169 -/
def eDerivedUnitEnum : List Str :=
  [cs! ".ANGULARVELOCITYUNIT.", cs! ".AREADENSITYUNIT.", cs! ".COMPOUNDPLANEANGLEUNIT.",
   cs! ".DYNAMICVISCOSITYUNIT.", cs! ".HEATFLUXDENSITYUNIT.", cs! ".INTEGERCOUNTRATEUNIT.",
   cs! ".ISOTHERMALMOISTURECAPACITYUNIT.", cs! ".KINEMATICVISCOSITYUNIT.", cs! ".LINEARVELOCITYUNIT.",
   cs! ".MASSDENSITYUNIT.", cs! ".MASSFLOWRATEUNIT.", cs! ".MOISTUREDIFFUSIVITYUNIT.",
   cs! ".MOLECULARWEIGHTUNIT.", cs! ".SPECIFICHEATCAPACITYUNIT.", cs! ".THERMALADMITTANCEUNIT.",
   cs! ".THERMALCONDUCTANCEUNIT.", cs! ".THERMALRESISTANCEUNIT.", cs! ".THERMALTRANSMITTANCEUNIT.",
   cs! ".VAPORPERMEABILITYUNIT.", cs! ".VOLUMETRICFLOWRATEUNIT.", cs! ".ROTATIONALFREQUENCYUNIT.",
   cs! ".TORQUEUNIT.", cs! ".MOMENTOFINERTIAUNIT.", cs! ".LINEARMOMENTUNIT.", cs! ".LINEARFORCEUNIT.",
   cs! ".PLANARFORCEUNIT.", cs! ".MODULUSOFELASTICITYUNIT.", cs! ".SHEARMODULUSUNIT.",
   cs! ".LINEARSTIFFNESSUNIT.", cs! ".ROTATIONALSTIFFNESSUNIT.", cs! ".MODULUSOFSUBGRADEREACTIONUNIT.",
   cs! ".ACCELERATIONUNIT.", cs! ".CURVATUREUNIT.", cs! ".IONCONCENTRATIONUNIT.",
   cs! ".LUMINOUSINTENSITYDISTRIBUTIONUNIT.", cs! ".MASSPERLENGTHUNIT.",
   cs! ".MODULUSOFLINEARSUBGRADEREACTIONUNIT.", cs! ".MODULUSOFROTATIONALSUBGRADEREACTIONUNIT.",
   cs! ".PHUNIT.", cs! ".ROTATIONALMASSUNIT.", cs! ".SECTIONAREAINTEGRALUNIT.", cs! ".SECTIONMODULUSUNIT.",
   cs! ".SOUNDPOWERLEVELUNIT.", cs! ".SOUNDPOWERUNIT.", cs! ".SOUNDPRESSURELEVELUNIT.",
   cs! ".SOUNDPRESSUREUNIT.", cs! ".TEMPERATUREGRADIENTUNIT.", cs! ".TEMPERATURERATEOFCHANGEUNIT.",
   cs! ".THERMALEXPANSIONCOEFFICIENTUNIT.", cs! ".WARPINGCONSTANTUNIT.", cs! ".WARPINGMOMENTUNIT.",
   cs! ".USERDEFINED."]

/-- units/name.rs:13-133 -/
def eIfcUnitName : List Str :=
  [cs! ".AMPERE.", cs! ".BECQUEREL.", cs! ".CANDELA.", cs! ".COULOUMB.", cs! ".CUBIC_METRE.",
   cs! ".DEGREE_CELSIUS.", cs! ".FARAD.", cs! ".GRAM.", cs! ".GRAY.", cs! ".HENRY.", cs! ".HERTZ.",
   cs! ".JOULE.", cs! ".KELVIN.", cs! ".LUMEN.", cs! ".LUX.", cs! ".METRE.", cs! ".MOLE.", cs! ".NEWTON.",
   cs! ".OHM.", cs! ".PASCAL.", cs! ".RADIAN.", cs! ".SECOND.", cs! ".SIEMENS.", cs! ".SIEVERT.",
   cs! ".SQUARE_METRE.", cs! ".STERADIAN.", cs! ".TESLA.", cs! ".VOLT.", cs! ".WATT.", cs! ".WEBER."]

/-- units/prefix.rs:11-71 -/
def eIfcPrefix : List Str :=
  [cs! ".EXA.", cs! ".PETA.", cs! ".TERA.", cs! ".GIGA.", cs! ".MEGA.", cs! ".KILO.", cs! ".DECA.",
   cs! ".DECI.", cs! ".CENTI.", cs! ".MILLI.", cs! ".MICRO.", cs! ".NANO.", cs! ".PICO.", cs! ".FEMTO.",
   cs! ".ATTO."]

/-- units/unit_enum.rs:13-129 -/
def eIfcUnitEnum : List Str :=
  [cs! ".ABSORBEDDOSEUNIT.", cs! ".AMOUNTOFSUBSTANCEUNIT.", cs! ".AREAUNIT.", cs! ".DOSEEQUIVALENTUNIT.",
   cs! ".ELCTRICCAPACITANCEUNIT.", cs! ".ELCTRICCHARGEUNIT.", cs! ".ELCTRICCONDUCTANCEUNIT.",
   cs! ".ELCTRICCURRENTUNIT.", cs! ".ELCTRICRESISTANCEUNIT.", cs! ".ELCTRICVOLTAGEUNIT.", cs! ".ENERGYUNIT.",
   cs! ".FORCEUNIT.", cs! ".ILLUMINANCEUNIT.", cs! ".INDUCTANCEUNIT.", cs! ".LENGTHUNIT.",
   cs! ".LUMINOUSFLUXUNIT.", cs! ".LUMINOUSINTENSITYUNIT.", cs! ".MAGNETICFLUXDENSITYUNIT.",
   cs! ".MAGNETICFLUXUNIT.", cs! ".MASSUNIT.", cs! ".PLANEANGLEUNIT.", cs! ".POWERUNIT.", cs! ".PRESSUREUNIT.",
   cs! ".RADIOACTIVITYUNIT.", cs! ".SOLIDANGLEUNIT.", cs! ".THERMODYNAMICTEMPERATUREUNIT.", cs! ".TIMEUNIT.",
   cs! ".VOLUMEUNIT.", cs! ".USERDEFINED."]

/-- all enumeration tables -/
def allEnums : List (List Str) :=
  [eDimensionCount,
   eGeometricProjection,
   eProfileType,
   eRepresentationIdentifier,
   eRepresentationType,
   eDirectionSenseEnum,
   eLayerSetDirectionEnum,
   eShadingDeviceTypeEnum,
   eAccessState,
   eRole,
   eChangeAction,
   eDoorOperationTypeEnum,
   eDoorTypeEnum,
   eOpeningElementTypeEnum,
   eRoofTypeEnum,
   eCompositionTypeEnum,
   eSlabTypeEnum,
   eSpaceTypeEnum,
   eWallTypeEnum,
   eWindowPartitioningTypeEnum,
   eWindowTypeEnum,
   eConversionUnitName,
   eDerivedUnitEnum,
   eIfcUnitName,
   eIfcPrefix,
   eIfcUnitEnum]


/-! ### Shared parts -/

/-- `TypedId<K>` -/
abbrev tid (k : Kind) : Fld := .ref (some [k])
/-- `Id` with `#[ifc_types(..)]` -/
abbrev ids (ks : List Kind) : Fld := .ref (some ks)
/-- `Id` without attribute: never checked -/
abbrev anyId : Fld := .ref none
abbrev ostr : Fld := .opt .str
abbrev oreal : Fld := .opt .real
/-- entity read with `p_space_or_comment_surrounded` around keyword and `);` -/
abbrev spd (kws : List Str) (b : Fld) : Fld := .ent kws true b (cs! ");")
/-- entity read with plain literals -/
abbrev bare (kw : Str) (b : Fld) : Fld := .ent [kw] false b (cs! ");")

infixr:65 " ,, " => Fld.seq

/-- objects/shared/root.rs:23-39, 75-99 -/
def root : Fld := .guid ,, .opt (tid .OwnerHistory) ,, ostr ,, ostr
/-- the same where the embedding struct does not mark it `#[inherited]`, so nothing in it is checked -/
def rootU : Fld := .guid ,, .opt anyId ,, ostr ,, ostr
/-- objects/shared/object.rs:20-29, 63-79 -/
def object : Fld := root ,, ostr
/-- objects/shared/product.rs:29-50, 156-178 -/
def product : Fld :=
  object ,, .opt (ids [.Axis3D, .Point3D, .LocalPlacement]) ,, .opt (tid .ProductDefinitionShape)
/-- objects/shared/element.rs:21-29, 63-79 -/
def element : Fld := product ,, ostr
/-- objects/shared/spatial_element.rs:22-30, 64-80 -/
def spatialElement : Fld := product ,, ostr
/-- objects/shared/spatial_structure_element.rs:20-30, 64-80 -/
def spatialStructureElement : Fld := spatialElement ,, .opt (.enum eCompositionTypeEnum)
/-- objects/shared/type_object.rs:24-46, 79-101 -/
def typeObject : Fld := root ,, .opt anyId ,, .opt (.list anyId)
/-- objects/shared/type_product.rs:28-42, 83-105 -/
def typeProduct : Fld := typeObject ,, .opt (.list (tid .RepresentationMap)) ,, ostr
/-- objects/shared/element_type.rs:23-33, 67-83 -/
def elementType : Fld := typeProduct ,, ostr
/-- objects/shared/context.rs:27-51, 120-153 -/
def context : Fld :=
  root ,, ostr ,, ostr ,, ostr ,, .list (tid .GeometricRepresentationContext) ,, .opt (tid .UnitAssigment)
/-- objects/shared/rel_associates.rs:21-29, 70-86 (not `#[inherited]` by its only user) -/
def relAssociatesU : Fld := rootU ,, .list anyId
/-- geometry/transform_base.rs:22-35, 88-117; the inline alternatives are the `Direction3D` and `Point3D` rows -/
def direction3D : Fld := bare (cs! "IFCDIRECTION(") .vec3
def point3D : Fld := bare (cs! "IFCCARTESIANPOINT(") .vec3
def transformBase : Fld :=
  .opt (.idOr .Direction3D direction3D) ,, .opt (.idOr .Direction3D direction3D) ,,
  .opt (.idOr .Point3D point3D) ,, oreal ,, .opt (.idOr .Direction3D direction3D)
/-- units/shared/named_unit.rs:11-35 -/
def namedUnit : Fld := .opt anyId ,, .opt (.enum eIfcUnitEnum)
/-- properties/base.rs:13-18, 43-62 -/
def propertyBase : Fld := ostr ,, ostr
/-- properties/extended_base.rs:17-24, 55-76 -/
def extendedPropertyBaseU : Fld := ostr ,, ostr ,, .list anyId

/-! ### Rows also used inline (`IdOr::Custom`) -/

/-- geometry/axis/mod.rs:86-97, deserialize.rs:23-42, serialize.rs:16-26 -/
def axis3D : Fld :=
  bare (cs! "IFCAXIS2PLACEMENT3D(") (tid .Point3D ,, .opt (tid .Direction3D) ,, .opt (tid .Direction3D))
/-- geometry/shape_representation/mod.rs:49-66, deserialize.rs:11-30, serialize.rs:5-16 -/
def shapeRepresentation : Fld :=
  spd [cs! "IFCSHAPEREPRESENTATION("]
    (ids [.GeometricRepresentationSubContext, .GeometricRepresentationContext] ,,
     .opt (.enum eRepresentationIdentifier) ,, .opt (.enum eRepresentationType) ,,
     .list (ids [.ExtrudedAreaSolid, .PolyLine, .MappedItem]))
/-- relations/representation_map.rs:35-43, 60-85 -/
def representationMap : Fld :=
  spd [cs! "IFCREPRESENTATIONMAP("]
    (.idOr .Axis3D axis3D ,, .idOr .ShapeRepresentation shapeRepresentation)
/-- objects/walltype/mod.rs:25-32, deserialize.rs:10-24, serialize.rs:5-13 -/
def wallType : Fld := spd [cs! "IFCWALLTYPE("] (elementType ,, .enum eWallTypeEnum)
/-- units/measure/plane_angle.rs:14-36 (closes with `)`, not `);`) -/
def planeAngleMeasure : Fld := .ent [cs! "IFCPLANEANGLEMEASURE("] true .real (cs! ")")
/-- units/measure_with_unit.rs:19-47 -/
def measureWithUnit : Fld :=
  spd [cs! "IFCMEASUREWITHUNIT("] (.idOr .PlaneAngleMeasure planeAngleMeasure ,, tid .SiUnit)

/-- kinds allowed on both sides of `RelContainedInSpatialStructure`
(relations/rel_contained_in_spatial_structure.rs:26,32) -/
def containedKinds : List Kind :=
  [.Site, .Building, .Storey, .OpeningElement, .Slab, .Roof, .Wall, .Window, .Door]

/-! ### The table -/

/-- one row per struct -/
def row : Kind → Fld
  -- objects/actor_role/{mod.rs:20-31, deserialize.rs:8-27, serialize.rs:5-15}
  | .ActorRole => bare (cs! "IFCACTORROLE(") (.enum eRole ,, ostr ,, ostr)
  -- objects/address/{mod.rs:49-76, deserialize.rs:62-124, serialize.rs:22-39}
  | .PostalAddress => bare (cs! "IFCPOSTALADDRESS(")
      (ostr ,, ostr ,, ostr ,, ostr ,, .opt (.list .str) ,, ostr ,, .opt (.list .str) ,, ostr ,, ostr ,, ostr)
  -- objects/address/{mod.rs:16-40, deserialize.rs:8-60, serialize.rs:5-20}
  | .TelecomAddress => bare (cs! "IFCTELECOMADDRESS(")
      (ostr ,, ostr ,, ostr ,, .opt (.list .str) ,, .opt (.list .str) ,, ostr ,, .opt (.list .str) ,, ostr)
  -- objects/application/{mod.rs:14-24, deserialize.rs:7-23, serialize.rs:5-16}
  | .Application => bare (cs! "IFCAPPLICATION(") (tid .Organization ,, .str ,, .str ,, .str)
  -- objects/organization/{mod.rs:16-28, deserialize.rs:10-37, serialize.rs:5-17}
  | .Organization => bare (cs! "IFCORGANIZATION(")
      (ostr ,, .str ,, ostr ,, .opt (.list (tid .ActorRole)) ,, .opt (.list (ids [.TelecomAddress, .PostalAddress])))
  -- objects/owner_history/{mod.rs:18-43, deserialize.rs:10-62, serialize.rs:5-20}
  | .OwnerHistory => bare (cs! "IFCOWNERHISTORY(")
      (.opt (tid .PersonAndOrganization) ,, .opt (tid .Application) ,, .opt (.enum eAccessState) ,,
       .enum eChangeAction ,, .opt .time ,, .opt (tid .PersonAndOrganization) ,, .opt (tid .Application) ,, .time)
  -- objects/person/{mod.rs:16-38, deserialize.rs:8-60, serialize.rs:5-20}
  | .Person => bare (cs! "IFCPERSON(")
      (ostr ,, ostr ,, ostr ,, .opt (.list .str) ,, .opt (.list .str) ,, .opt (.list .str) ,,
       .opt (.list (tid .ActorRole)) ,, .opt (.list (ids [.TelecomAddress, .PostalAddress])))
  -- objects/person_and_org/{mod.rs:16-23, deserialize.rs:9-28, serialize.rs:5-15}
  | .PersonAndOrganization => bare (cs! "IFCPERSONANDORGANIZATION(")
      (tid .Person ,, tid .Organization ,, .opt (.list (tid .ActorRole)))
  -- objects/wall/{mod.rs:23-31, deserialize.rs:9-23, serialize.rs:5-9}
  | .Wall => spd [cs! "IFCWALL(", cs! "IFCWALLSTANDARDCASE("] (element ,, .opt (.idOr .WallType wallType))
  | .WallType => wallType
  -- objects/slab/{mod.rs:40-51, deserialize.rs:9-23, serialize.rs:5-9}
  | .Slab => spd [cs! "IFCSLAB(", cs! "IFCSLABSTANDARDCASE("] (element ,, .opt (.enum eSlabTypeEnum))
  -- objects/slabtype/{mod.rs:41-48, deserialize.rs:8-22, serialize.rs:5-13}
  | .SlabType => spd [cs! "IFCSLABTYPE("] (elementType ,, .enum eSlabTypeEnum)
  -- objects/roof/{mod.rs:41-51, deserialize.rs:8-22, serialize.rs:5-9}
  | .Roof => spd [cs! "IFCROOF("] (element ,, .opt (.enum eRoofTypeEnum))
  -- objects/rooftype/{mod.rs:21-28, deserialize.rs:8-22, serialize.rs:5-13}
  | .RoofType => spd [cs! "IFCROOFTYPE("] (elementType ,, .enum eRoofTypeEnum)
  -- objects/building.rs:24-39, 117-148
  | .Building => spd [cs! "IFCBUILDING("]
      (spatialStructureElement ,, oreal ,, oreal ,, .opt (tid .PostalAddress))
  -- objects/storey.rs:55-69, 126-150
  | .Storey => spd [cs! "IFCBUILDINGSTOREY("] (spatialStructureElement ,, oreal)
  -- objects/site.rs:55-79, 169-206
  | .Site => spd [cs! "IFCSITE("]
      (spatialStructureElement ,, .opt (.list .int) ,, .opt (.list .int) ,, oreal ,, ostr ,, .opt (tid .PostalAddress))
  -- objects/opening_element/{mod.rs:61-69, deserialize.rs:8-22, serialize.rs:6-10}
  | .OpeningElement => spd [cs! "IFCOPENINGELEMENT("] (element ,, .opt (.enum eOpeningElementTypeEnum))
  -- objects/window/{mod.rs:75-103, deserialize.rs:9-31, serialize.rs:5-18}
  | .Window => spd [cs! "IFCWINDOW(", cs! "IFCWINDOWSTANDARDCASE("]
      (element ,, oreal ,, oreal ,, .opt (.enum eWindowTypeEnum) ,, .opt (.enum eWindowPartitioningTypeEnum) ,, ostr)
  -- objects/windowtype/{mod.rs:44-66, deserialize.rs:17-37, serialize.rs:5-17}
  | .WindowType => spd [cs! "IFCWINDOWTYPE("]
      (elementType ,, .enum eWindowTypeEnum ,, .enum eWindowPartitioningTypeEnum ,, .opt .bool ,, ostr)
  -- objects/project.rs:23-26, 62-80
  | .Project => spd [cs! "IFCPROJECT("] context
  -- objects/space/{mod.rs:43-56, deserialize.rs:9-25, serialize.rs:5-13}
  | .Space => spd [cs! "IFCSPACE("] (spatialStructureElement ,, .opt (.enum eSpaceTypeEnum) ,, oreal)
  -- objects/spacetype/{mod.rs:42-53, deserialize.rs:13-29, serialize.rs:5-13}
  | .SpaceType => spd [cs! "IFCSPACETYPE("] (elementType ,, .enum eSpaceTypeEnum ,, ostr)
  -- objects/door/{mod.rs:99-127, deserialize.rs:9-31, serialize.rs:5-18}
  | .Door => spd [cs! "IFCDOOR(", cs! "IFCDOORSTANDARDCASE("]
      (element ,, oreal ,, oreal ,, .opt (.enum eDoorTypeEnum) ,, .opt (.enum eDoorOperationTypeEnum) ,, ostr)
  -- objects/doortype/{mod.rs:39-61, deserialize.rs:16-36, serialize.rs:5-17}
  | .DoorType => spd [cs! "IFCDOORTYPE("]
      (elementType ,, .enum eDoorTypeEnum ,, .enum eDoorOperationTypeEnum ,, .opt .bool ,, ostr)
  -- objects/shading_device.rs:26-31, 48-72
  | .ShadingDevice => spd [cs! "IFCSHADINGDEVICE("] (element ,, .opt (.enum eShadingDeviceTypeEnum))
  -- objects/shading_device_type.rs:26-33, 46-70
  | .ShadingDeviceType => spd [cs! "IFCSHADINGDEVICETYPE("] (elementType ,, .enum eShadingDeviceTypeEnum)
  -- geometry/arbitrary_closed_profile_def/{mod.rs:30-43, deserialize.rs:8-24, serialize.rs:5-13}
  | .ArbitraryClosedProfileDef => spd [cs! "IFCARBITRARYCLOSEDPROFILEDEF("]
      (.enum eProfileType ,, ostr ,, ids [.IndexedPolyCurve, .PolyLine])
  -- geometry/axis/{mod.rs:36-44, deserialize.rs:12-21, serialize.rs:5-14}
  | .Axis2D => bare (cs! "IFCAXIS2PLACEMENT2D(") (tid .Point2D ,, .opt (tid .Direction2D))
  | .Axis3D => axis3D
  -- geometry/direction/{mod.rs:19-20, deserialize.rs:9-16, serialize.rs:5-9}
  | .Direction2D => bare (cs! "IFCDIRECTION(") .vec2
  -- geometry/direction/{mod.rs:38-39, deserialize.rs:18-25, serialize.rs:11-15}
  | .Direction3D => direction3D
  -- geometry/extruded_area_solid.rs:31-50, 104-132
  | .ExtrudedAreaSolid => spd [cs! "IFCEXTRUDEDAREASOLID("]
      (ids [.RectangleProfileDef, .ArbitraryClosedProfileDef] ,, .opt (tid .Axis3D) ,, tid .Direction3D ,, .real)
  -- geometry/indexed_poly_curve/{mod.rs:18-38, deserialize.rs:9-28, serialize.rs:5-15}
  | .IndexedPolyCurve => bare (cs! "IFCINDEXEDPOLYCURVE(") (ids [.PointList2D, .PointList3D] ,, ostr ,, .opt .bool)
  -- geometry/point/{mod.rs:23-24, deserialize.rs:9-16, serialize.rs:5-9}
  | .Point2D => bare (cs! "IFCCARTESIANPOINT(") .vec2
  -- geometry/point/{mod.rs:58-59, deserialize.rs:18-25, serialize.rs:11-15}
  | .Point3D => point3D
  -- geometry/point_list/{mod.rs:26-30, deserialize.rs:8-23, serialize.rs:5-14}
  | .PointList2D => bare (cs! "IFCCARTESIANPOINTLIST2D(") (.list .vec2 ,, .opt (.list .str))
  -- geometry/point_list/{mod.rs:54-58, deserialize.rs:25-40, serialize.rs:16-25}
  | .PointList3D => bare (cs! "IFCCARTESIANPOINTLIST3D(") (.list .vec3 ,, .opt (.list .str))
  -- geometry/polyline/{mod.rs:13-18, deserialize.rs:4-14, serialize.rs:5-9}
  | .PolyLine => spd [cs! "IFCPOLYLINE("] (.list (ids [.Point2D, .Point3D]))
  -- geometry/product_definition_shape/{mod.rs:29-42, deserialize.rs:8-25, serialize.rs:5-15}
  | .ProductDefinitionShape => spd [cs! "IFCPRODUCTDEFINITIONSHAPE("]
      (ostr ,, ostr ,, .list (tid .ShapeRepresentation))
  -- geometry/rectangle_profile_def/{mod.rs:27-45, deserialize.rs:9-29, serialize.rs:5-13}
  | .RectangleProfileDef => spd [cs! "IFCRECTANGLEPROFILEDEF("]
      (.enum eProfileType ,, ostr ,, .opt (ids [.Axis2D, .Axis3D]) ,, .real ,, .real)
  -- geometry/representation_context/{mod.rs:21-48, deserialize.rs:8-28, serialize.rs:5-18}
  | .GeometricRepresentationContext => bare (cs! "IFCGEOMETRICREPRESENTATIONCONTEXT(")
      (.opt (.enum eRepresentationIdentifier) ,, ostr ,, .enum eDimensionCount ,, oreal ,,
       ids [.Axis2D, .Axis3D] ,, .opt (ids [.Direction2D, .Direction3D]))
  -- geometry/representation_subcontext/{mod.rs:35-98, deserialize.rs:12-40, serialize.rs:5-22}
  | .GeometricRepresentationSubContext => bare (cs! "IFCGEOMETRICREPRESENTATIONSUBCONTEXT(")
      (.opt (.enum eRepresentationIdentifier) ,, ostr ,, .optDim eDimensionCount ,, oreal ,,
       .opt (ids [.Axis2D, .Axis3D]) ,, .opt (ids [.Axis2D, .Axis3D]) ,, tid .GeometricRepresentationContext ,,
       oreal ,, .enum eGeometricProjection ,, ostr)
  | .ShapeRepresentation => shapeRepresentation
  -- geometry/local_placement/mod.rs:19-34, 54-78
  | .LocalPlacement => spd [cs! "IFCLOCALPLACEMENT("] (.opt (tid .LocalPlacement) ,, ids [.Axis2D, .Axis3D])
  -- geometry/non_uniform_transformations.rs:42-52, 97-124
  | .NonUniformTransform => spd [cs! "IFCCARTESIANTRANSFORMATIONOPERATOR3DNONUNIFORM("]
      (transformBase ,, oreal ,, oreal)
  -- geometry/uniform_transformations.rs:29-33, 73-92
  | .UniformTransform => spd [cs! "IFCCARTESIANTRANSFORMATIONOPERATOR3D("] transformBase
  -- relations/rel_aggregates.rs:21-36, 66-92
  | .RelAggregates => spd [cs! "IFCRELAGGREGATES("]
      (rootU ,, ids [.Project, .Site, .Building, .Storey] ,, .list (ids [.Site, .Building, .Storey, .Space]))
  -- relations/rel_associates_material.rs:20-31, 70-94
  | .RelAssociatesMaterial => spd [cs! "IFCRELASSOCIATESMATERIAL("]
      (relAssociatesU ,, ids [.MaterialConstituentSet, .MaterialLayerSetUsage, .MaterialLayerSet, .Material])
  -- relations/rel_contained_in_spatial_structure.rs:21-34, 76-102
  | .RelContainedInSpatialStructure => spd [cs! "IFCRELCONTAINEDINSPATIALSTRUCTURE("]
      (rootU ,, .list (ids containedKinds) ,, ids containedKinds)
  -- relations/rel_declares.rs:21-30, 71-97
  | .RelDeclares => spd [cs! "IFCRELDECLARES("] (rootU ,, tid .Project ,, .list anyId)
  -- relations/rel_defines_by_type.rs:24-31, 68-94
  | .RelDefinesByType => spd [cs! "IFCRELDEFINESBYTYPE("] (rootU ,, .list anyId ,, anyId)
  -- relations/rel_defines_by_properties.rs:28-36, 73-99
  | .RelDefinesByProperties => spd [cs! "IFCRELDEFINESBYPROPERTIES("] (rootU ,, .list anyId ,, anyId)
  -- relations/rel_voids_element.rs:22-31, 54-80
  | .RelVoidsElement => spd [cs! "IFCRELVOIDSELEMENT("]
      (rootU ,, ids [.Building, .OpeningElement, .Slab, .Wall, .Window] ,, tid .OpeningElement)
  -- relations/rel_fills_element.rs:19-27, 50-76
  | .RelFillsElement => spd [cs! "IFCRELFILLSELEMENT("]
      (rootU ,, tid .OpeningElement ,, ids [.Building, .OpeningElement, .Slab, .Wall, .Window, .Door])
  -- relations/mapped_item.rs:43-57, 115-136
  | .MappedItem => spd [cs! "IFCMAPPEDITEM("]
      (.idOr .RepresentationMap representationMap ,, ids [.NonUniformTransform, .UniformTransform])
  | .RepresentationMap => representationMap
  -- units/assignment.rs:19-51
  | .UnitAssigment => spd [cs! "IFCUNITASSIGNMENT("]
      (.list (ids [.SiUnit, .ConversionBasedUnit, .DerivedUnit, .MonetaryUnit]))
  -- units/conversion_based_unit.rs:24-69
  | .ConversionBasedUnit => spd [cs! "IFCCONVERSIONBASEDUNIT("]
      (namedUnit ,, .opt (.enum eConversionUnitName) ,, .opt (.idOr .MeasureWithUnit measureWithUnit))
  -- units/si_unit.rs:19-28, 59-85
  | .SiUnit => spd [cs! "IFCSIUNIT("] (namedUnit ,, .opt (.enum eIfcPrefix) ,, .enum eIfcUnitName)
  -- units/dimensional_exponents.rs:32-92
  | .DimensionalExponents => spd [cs! "IFCDIMENSIONALEXPONENTS("]
      (.int32 ,, .int32 ,, .int32 ,, .int32 ,, .int32 ,, .int32 ,, .int32)
  | .MeasureWithUnit => measureWithUnit
  | .PlaneAngleMeasure => planeAngleMeasure
  -- units/derived_unit.rs:16-53
  | .DerivedUnit => spd [cs! "IFCDERIVEDUNIT("] (.list (tid .DerivedUnitElement) ,, .enum eDerivedUnitEnum ,, ostr)
  -- units/derived_unit_element.rs:14-42
  | .DerivedUnitElement => spd [cs! "IFCDERIVEDUNITELEMENT("] (tid .SiUnit ,, .int)
  -- units/monetary_unit.rs:12-38
  | .MonetaryUnit => spd [cs! "IFCMONETARYUNIT("] .str
  -- materials/material_layer_set_usage.rs:23-63, 88-122
  | .MaterialLayerSetUsage => spd [cs! "IFCMATERIALLAYERSETUSAGE("]
      (tid .MaterialLayerSet ,, .enum eLayerSetDirectionEnum ,, .enum eDirectionSenseEnum ,, .real ,, oreal)
  -- materials/material_layer_set.rs:20-30, 63-89
  | .MaterialLayerSet => spd [cs! "IFCMATERIALLAYERSET("] (.list (tid .MaterialLayer) ,, ostr ,, ostr)
  -- materials/material_layer.rs:22-70, 111-151
  | .MaterialLayer => spd [cs! "IFCMATERIALLAYER("]
      (.opt (tid .Material) ,, .real ,, .bool ,, ostr ,, ostr ,, ostr ,, .opt .int)
  -- materials/material.rs:18-29, 51-77
  | .Material => spd [cs! "IFCMATERIAL("] (ostr ,, ostr ,, ostr)
  -- materials/material_constituent.rs:25-43, 82-112
  | .MaterialConstituent => spd [cs! "IFCMATERIALCONSTITUENT("] (ostr ,, ostr ,, tid .Material ,, oreal ,, ostr)
  -- materials/material_constituent_set.rs:22-31, 70-96
  | .MaterialConstituentSet => spd [cs! "IFCMATERIALCONSTITUENTSET("]
      (ostr ,, ostr ,, .list (tid .MaterialConstituent))
  -- properties/material.rs:18-23, 52-72
  | .MaterialProperties => spd [cs! "IFCMATERIALPROPERTIES("] (extendedPropertyBaseU ,, tid .Material)
  -- properties/set.rs:33-41, 69-89
  | .PropertySet => spd [cs! "IFCPROPERTYSET("] (rootU ,, .list (tid .PropertySingleValue))
  -- properties/single_value.rs:27-35, 53-82
  | .PropertySingleValue => spd [cs! "IFCPROPERTYSINGLEVALUE("] (propertyBase ,, .value ,, .opt anyId)

/-- order in which the readers are tried (meta/datamap/deserialize.rs:23-31 and the six group readers) -/
def order : List Kind :=
  [.ActorRole, .PostalAddress, .TelecomAddress, .Application, .Organization, .OwnerHistory, .Person,
   .PersonAndOrganization, .Wall, .WallType, .Slab, .SlabType, .Roof, .RoofType, .Building, .Storey, .Site,
   .OpeningElement, .Window, .WindowType, .Project, .Space, .SpaceType, .Door, .DoorType, .ShadingDevice,
   .ShadingDeviceType,
   .ArbitraryClosedProfileDef, .Axis2D, .Axis3D, .Direction2D, .Direction3D, .ExtrudedAreaSolid,
   .IndexedPolyCurve, .Point2D, .Point3D, .PointList2D, .PointList3D, .PolyLine, .ProductDefinitionShape,
   .RectangleProfileDef, .GeometricRepresentationContext, .GeometricRepresentationSubContext,
   .ShapeRepresentation, .LocalPlacement, .NonUniformTransform, .UniformTransform,
   .RelAggregates, .RelAssociatesMaterial, .RelContainedInSpatialStructure, .RelDeclares, .RelDefinesByType,
   .RelDefinesByProperties, .RelVoidsElement, .RelFillsElement, .MappedItem, .RepresentationMap,
   .UnitAssigment, .ConversionBasedUnit, .SiUnit, .DimensionalExponents, .MeasureWithUnit, .PlaneAngleMeasure,
   .DerivedUnit, .DerivedUnitElement, .MonetaryUnit,
   .MaterialLayerSetUsage, .MaterialLayerSet, .MaterialLayer, .Material, .MaterialConstituent,
   .MaterialConstituentSet, .MaterialProperties, .PropertySet, .PropertySingleValue]

end Verif.Schema
