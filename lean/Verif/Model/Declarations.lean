import Verif.Model.Derive
/-
The declarations that derive `IfcVerify`, in the order of their paths.  Paths are relative to /repo/ifc_rs/src.  Attributes of
fields other than `ifc_types` and `inherited` there are none.
-/
namespace Verif.Derive
open Verif

/-- a type without arguments -/
local macro "ty " s:str : term => `(RTy.path (cs! $s) none)

/-- a type with one argument -/
local macro "of " s:str t:term:max : term => `(RTy.path (cs! $s) (some [$t]))

/-- a field without attributes -/
local macro "fld " s:str t:term:max : term => `(FieldDecl.mk (cs! $s) [] $t)

/-- a field with `#[inherited]` -/
local macro "inh " s:str t:term:max : term => `(FieldDecl.mk (cs! $s) [Attr.inherited] $t)

/-- a field with `#[ifc_types(..)]` -/
local macro "typ " s:str l:term:max t:term:max : term => `(FieldDecl.mk (cs! $s) [Attr.ifcTypes (some $l)] $t)

/-- geometry/arbitrary_closed_profile_def/mod.rs:30-43 -/
def dArbitraryClosedProfileDef : Decl := ⟨cs! "ArbitraryClosedProfileDef", .named [
  fld "profile_type" (ty "ProfileType"),
  fld "profile_name" (of "OptionalParameter" (ty "StringPrimitive")),
  typ "outer_curve" [cs! "IndexedPolyCurve", cs! "PolyLine"] (ty "Id")]⟩

/-- geometry/axis/mod.rs:36-44 -/
def dAxis2D : Decl := ⟨cs! "Axis2D", .named [
  fld "location" (of "TypedId" (ty "Point2D")),
  fld "local_x" (of "OptionalParameter" (of "TypedId" (ty "Direction2D")))]⟩

/-- geometry/axis/mod.rs:86-97 -/
def dAxis3D : Decl := ⟨cs! "Axis3D", .named [
  fld "location" (of "TypedId" (ty "Point3D")),
  fld "local_z" (of "OptionalParameter" (of "TypedId" (ty "Direction3D"))),
  fld "local_x" (of "OptionalParameter" (of "TypedId" (ty "Direction3D")))]⟩

/-- geometry/direction/mod.rs:19-20 -/
def dDirection2D : Decl := ⟨cs! "Direction2D", .unnamed⟩

/-- geometry/direction/mod.rs:38-39 -/
def dDirection3D : Decl := ⟨cs! "Direction3D", .unnamed⟩

/-- geometry/extruded_area_solid.rs:31-50 -/
def dExtrudedAreaSolid : Decl := ⟨cs! "ExtrudedAreaSolid", .named [
  typ "swept_area" [cs! "RectangleProfileDef", cs! "ArbitraryClosedProfileDef"] (ty "Id"),
  fld "position" (of "OptionalParameter" (of "TypedId" (ty "Axis3D"))),
  fld "extruded_direction" (of "TypedId" (ty "Direction3D")),
  fld "depth" (ty "RealPrimitive")]⟩

/-- geometry/indexed_poly_curve/mod.rs:18-38 -/
def dIndexedPolyCurve : Decl := ⟨cs! "IndexedPolyCurve", .named [
  typ "points" [cs! "PointList2D", cs! "PointList3D"] (ty "Id"),
  fld "segments" (of "OptionalParameter" (ty "StringPrimitive")),
  fld "self_intersect" (of "OptionalParameter" (ty "BoolPrimitive"))]⟩

/-- geometry/local_placement/mod.rs:19-34 -/
def dLocalPlacement : Decl := ⟨cs! "LocalPlacement", .named [
  fld "placement_rel_to" (of "OptionalParameter" (of "TypedId" (ty "LocalPlacement"))),
  typ "relative_placement" [cs! "Axis2D", cs! "Axis3D"] (ty "Id")]⟩

/-- geometry/non_uniform_transformations.rs:42-52 -/
def dCartesianTransformationOperator3DnonUniform : Decl := ⟨cs! "CartesianTransformationOperator3DnonUniform", .named [
  inh "base" (ty "Transform3DBase"),
  fld "scale_y" (of "OptionalParameter" (ty "RealPrimitive")),
  fld "scale_z" (of "OptionalParameter" (ty "RealPrimitive"))]⟩

/-- geometry/point/mod.rs:23-24 -/
def dPoint2D : Decl := ⟨cs! "Point2D", .unnamed⟩

/-- geometry/point/mod.rs:58-59 -/
def dPoint3D : Decl := ⟨cs! "Point3D", .unnamed⟩

/-- geometry/point_list/mod.rs:26-30 -/
def dPointList2D : Decl := ⟨cs! "PointList2D", .named [
  fld "coord_list" (of "IfcList" (ty "IfcDVec2")),
  fld "tag_list" (of "OptionalParameter" (of "IfcList" (ty "StringPrimitive")))]⟩

/-- geometry/point_list/mod.rs:54-58 -/
def dPointList3D : Decl := ⟨cs! "PointList3D", .named [
  fld "coord_list" (of "IfcList" (ty "IfcDVec3")),
  fld "tag_list" (of "OptionalParameter" (of "IfcList" (ty "StringPrimitive")))]⟩

/-- geometry/polyline/mod.rs:13-18 -/
def dPolyLine : Decl := ⟨cs! "PolyLine", .named [
  typ "points" [cs! "Point2D", cs! "Point3D"] (of "IfcList" (ty "Id"))]⟩

/-- geometry/product_definition_shape/mod.rs:29-42 -/
def dProductDefinitionShape : Decl := ⟨cs! "ProductDefinitionShape", .named [
  fld "name" (of "OptionalParameter" (ty "StringPrimitive")),
  fld "description" (of "OptionalParameter" (ty "StringPrimitive")),
  fld "representations" (of "IfcList" (of "TypedId" (ty "ShapeRepresentation")))]⟩

/-- geometry/rectangle_profile_def/mod.rs:27-45 -/
def dRectangleProfileDef : Decl := ⟨cs! "RectangleProfileDef", .named [
  fld "profile_type" (ty "ProfileType"),
  fld "profile_name" (of "OptionalParameter" (ty "StringPrimitive")),
  typ "position" [cs! "Axis2D", cs! "Axis3D"] (of "OptionalParameter" (ty "Id")),
  fld "x_dim" (ty "RealPrimitive"),
  fld "y_dim" (ty "RealPrimitive")]⟩

/-- geometry/representation_context/mod.rs:21-48 -/
def dGeometricRepresentationContext : Decl := ⟨cs! "GeometricRepresentationContext", .named [
  fld "context_identifier" (of "OptionalParameter" (ty "RepresentationIdentifier")),
  fld "context_type" (of "OptionalParameter" (ty "StringPrimitive")),
  fld "coord_space_dimension" (ty "DimensionCount"),
  fld "precision" (of "OptionalParameter" (ty "RealPrimitive")),
  typ "world_coord_system" [cs! "Axis2D", cs! "Axis3D"] (ty "Id"),
  typ "true_north" [cs! "Direction2D", cs! "Direction3D"] (of "OptionalParameter" (ty "Id"))]⟩

/-- geometry/representation_subcontext/mod.rs:35-98 -/
def dGeometricRepresentationSubContext : Decl := ⟨cs! "GeometricRepresentationSubContext", .named [
  fld "context_identifier" (of "OptionalParameter" (ty "RepresentationIdentifier")),
  fld "context_type" (of "OptionalParameter" (ty "StringPrimitive")),
  fld "coord_space_dimension" (of "OptionalParameter" (ty "DimensionCount")),
  fld "precision" (of "OptionalParameter" (ty "RealPrimitive")),
  typ "world_coord_system" [cs! "Axis2D", cs! "Axis3D"] (of "OptionalParameter" (ty "Id")),
  typ "true_north" [cs! "Axis2D", cs! "Axis3D"] (of "OptionalParameter" (ty "Id")),
  fld "parent_context" (of "TypedId" (ty "GeometricRepresentationContext")),
  fld "target_scale" (of "OptionalParameter" (ty "RealPrimitive")),
  fld "target_view" (ty "GeometricProjection"),
  fld "user_defined_target_view" (of "OptionalParameter" (ty "StringPrimitive"))]⟩

/-- geometry/shape_representation/mod.rs:49-66 -/
def dShapeRepresentation : Decl := ⟨cs! "ShapeRepresentation", .named [
  typ "context_of_items" [cs! "GeometricRepresentationSubContext", cs! "GeometricRepresentationContext"] (ty "Id"),
  fld "representation_identifier" (of "OptionalParameter" (ty "RepresentationIdentifier")),
  fld "representation_type" (of "OptionalParameter" (ty "RepresentationType")),
  typ "items" [cs! "ExtrudedAreaSolid", cs! "PolyLine", cs! "MappedItem"] (of "IfcList" (ty "Id"))]⟩

/-- geometry/transform_base.rs:22-35 -/
def dTransform3DBase : Decl := ⟨cs! "Transform3DBase", .named [
  fld "axis_x" (of "OptionalParameter" (of "IdOr" (ty "Direction3D"))),
  fld "axis_y" (of "OptionalParameter" (of "IdOr" (ty "Direction3D"))),
  fld "local_origin" (of "OptionalParameter" (of "IdOr" (ty "Point3D"))),
  fld "scale" (of "OptionalParameter" (ty "RealPrimitive")),
  fld "axis_z" (of "OptionalParameter" (of "IdOr" (ty "Direction3D")))]⟩

/-- geometry/uniform_transformations.rs:29-33 -/
def dCartesianTransformationOperator3D : Decl := ⟨cs! "CartesianTransformationOperator3D", .named [
  inh "base" (ty "Transform3DBase")]⟩

/-- materials/material.rs:17-29 -/
def dMaterial : Decl := ⟨cs! "Material", .named [
  fld "material" (of "OptionalParameter" (ty "StringPrimitive")),
  fld "description" (of "OptionalParameter" (ty "StringPrimitive")),
  fld "category" (of "OptionalParameter" (ty "StringPrimitive"))]⟩

/-- materials/material_constituent.rs:24-43 -/
def dMaterialConstituent : Decl := ⟨cs! "MaterialConstituent", .named [
  fld "name" (of "OptionalParameter" (ty "StringPrimitive")),
  fld "description" (of "OptionalParameter" (ty "StringPrimitive")),
  fld "material" (of "TypedId" (ty "Material")),
  fld "fraction" (of "OptionalParameter" (ty "RealPrimitive")),
  fld "category" (of "OptionalParameter" (ty "StringPrimitive"))]⟩

/-- materials/material_constituent_set.rs:21-31 -/
def dMaterialConstituentSet : Decl := ⟨cs! "MaterialConstituentSet", .named [
  fld "name" (of "OptionalParameter" (ty "StringPrimitive")),
  fld "description" (of "OptionalParameter" (ty "StringPrimitive")),
  fld "material_constituents" (of "IfcList" (of "TypedId" (ty "MaterialConstituent")))]⟩

/-- materials/material_layer.rs:21-70 -/
def dMaterialLayer : Decl := ⟨cs! "MaterialLayer", .named [
  fld "material" (of "OptionalParameter" (of "TypedId" (ty "Material"))),
  fld "layer_thickness" (ty "RealPrimitive"),
  fld "is_ventilated" (ty "BoolPrimitive"),
  fld "name" (of "OptionalParameter" (ty "StringPrimitive")),
  fld "description" (of "OptionalParameter" (ty "StringPrimitive")),
  fld "category" (of "OptionalParameter" (ty "StringPrimitive")),
  fld "priority" (of "OptionalParameter" (ty "IntegerPrimitive"))]⟩

/-- materials/material_layer_set.rs:19-30 -/
def dMaterialLayerSet : Decl := ⟨cs! "MaterialLayerSet", .named [
  fld "material_layers" (of "IfcList" (of "TypedId" (ty "MaterialLayer"))),
  fld "layer_set_name" (of "OptionalParameter" (ty "StringPrimitive")),
  fld "description" (of "OptionalParameter" (ty "StringPrimitive"))]⟩

/-- materials/material_layer_set_usage.rs:22-63 -/
def dMaterialLayerSetUsage : Decl := ⟨cs! "MaterialLayerSetUsage", .named [
  fld "spatial_element_structure" (of "TypedId" (ty "MaterialLayerSet")),
  fld "layer_set_direction" (ty "LayerSetDirectionEnum"),
  fld "direction_sense" (ty "DirectionSenseEnum"),
  fld "offset_from_reference_line" (ty "RealPrimitive"),
  fld "reference_extent" (of "OptionalParameter" (ty "RealPrimitive"))]⟩

/-- objects/actor_role/mod.rs:19-31 -/
def dActorRole : Decl := ⟨cs! "ActorRole", .named [
  fld "role" (ty "Role"),
  fld "user_defined_role" (of "OptionalParameter" (ty "StringPrimitive")),
  fld "description" (of "OptionalParameter" (ty "StringPrimitive"))]⟩

/-- objects/address/mod.rs:15-40 -/
def dTelecomAddress : Decl := ⟨cs! "TelecomAddress", .named [
  fld "purpose" (of "OptionalParameter" (ty "StringPrimitive")),
  fld "description" (of "OptionalParameter" (ty "StringPrimitive")),
  fld "user_defined_purpose" (of "OptionalParameter" (ty "StringPrimitive")),
  fld "telephone_numbers" (of "OptionalParameter" (of "IfcList" (ty "StringPrimitive"))),
  fld "facsimile_numbers" (of "OptionalParameter" (of "IfcList" (ty "StringPrimitive"))),
  fld "pager_number" (of "OptionalParameter" (ty "StringPrimitive")),
  fld "email_addresses" (of "OptionalParameter" (of "IfcList" (ty "StringPrimitive"))),
  fld "homepage_url" (of "OptionalParameter" (ty "StringPrimitive"))]⟩

/-- objects/address/mod.rs:48-76 -/
def dPostalAddress : Decl := ⟨cs! "PostalAddress", .named [
  fld "purpose" (of "OptionalParameter" (ty "StringPrimitive")),
  fld "description" (of "OptionalParameter" (ty "StringPrimitive")),
  fld "user_defined_purpose" (of "OptionalParameter" (ty "StringPrimitive")),
  fld "internal_location" (of "OptionalParameter" (ty "StringPrimitive")),
  fld "address_lines" (of "OptionalParameter" (of "IfcList" (ty "StringPrimitive"))),
  fld "postal_box" (of "OptionalParameter" (ty "StringPrimitive")),
  fld "town" (of "OptionalParameter" (of "IfcList" (ty "StringPrimitive"))),
  fld "region" (of "OptionalParameter" (ty "StringPrimitive")),
  fld "postal_code" (of "OptionalParameter" (ty "StringPrimitive")),
  fld "country" (of "OptionalParameter" (ty "StringPrimitive"))]⟩

/-- objects/application/mod.rs:13-24 -/
def dApplication : Decl := ⟨cs! "Application", .named [
  fld "application_developer" (of "TypedId" (ty "Organization")),
  fld "version" (ty "StringPrimitive"),
  fld "application_full_name" (ty "StringPrimitive"),
  fld "application_identifier" (ty "StringPrimitive")]⟩

/-- objects/building.rs:23-39 -/
def dBuilding : Decl := ⟨cs! "Building", .named [
  inh "spatial_element_structure" (ty "SpatialStructureElement"),
  fld "elevation_of_ref_height" (of "OptionalParameter" (ty "RealPrimitive")),
  fld "elevation_of_terrain" (of "OptionalParameter" (ty "RealPrimitive")),
  fld "building_address" (of "OptionalParameter" (of "TypedId" (ty "PostalAddress")))]⟩

/-- objects/door/mod.rs:98-127 -/
def dDoor : Decl := ⟨cs! "Door", .named [
  inh "element" (ty "Element"),
  fld "overall_height" (of "OptionalParameter" (ty "RealPrimitive")),
  fld "overall_width" (of "OptionalParameter" (ty "RealPrimitive")),
  fld "predefined_type" (of "OptionalParameter" (ty "DoorTypeEnum")),
  fld "operation_type" (of "OptionalParameter" (ty "DoorOperationTypeEnum")),
  fld "user_defining_operation_type" (of "OptionalParameter" (ty "StringPrimitive"))]⟩

/-- objects/doortype/mod.rs:38-61 -/
def dDoorType : Decl := ⟨cs! "DoorType", .named [
  inh "element_type" (ty "ElementType"),
  fld "predefined_type" (ty "DoorTypeEnum"),
  fld "operation_type" (ty "DoorOperationTypeEnum"),
  fld "parameter_takes_precedence" (of "OptionalParameter" (ty "BoolPrimitive")),
  fld "user_defined_partitioning_type" (of "OptionalParameter" (ty "StringPrimitive"))]⟩

/-- objects/opening_element/mod.rs:60-69 -/
def dOpeningElement : Decl := ⟨cs! "OpeningElement", .named [
  inh "element" (ty "Element"),
  fld "predefined_type" (of "OptionalParameter" (ty "OpeningElementTypeEnum"))]⟩

/-- objects/organization/mod.rs:15-28 -/
def dOrganization : Decl := ⟨cs! "Organization", .named [
  fld "id" (of "OptionalParameter" (ty "StringPrimitive")),
  fld "name" (ty "StringPrimitive"),
  fld "description" (of "OptionalParameter" (ty "StringPrimitive")),
  fld "roles" (of "OptionalParameter" (of "IfcList" (of "TypedId" (ty "ActorRole")))),
  typ "addresses" [cs! "TelecomAddress", cs! "PostalAddress"] (of "OptionalParameter" (of "IfcList" (ty "Id")))]⟩

/-- objects/owner_history/mod.rs:17-43 -/
def dOwnerHistory : Decl := ⟨cs! "OwnerHistory", .named [
  fld "owning_user" (of "OptionalParameter" (of "TypedId" (ty "PersonAndOrganization"))),
  fld "owning_application" (of "OptionalParameter" (of "TypedId" (ty "Application"))),
  fld "state" (of "OptionalParameter" (ty "AccessState")),
  fld "change_action" (ty "ChangeAction"),
  fld "last_modified_date" (of "OptionalParameter" (ty "IfcTimestamp")),
  fld "last_modifying_user" (of "OptionalParameter" (of "TypedId" (ty "PersonAndOrganization"))),
  fld "last_modifying_application" (of "OptionalParameter" (of "TypedId" (ty "Application"))),
  fld "creation_date" (ty "IfcTimestamp")]⟩

/-- objects/person/mod.rs:15-38 -/
def dPerson : Decl := ⟨cs! "Person", .named [
  fld "id" (of "OptionalParameter" (ty "StringPrimitive")),
  fld "family_name" (of "OptionalParameter" (ty "StringPrimitive")),
  fld "given_name" (of "OptionalParameter" (ty "StringPrimitive")),
  fld "middle_names" (of "OptionalParameter" (of "IfcList" (ty "StringPrimitive"))),
  fld "prefix_titles" (of "OptionalParameter" (of "IfcList" (ty "StringPrimitive"))),
  fld "suffix_titles" (of "OptionalParameter" (of "IfcList" (ty "StringPrimitive"))),
  fld "roles" (of "OptionalParameter" (of "IfcList" (of "TypedId" (ty "ActorRole")))),
  typ "addresses" [cs! "TelecomAddress", cs! "PostalAddress"] (of "OptionalParameter" (of "IfcList" (ty "Id")))]⟩

/-- objects/person_and_org/mod.rs:15-23 -/
def dPersonAndOrganization : Decl := ⟨cs! "PersonAndOrganization", .named [
  fld "the_person" (of "TypedId" (ty "Person")),
  fld "the_organization" (of "TypedId" (ty "Organization")),
  fld "roles" (of "OptionalParameter" (of "IfcList" (of "TypedId" (ty "ActorRole"))))]⟩

/-- objects/project.rs:22-26 -/
def dProject : Decl := ⟨cs! "Project", .named [
  inh "context" (ty "Context")]⟩

/-- objects/roof/mod.rs:40-51 -/
def dRoof : Decl := ⟨cs! "Roof", .named [
  inh "element" (ty "Element"),
  fld "predefined_type" (of "OptionalParameter" (ty "RoofTypeEnum"))]⟩

/-- objects/rooftype/mod.rs:20-28 -/
def dRoofType : Decl := ⟨cs! "RoofType", .named [
  inh "element_type" (ty "ElementType"),
  fld "predefined_type" (ty "RoofTypeEnum")]⟩

/-- objects/shading_device.rs:25-31 -/
def dShadingDevice : Decl := ⟨cs! "ShadingDevice", .named [
  inh "element" (ty "Element"),
  fld "predefined_type" (of "OptionalParameter" (ty "ShadingDeviceTypeEnum"))]⟩

/-- objects/shading_device_type.rs:25-33 -/
def dShadingDeviceType : Decl := ⟨cs! "ShadingDeviceType", .named [
  inh "element_type" (ty "ElementType"),
  fld "predefined_type" (ty "ShadingDeviceTypeEnum")]⟩

/-- objects/shared/context.rs:26-51 -/
def dContext : Decl := ⟨cs! "Context", .named [
  inh "root" (ty "Root"),
  fld "object_type" (of "OptionalParameter" (ty "StringPrimitive")),
  fld "long_name" (of "OptionalParameter" (ty "StringPrimitive")),
  fld "phase" (of "OptionalParameter" (ty "StringPrimitive")),
  fld "representation_context" (of "IfcList" (of "TypedId" (ty "GeometricRepresentationContext"))),
  fld "units_in_context" (of "OptionalParameter" (of "TypedId" (ty "UnitAssigment")))]⟩

/-- objects/shared/element.rs:20-29 -/
def dElement : Decl := ⟨cs! "Element", .named [
  inh "product" (ty "Product"),
  fld "tag" (of "OptionalParameter" (ty "StringPrimitive"))]⟩

/-- objects/shared/element_type.rs:22-33 -/
def dElementType : Decl := ⟨cs! "ElementType", .named [
  inh "type_product" (ty "TypeProduct"),
  fld "element_type" (of "OptionalParameter" (ty "StringPrimitive"))]⟩

/-- objects/shared/object.rs:19-29 -/
def dObject : Decl := ⟨cs! "Object", .named [
  inh "root" (ty "Root"),
  fld "object_type" (of "OptionalParameter" (ty "StringPrimitive"))]⟩

/-- objects/shared/product.rs:28-50 -/
def dProduct : Decl := ⟨cs! "Product", .named [
  inh "object" (ty "Object"),
  typ "object_placement" [cs! "Axis3D", cs! "Point3D", cs! "LocalPlacement"] (of "OptionalParameter" (ty "Id")),
  fld "representation" (of "OptionalParameter" (of "TypedId" (ty "ProductDefinitionShape")))]⟩

/-- objects/shared/rel_associates.rs:20-29 -/
def dRelAssociates : Decl := ⟨cs! "RelAssociates", .named [
  inh "root" (ty "Root"),
  fld "related_objects" (of "IfcList" (ty "Id"))]⟩

/-- objects/shared/root.rs:22-39 -/
def dRoot : Decl := ⟨cs! "Root", .named [
  fld "global_id" (ty "IfcGloballyUniqueId"),
  fld "owner_history" (of "OptionalParameter" (of "TypedId" (ty "OwnerHistory"))),
  fld "name" (of "OptionalParameter" (ty "StringPrimitive")),
  fld "description" (of "OptionalParameter" (ty "StringPrimitive"))]⟩

/-- objects/shared/spatial_element.rs:21-30 -/
def dSpatialElement : Decl := ⟨cs! "SpatialElement", .named [
  inh "product" (ty "Product"),
  fld "long_name" (of "OptionalParameter" (ty "StringPrimitive"))]⟩

/-- objects/shared/spatial_structure_element.rs:19-30 -/
def dSpatialStructureElement : Decl := ⟨cs! "SpatialStructureElement", .named [
  inh "spatial_element" (ty "SpatialElement"),
  fld "composition_type" (of "OptionalParameter" (ty "CompositionTypeEnum"))]⟩

/-- objects/shared/type_object.rs:23-46 -/
def dTypeObject : Decl := ⟨cs! "TypeObject", .named [
  inh "root" (ty "Root"),
  fld "applicable_occurence" (of "OptionalParameter" (ty "Id")),
  fld "has_property_sets" (of "OptionalParameter" (of "IfcList" (ty "Id")))]⟩

/-- objects/shared/type_product.rs:27-42 -/
def dTypeProduct : Decl := ⟨cs! "TypeProduct", .named [
  inh "type_object" (ty "TypeObject"),
  fld "representation_maps" (of "OptionalParameter" (of "IfcList" (of "TypedId" (ty "RepresentationMap")))),
  fld "tag" (of "OptionalParameter" (ty "StringPrimitive"))]⟩

/-- objects/site.rs:54-79 -/
def dSite : Decl := ⟨cs! "Site", .named [
  inh "spatial_element_structure" (ty "SpatialStructureElement"),
  fld "ref_latitude" (of "OptionalParameter" (of "IfcList" (ty "IntegerPrimitive"))),
  fld "ref_longitude" (of "OptionalParameter" (of "IfcList" (ty "IntegerPrimitive"))),
  fld "ref_elevation" (of "OptionalParameter" (ty "RealPrimitive")),
  fld "land_title_number" (of "OptionalParameter" (ty "StringPrimitive")),
  fld "site_address" (of "OptionalParameter" (of "TypedId" (ty "PostalAddress")))]⟩

/-- objects/slab/mod.rs:39-51 -/
def dSlab : Decl := ⟨cs! "Slab", .named [
  inh "element" (ty "Element"),
  fld "predefined_type" (of "OptionalParameter" (ty "SlabTypeEnum"))]⟩

/-- objects/slabtype/mod.rs:40-48 -/
def dSlabType : Decl := ⟨cs! "SlabType", .named [
  inh "element_type" (ty "ElementType"),
  fld "predefined_type" (ty "SlabTypeEnum")]⟩

/-- objects/space/mod.rs:42-56 -/
def dSpace : Decl := ⟨cs! "Space", .named [
  inh "spatial_element_structure" (ty "SpatialStructureElement"),
  fld "predefined_type" (of "OptionalParameter" (ty "SpaceTypeEnum")),
  fld "elevation_with_flooring" (of "OptionalParameter" (ty "RealPrimitive"))]⟩

/-- objects/spacetype/mod.rs:41-53 -/
def dSpaceType : Decl := ⟨cs! "SpaceType", .named [
  inh "element_type" (ty "ElementType"),
  fld "predefined_type" (ty "SpaceTypeEnum"),
  fld "long_name" (of "OptionalParameter" (ty "StringPrimitive"))]⟩

/-- objects/storey.rs:54-69 -/
def dStorey : Decl := ⟨cs! "Storey", .named [
  inh "spatial_element_structure" (ty "SpatialStructureElement"),
  fld "elevation" (of "OptionalParameter" (ty "RealPrimitive"))]⟩

/-- objects/wall/mod.rs:22-31 -/
def dWall : Decl := ⟨cs! "Wall", .named [
  inh "element" (ty "Element"),
  fld "predefined_type" (of "OptionalParameter" (of "IdOr" (ty "WallType")))]⟩

/-- objects/walltype/mod.rs:24-32 -/
def dWallType : Decl := ⟨cs! "WallType", .named [
  inh "element_type" (ty "ElementType"),
  fld "predefined_type" (ty "WallTypeEnum")]⟩

/-- objects/window/mod.rs:74-103 -/
def dWindow : Decl := ⟨cs! "Window", .named [
  inh "element" (ty "Element"),
  fld "overall_height" (of "OptionalParameter" (ty "RealPrimitive")),
  fld "overall_width" (of "OptionalParameter" (ty "RealPrimitive")),
  fld "predefined_type" (of "OptionalParameter" (ty "WindowTypeEnum")),
  fld "partitioning_type" (of "OptionalParameter" (ty "WindowPartitioningTypeEnum")),
  fld "user_defining_partitioning_type" (of "OptionalParameter" (ty "StringPrimitive"))]⟩

/-- objects/windowtype/mod.rs:43-66 -/
def dWindowType : Decl := ⟨cs! "WindowType", .named [
  inh "element_type" (ty "ElementType"),
  fld "predefined_type" (ty "WindowTypeEnum"),
  fld "partitioning_type" (ty "WindowPartitioningTypeEnum"),
  fld "parameter_takes_precedence" (of "OptionalParameter" (ty "BoolPrimitive")),
  fld "user_defined_partitioning_type" (of "OptionalParameter" (ty "StringPrimitive"))]⟩

/-- parser/dummy.rs:9-12 -/
def dDummy : Decl := ⟨cs! "Dummy", .named [
  fld "s" (ty "String")]⟩

/-- properties/base.rs:12-18 -/
def dPropertyBase : Decl := ⟨cs! "PropertyBase", .named [
  fld "name" (of "OptionalParameter" (ty "StringPrimitive")),
  fld "description" (of "OptionalParameter" (ty "StringPrimitive"))]⟩

/-- properties/extended_base.rs:16-24 -/
def dExtendedPropertyBase : Decl := ⟨cs! "ExtendedPropertyBase", .named [
  fld "name" (of "OptionalParameter" (ty "StringPrimitive")),
  fld "description" (of "OptionalParameter" (ty "StringPrimitive")),
  fld "properties" (of "IfcList" (ty "Id"))]⟩

/-- properties/material.rs:17-23 -/
def dMaterialProperties : Decl := ⟨cs! "MaterialProperties", .named [
  fld "base" (ty "ExtendedPropertyBase"),
  fld "material" (of "TypedId" (ty "Material"))]⟩

/-- properties/set.rs:32-41 -/
def dPropertySet : Decl := ⟨cs! "PropertySet", .named [
  fld "root" (ty "Root"),
  fld "properties" (of "IfcList" (of "TypedId" (ty "PropertySingleValue")))]⟩

/-- properties/single_value.rs:26-35 -/
def dPropertySingleValue : Decl := ⟨cs! "PropertySingleValue", .named [
  fld "base" (ty "PropertyBase"),
  fld "value" (ty "IfcValue"),
  fld "unit" (of "OptionalParameter" (ty "Id"))]⟩

/-- relations/mapped_item.rs:42-57 -/
def dMappedItem : Decl := ⟨cs! "MappedItem", .named [
  fld "source" (of "IdOr" (ty "RepresentationMap")),
  typ "target" [cs! "CartesianTransformationOperator3DnonUniform", cs! "CartesianTransformationOperator3D"] (ty "Id")]⟩

/-- relations/rel_aggregates.rs:20-36 -/
def dRelAggregates : Decl := ⟨cs! "RelAggregates", .named [
  fld "root" (ty "Root"),
  typ "relating_object" [cs! "Project", cs! "Site", cs! "Building", cs! "Storey"] (ty "Id"),
  typ "related_objects" [cs! "Site", cs! "Building", cs! "Storey", cs! "Space"] (of "IfcList" (ty "Id"))]⟩

/-- relations/rel_associates_material.rs:19-31 -/
def dRelAssociatesMaterial : Decl := ⟨cs! "RelAssociatesMaterial", .named [
  fld "rel_associates" (ty "RelAssociates"),
  typ "relating_material" [cs! "MaterialConstituentSet", cs! "MaterialLayerSetUsage", cs! "MaterialLayerSet", cs! "Material"] (ty "Id")]⟩

/-- relations/rel_contained_in_spatial_structure.rs:20-34 -/
def dRelContainedInSpatialStructure : Decl := ⟨cs! "RelContainedInSpatialStructure", .named [
  fld "root" (ty "Root"),
  typ "related_elements" [cs! "Site", cs! "Building", cs! "Storey", cs! "OpeningElement", cs! "Slab", cs! "Roof", cs! "Wall", cs! "Window", cs! "Door"] (of "IfcList" (ty "Id")),
  typ "relating_structure" [cs! "Site", cs! "Building", cs! "Storey", cs! "OpeningElement", cs! "Slab", cs! "Roof", cs! "Wall", cs! "Window", cs! "Door"] (ty "Id")]⟩

/-- relations/rel_declares.rs:20-30 -/
def dRelDeclares : Decl := ⟨cs! "RelDeclares", .named [
  fld "root" (ty "Root"),
  fld "relating_context" (of "TypedId" (ty "Project")),
  fld "related_definitions" (of "IfcList" (ty "Id"))]⟩

/-- relations/rel_defines_by_properties.rs:27-36 -/
def dRelDefinesByProperties : Decl := ⟨cs! "RelDefinesByProperties", .named [
  fld "root" (ty "Root"),
  fld "related_objects" (of "IfcList" (ty "Id")),
  fld "relating_property_definition" (ty "Id")]⟩

/-- relations/rel_defines_by_type.rs:23-31 -/
def dRelDefinesByType : Decl := ⟨cs! "RelDefinesByType", .named [
  fld "root" (ty "Root"),
  fld "related_objects" (of "IfcList" (ty "Id")),
  fld "relating_type" (ty "Id")]⟩

/-- relations/rel_fills_element.rs:18-27 -/
def dRelFillsElement : Decl := ⟨cs! "RelFillsElement", .named [
  fld "root" (ty "Root"),
  fld "relating_opening_element" (of "TypedId" (ty "OpeningElement")),
  typ "related_building_element" [cs! "Building", cs! "OpeningElement", cs! "Slab", cs! "Wall", cs! "Window", cs! "Door"] (ty "Id")]⟩

/-- relations/rel_voids_element.rs:21-31 -/
def dRelVoidsElement : Decl := ⟨cs! "RelVoidsElement", .named [
  fld "root" (ty "Root"),
  typ "relating_building_element" [cs! "Building", cs! "OpeningElement", cs! "Slab", cs! "Wall", cs! "Window"] (ty "Id"),
  fld "related_opening_element" (of "TypedId" (ty "OpeningElement"))]⟩

/-- relations/representation_map.rs:34-43 -/
def dRepresentationMap : Decl := ⟨cs! "RepresentationMap", .named [
  fld "origin" (of "IdOr" (ty "Axis3D")),
  fld "representation" (of "IdOr" (ty "ShapeRepresentation"))]⟩

/-- units/assignment.rs:18-23 -/
def dUnitAssigment : Decl := ⟨cs! "UnitAssigment", .named [
  typ "units" [cs! "SiUnit", cs! "ConversionBasedUnit", cs! "DerivedUnit", cs! "MonetaryUnit"] (of "IfcList" (ty "Id"))]⟩

/-- units/conversion_based_unit.rs:23-33 -/
def dConversionBasedUnit : Decl := ⟨cs! "ConversionBasedUnit", .named [
  inh "named_unit" (ty "NamedUnit"),
  fld "name" (of "OptionalParameter" (ty "ConversionUnitName")),
  fld "conversion_factor" (of "OptionalParameter" (of "IdOr" (ty "MeasureWithUnit")))]⟩

/-- units/derived_unit.rs:15-25 -/
def dDerivedUnit : Decl := ⟨cs! "DerivedUnit", .named [
  fld "elements" (of "IfcList" (of "TypedId" (ty "DerivedUnitElement"))),
  fld "unit_type" (ty "DerivedUnitEnum"),
  fld "user_defined_type" (of "OptionalParameter" (ty "StringPrimitive"))]⟩

/-- units/derived_unit_element.rs:13-20 -/
def dDerivedUnitElement : Decl := ⟨cs! "DerivedUnitElement", .named [
  fld "unit" (of "TypedId" (ty "SiUnit")),
  fld "exponent" (ty "IntegerPrimitive")]⟩

/-- units/dimensional_exponents.rs:31-47 -/
def dDimensionalExponents : Decl := ⟨cs! "DimensionalExponents", .named [
  fld "length" (ty "ExponentType"),
  fld "mass" (ty "ExponentType"),
  fld "time" (ty "ExponentType"),
  fld "electric_current" (ty "ExponentType"),
  fld "thermodynamic_temperature" (ty "ExponentType"),
  fld "amount_of_substance" (ty "ExponentType"),
  fld "luminouse_intensity" (ty "ExponentType")]⟩

/-- units/measure/plane_angle.rs:13-16 -/
def dPlaneAngleMeasure : Decl := ⟨cs! "PlaneAngleMeasure", .named [
  fld "value" (ty "RealPrimitive")]⟩

/-- units/measure_with_unit.rs:18-25 -/
def dMeasureWithUnit : Decl := ⟨cs! "MeasureWithUnit", .named [
  fld "value" (of "IdOr" (ty "PlaneAngleMeasure")),
  fld "unit" (of "TypedId" (ty "SiUnit"))]⟩

/-- units/monetary_unit.rs:11-16 -/
def dMonetaryUnit : Decl := ⟨cs! "MonetaryUnit", .named [
  fld "currency" (ty "StringPrimitive")]⟩

/-- units/shared/named_unit.rs:10-17 -/
def dNamedUnit : Decl := ⟨cs! "NamedUnit", .named [
  fld "dimensions" (of "OptionalParameter" (ty "Id")),
  fld "unit_type" (of "OptionalParameter" (ty "IfcUnitEnum"))]⟩

/-- units/si_unit.rs:18-28 -/
def dSiUnit : Decl := ⟨cs! "SiUnit", .named [
  inh "named_unit" (ty "NamedUnit"),
  fld "prefix" (of "OptionalParameter" (ty "IfcPrefix")),
  fld "name" (ty "IfcUnitName")]⟩

/-- all of them -/
def crate : Crate := [
  dArbitraryClosedProfileDef, dAxis2D, dAxis3D, dDirection2D, dDirection3D, dExtrudedAreaSolid, dIndexedPolyCurve,
  dLocalPlacement, dCartesianTransformationOperator3DnonUniform, dPoint2D, dPoint3D, dPointList2D, dPointList3D,
  dPolyLine, dProductDefinitionShape, dRectangleProfileDef, dGeometricRepresentationContext,
  dGeometricRepresentationSubContext, dShapeRepresentation, dTransform3DBase, dCartesianTransformationOperator3D,
  dMaterial, dMaterialConstituent, dMaterialConstituentSet, dMaterialLayer, dMaterialLayerSet, dMaterialLayerSetUsage,
  dActorRole, dTelecomAddress, dPostalAddress, dApplication, dBuilding, dDoor, dDoorType, dOpeningElement, dOrganization,
  dOwnerHistory, dPerson, dPersonAndOrganization, dProject, dRoof, dRoofType, dShadingDevice, dShadingDeviceType,
  dContext, dElement, dElementType, dObject, dProduct, dRelAssociates, dRoot, dSpatialElement, dSpatialStructureElement,
  dTypeObject, dTypeProduct, dSite, dSlab, dSlabType, dSpace, dSpaceType, dStorey, dWall, dWallType, dWindow,
  dWindowType, dDummy, dPropertyBase, dExtendedPropertyBase, dMaterialProperties, dPropertySet, dPropertySingleValue,
  dMappedItem, dRelAggregates, dRelAssociatesMaterial, dRelContainedInSpatialStructure, dRelDeclares,
  dRelDefinesByProperties, dRelDefinesByType, dRelFillsElement, dRelVoidsElement, dRepresentationMap, dUnitAssigment,
  dConversionBasedUnit, dDerivedUnit, dDerivedUnitElement, dDimensionalExponents, dPlaneAngleMeasure, dMeasureWithUnit,
  dMonetaryUnit, dNamedUnit, dSiUnit]

end Verif.Derive
