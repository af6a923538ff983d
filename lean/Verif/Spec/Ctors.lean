import Verif.Model.Ctors
import Verif.Spec.Setters
import Mathlib.Data.List.Forall2
/-
Specification vocabulary: what the attributes of a value just made are.
-/
namespace Verif.Setters
open Verif Schema

/-- The attribute a parameter of the functions making values of a type is for: the one of its own name, but for some. -/
def attrFor (k : Kind) (par : Str) : Str :=
  match k with
  | .Organization => if par = cs! "id" then cs! "Identification" else camel par
  | .MaterialLayerSetUsage => if par = cs! "spatial_element_structure" then cs! "ForLayerSet" else camel par
  | .PropertySet => if par = cs! "properties" then cs! "HasProperties" else camel par
  | .PropertySingleValue => if par = cs! "value" then cs! "NominalValue" else camel par
  | .RelAggregates =>
    if par = cs! "parent" then cs! "RelatingObject" else if par = cs! "children" then cs! "RelatedObjects" else camel par
  | .RelAssociatesMaterial => if par = cs! "material_layer_set" then cs! "RelatingMaterial" else camel par
  | .RelDeclares => if par = cs! "project" then cs! "RelatingContext" else camel par
  | .RelDefinesByProperties =>
    if par = cs! "relating_propert_definition" then cs! "RelatingPropertyDefinition" else camel par
  | .RelVoidsElement => if par = cs! "relating_opening_element" then cs! "RelatedOpeningElement" else camel par
  | .RelFillsElement => if par = cs! "relating_building_element" then cs! "RelatedBuildingElement" else camel par
  | .RepresentationMap => if par = cs! "origin" then cs! "MappingOrigin" else cs! "MappedRepresentation"
  | .MappedItem => if par = cs! "source" then cs! "MappingSource" else cs! "MappingTarget"
  | .Point2D | .Point3D => cs! "Coordinates"
  | .Direction2D | .Direction3D => cs! "DirectionRatios"
  | .Axis2D | .Axis3D => cs! "Location"
  | .GeometricRepresentationContext =>
    if par = cs! "world_coord_system" then cs! "WorldCoordinateSystem" else cs! "CoordinateSpaceDimension"
  | .GeometricRepresentationSubContext => if par = cs! "context" then cs! "ParentContext" else camel par
  | .IndexedPolyCurve => cs! "Points"
  | .UniformTransform | .NonUniformTransform =>
    if par = cs! "axis_x" then cs! "Axis1" else if par = cs! "axis_y" then cs! "Axis2"
    else if par = cs! "axis_z" then cs! "Axis3" else if par = cs! "scale_y" then cs! "Scale2"
    else if par = cs! "scale_z" then cs! "Scale3" else camel par
  | .ShapeRepresentation =>
    if par = cs! "context" then cs! "ContextOfItems" else if par = cs! "identifier" then cs! "RepresentationIdentifier"
    else cs! "RepresentationType"
  | _ => camel par

/-- What an attribute nothing was passed for is: `$`, an empty list, or `*`.  Contexts are for the bodies of models. -/
def unset (k : Kind) (n : Str) : Str :=
  if k ∈ [Kind.GeometricRepresentationContext, .GeometricRepresentationSubContext] ∧ n = cs! "ContextIdentifier" then
    cs! "'Body'"
  else if k ∈ [Kind.GeometricRepresentationContext, .GeometricRepresentationSubContext] ∧ n = cs! "ContextType" then
    cs! "'Model'"
  else if k = .Project ∧ n = cs! "RepresentationContexts" then cs! "()"
  else if k = .MaterialConstituentSet ∧ n = cs! "MaterialConstituents" then cs! "()"
  else match (Standard.attributes k).lookup n with
    | some (.list _) => cs! "()"
    | some .derived => cs! "*"
    | _ => cs! "$"

/-- where an attribute comes from -/
inductive Src where
  /-- the global id drawn -/
  | drawn
  /-- the argument at this position -/
  | par (i : Nat)
  | fixed (s : Str)
  deriving DecidableEq

def source (k : Kind) (pars : List Str) (n : Str) : Src :=
  if n = cs! "GlobalId" then .drawn
  else match pars.findIdx? (fun p => attrFor k p = n) with
    | some i => .par i
    | none => .fixed (unset k n)

/-- the text an attribute of a value just made has, given the texts of the arguments -/
def fromSource (g : Guid) (ts : List Str) : Src → Option Str
  | .drawn => some (Fld.guid.print g)
  | .par i => ts[i]?
  | .fixed s => some s

/-- there are fewer than so many ids left, counting on from the largest one stored -/
def NoRoom (m : DataMap) (n : Nat) : Prop := 0 < n ∧ ((∃ i, 2 ^ 64 ≤ i + n ∧ m.lookup i ≠ none) ∨ 2 ^ 64 ≤ n)

/-- the text written for an argument -/
def ParSays (m m' : DataMap) : (p : Par) → p.Val → Str → Prop
  | .one a, x, t => Says m m' a x t
  | .each a, xs, t => ∃ ts, List.Forall₂ (Says m m' a) xs ts ∧ t = '(' :: (commas ts ++ [')'])
  | .option f, x, t => t = match x with
    | none => cs! "$"
    | some y => f.print y
  | .flag, b, t => t = if b then cs! ".TRUE." else cs! ".FALSE."
  | .typed _, n, t => t = '#' :: natStr n
  | .typeds _, ns, t => t = '(' :: (commas (ns.map fun n => '#' :: natStr n) ++ [')'])

/-- the texts written for the arguments -/
def AllSay (m m' : DataMap) : (ps : Pars) → Args ps → List Str → Prop
  | [], _, ts => ts = []
  | p :: ps, x, ts => ∃ t us, ts = t :: us ∧ ParSays m m' p.2 x.1 t ∧ AllSay m m' ps x.2 us

/-- the entities that come with an argument -/
def parGiven : (p : Par) → p.Val → List Entity
  | .one a, x => given a x
  | .each a, xs => xs.flatMap (given a)
  | _, _ => []

/-- the entities that come with the arguments, in order -/
def allGiven : (ps : Pars) → Args ps → List Entity
  | [], _ => []
  | p :: ps, x => parGiven p.2 x.1 ++ allGiven ps x.2

end Verif.Setters
