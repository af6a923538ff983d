import Verif.Model.DataMap
/-
The derive macro `IfcVerify` (crate ifc_rs_verify_derive): from the declaration of a struct to the checks its generated
`verify_id_types` performs.  Paths are relative to /repo/ifc_rs_verify_derive/src.

Panics of the macro (compile errors of the crate that uses it) are explicit.  Left out: generics and where clauses, which are passed
through unchanged, and the wording of messages.
-/
namespace Verif.Derive
open Verif

/-- `syn::Type` as far as the macro looks at it: first segment of a path with its arguments in angle brackets, if any, or a type
that is no path.  Further segments are never looked at (data_type.rs:23, 86, 98). A generic argument that is no type is `other`. -/
inductive RTy where
  | path (name : Str) (args : Option (List RTy))
  | other

/-- data_type.rs:6-13; token streams of arguments are kept as the arguments -/
inductive IdOrList where
  | id
  | list
  | typedId (t : List RTy)
  | typedIdList (t : List RTy)
  | idOr (t : List RTy)
  | idOrList (t : List RTy)

/-- data_type.rs:16-69 -/
def IdOrList.checkSegment (name : Str) (args : Option (List RTy)) : Ret (Option IdOrList) :=
  if name = cs! "Id" then .val (some .id)
  else if name = cs! "IfcList" then
    match args with
    | none => .panic
    | some as => .val <| match as.head? with
      | some (.path n a) =>
        if n = cs! "Id" then some .list
        else if n = cs! "TypedId" then a.map .typedIdList
        else if n = cs! "IdOr" then a.map .idOrList
        else none
      | _ => none
  else if name = cs! "TypedId" then
    match args with
    | none => .panic
    | some as => .val (some (.typedId as))
  else if name = cs! "IdOr" then
    match args with
    | none => .panic
    | some as => .val (some (.idOr as))
  else .val none

/-- data_type.rs:71-73 -/
def IdOrList.needsArguments : IdOrList → Bool
  | .id => true
  | .list => true
  | _ => false

/-- data_type.rs:77-80 -/
inductive DataType where
  | id (t : IdOrList)
  | optionalParameter (t : IdOrList)

/-- data_type.rs:83-116; `or_else` is only entered if the segment is none of the four -/
def DataType.new : RTy → Ret (Option DataType)
  | .other => .val none
  | .path name args =>
    match IdOrList.checkSegment name args with
    | .panic => .panic
    | .val (some t) => .val (some (.id t))
    | .val none =>
      if name = cs! "OptionalParameter" then
        match args with
        | none => .panic
        | some as =>
          match as.head? with
          | some (.path n a) =>
            match IdOrList.checkSegment n a with
            | .panic => .panic
            | .val t => .val (t.map .optionalParameter)
          | _ => .val none
      else .val none

/-- data_type.rs:118-123 -/
def DataType.needsArguments : DataType → Bool
  | .id t => t.needsArguments
  | .optionalParameter t => t.needsArguments

/-- an attribute of a field: `ifc_types` with its arguments, `none` if they are no list of identifiers; `inherited`; another -/
inductive Attr where
  | ifcTypes (args : Option (List Str))
  | inherited
  | foreign

/-- field.rs:11-14 -/
inductive TokenType where
  | types (l : List Str)
  | inherited

/-- field.rs:17-22 -/
def TokenType.isInherited : TokenType → Bool
  | .types _ => false
  | .inherited => true

/-- lib.rs:59-67: arguments that cannot be parsed are dropped without a message -/
def Attr.token : Attr → Option TokenType
  | .ifcTypes args => args.map .types
  | .inherited => some .inherited
  | .foreign => none

/-- field.rs:45-48; the second case is `unreachable!` and is not reached, see `merge` -/
def TokenType.list : TokenType → List Str
  | .types l => l
  | .inherited => []

/-- field.rs:31-52 -/
def TokenType.merge (tt : List TokenType) : Ret TokenType :=
  if !(tt.all fun t => !t.isInherited) && !(tt.all fun t => t.isInherited) then .panic
  else match tt with
    | [] => .val (.types [])
    | .inherited :: _ => .val .inherited
    | .types _ :: _ => .val (.types (tt.flatMap TokenType.list))

/-- a named field of a struct -/
structure FieldDecl where
  name : Str
  attrs : List Attr
  ty : RTy

/-- field.rs:68-73 without the name of the struct, which only occurs in messages -/
structure Field where
  var : Str
  types : List Str
  dataType : DataType

/-- lib.rs:13-16 -/
inductive FieldType where
  | normal (f : Field)
  | inherited (var : Str)

/-- lib.rs:55-96 -/
def fieldType (d : FieldDecl) : Ret (Option FieldType) :=
  match TokenType.merge (d.attrs.filterMap Attr.token) with
  | .panic => .panic
  | .val (.types types) =>
    match DataType.new d.ty with
    | .panic => .panic
    | .val none => .val none
    | .val (some t) => .val (if t.needsArguments && types.isEmpty then none else some (.normal ⟨d.name, types, t⟩))
  | .val .inherited => .val (some (.inherited d.name))

/-- what the macro is put on -/
inductive Data where
  | named (l : List FieldDecl)
  | unnamed
  | unit
  | enum
  | union

/-- `filter_map` with a closure that may panic -/
def filterMapR {α β : Type} (f : α → Ret (Option β)) : List α → Ret (List β)
  | [] => .val []
  | a :: l => match f a with
    | .panic => .panic
    | .val b => match filterMapR f l with
      | .panic => .panic
      | .val r => .val (b.toList ++ r)

/-- lib.rs:18-32, 50-109, 126-132: the calls of the generated `verify_id_types`, in order: inherited parts, then checks of fields -/
def expand (d : Data) : Ret (List Str × List Field) :=
  match d with
  | .named l => match filterMapR fieldType l with
    | .panic => .panic
    | .val ts => .val (ts.filterMap fun t => match t with | .inherited n => some n | .normal _ => none,
        ts.filterMap fun t => match t with | .normal f => some f | .inherited _ => none)
  | .unnamed => .val ([], [])
  | .unit => .panic
  | .enum => .panic
  | .union => .panic

/-- the one type named by the tokens between angle brackets -/
def typeName : List RTy → Option Str
  | [.path n none] => some n
  | _ => none

/-- field.rs:80-137: what a check demands: the entry under this id is of one of these types or a `Dummy` -/
abbrev Demand := Nat × List Str

/-- field.rs:202-206, 216-220 -/
def idOrDemand {α : Type} (x : Str) : IdOr α → List Demand
  | .id n => [(n, [x])]
  | .custom _ => []

/-- field.rs:145-227: demands on a field of a plain type, ids in order; `none` if the code generated does not fit the type of the
field and would not compile -/
def IdOrList.demands (types : List Str) : IdOrList → (f : Fld) → f.Val → Option (List Demand)
  | .id, .ref _, n => some [(n, types)]
  | .list, .list (.ref _), l => some (List.map (fun n => (n, types)) l)
  | .typedId t, .ref _, n => (typeName t).map fun x => [(n, [x])]
  | .typedIdList t, .list (.ref _), l => (typeName t).map fun x => List.map (fun n => (n, [x])) l
  | .idOr t, .idOr _ _, v => (typeName t).map fun x => idOrDemand x v
  | .idOrList t, .list (.idOr _ _), l => (typeName t).map fun x => List.flatMap (idOrDemand x) l
  | _, _, _ => none

/-- field.rs:141-334; `OptionalParameter` looks inside what is given -/
def Field.demands (x : Field) : (f : Fld) → f.Val → Option (List Demand) := fun f v =>
  match x.dataType with
  | .id t => t.demands x.types f v
  | .optionalParameter t => match f, v with
    | .opt g, v => match v with
      | .custom a => t.demands x.types g a
      | _ => some []
    | _, _ => none

/-- a declaration with `#[derive(IfcVerify)]` -/
structure Decl where
  name : Str
  data : Data

/-- named fields -/
def Data.fields : Data → List FieldDecl
  | .named l => l
  | _ => []

/-- all declarations -/
abbrev Crate := List Decl

/-- the declaration a name stands for -/
def Crate.data (c : Crate) (n : Str) : Option Data := (c.find? fun d => d.name = n).map Decl.data

/-- How many attributes of the written entity a field stands for: those of the struct it embeds, else one.  The four structs with
unnamed fields have one each.  (Not in the code: it ties a field to its place in `parts`.  The fields of each struct are read and
written in the order of their declaration.)  `n` bounds the depth of embedding. -/
def Crate.width (c : Crate) : Nat → RTy → Nat
  | 0, _ => 1
  | n + 1, .path x none => match c.data x with
    | some (.named l) => (l.map fun d => c.width n d.ty).sum
    | _ => 1
  | _ + 1, _ => 1

/-- each field with its type and its place -/
def places (w : RTy → Nat) : Nat → List FieldDecl → List (Str × RTy × Nat)
  | _, [] => []
  | i, d :: l => (d.name, d.ty, i) :: places w (i + w d.ty) l

/-- `mapM` of `Option`, spelt out -/
def collect {α β : Type} (f : α → Option β) : List α → Option (List β)
  | [] => some []
  | a :: l => match f a, collect f l with
    | some b, some r => some (b :: r)
    | _, _ => none

/-- lib.rs:124-136: the checks performed by `verify_id_types` of struct `x`, whose attributes begin at place `i`; `none` if the
macro panics or the code does not compile.  `n` bounds the depth of embedding. -/
def Crate.plan (c : Crate) : Nat → Str → Nat → Option (List (Nat × Field))
  | 0, _, _ => none
  | n + 1, x, i => match c.data x with
    | none => none
    | some d => match expand d with
      | .panic => none
      | .val (inherited, fields) =>
        let at_ := places (c.width n) i d.fields
        let a := collect (fun v => match at_.lookup v with
          | some (.path y none, j) => c.plan n y j
          | _ => none) inherited
        let b := collect (fun f : Field => (at_.lookup f.var).map fun x => (x.2, f)) fields
        match a, b with
        | some a, some b => some (a.flatten ++ b)
        | _, _ => none

/-- the demands of `verify_id_types` of struct `x` on a value with these attributes -/
def Crate.demands (c : Crate) (x : Str) (v : List ((f : Fld) × f.Val)) : Option (List Demand) :=
  match c.plan c.length x 0 with
  | none => none
  | some p => (collect (fun jf : Nat × Field => match v[jf.1]? with
      | some y => jf.2.demands y.1 y.2
      | none => none) p).map List.flatten

/-- name of the struct of a kind -/
def structName : Kind → Str
  | .ActorRole => cs! "ActorRole"
  | .PostalAddress => cs! "PostalAddress"
  | .TelecomAddress => cs! "TelecomAddress"
  | .Application => cs! "Application"
  | .Organization => cs! "Organization"
  | .OwnerHistory => cs! "OwnerHistory"
  | .Person => cs! "Person"
  | .PersonAndOrganization => cs! "PersonAndOrganization"
  | .Wall => cs! "Wall"
  | .WallType => cs! "WallType"
  | .Slab => cs! "Slab"
  | .SlabType => cs! "SlabType"
  | .Roof => cs! "Roof"
  | .RoofType => cs! "RoofType"
  | .Building => cs! "Building"
  | .Storey => cs! "Storey"
  | .Site => cs! "Site"
  | .OpeningElement => cs! "OpeningElement"
  | .Window => cs! "Window"
  | .WindowType => cs! "WindowType"
  | .Project => cs! "Project"
  | .Space => cs! "Space"
  | .SpaceType => cs! "SpaceType"
  | .Door => cs! "Door"
  | .DoorType => cs! "DoorType"
  | .ShadingDevice => cs! "ShadingDevice"
  | .ShadingDeviceType => cs! "ShadingDeviceType"
  | .ArbitraryClosedProfileDef => cs! "ArbitraryClosedProfileDef"
  | .Axis2D => cs! "Axis2D"
  | .Axis3D => cs! "Axis3D"
  | .Direction2D => cs! "Direction2D"
  | .Direction3D => cs! "Direction3D"
  | .ExtrudedAreaSolid => cs! "ExtrudedAreaSolid"
  | .IndexedPolyCurve => cs! "IndexedPolyCurve"
  | .Point2D => cs! "Point2D"
  | .Point3D => cs! "Point3D"
  | .PointList2D => cs! "PointList2D"
  | .PointList3D => cs! "PointList3D"
  | .PolyLine => cs! "PolyLine"
  | .ProductDefinitionShape => cs! "ProductDefinitionShape"
  | .RectangleProfileDef => cs! "RectangleProfileDef"
  | .GeometricRepresentationContext => cs! "GeometricRepresentationContext"
  | .GeometricRepresentationSubContext => cs! "GeometricRepresentationSubContext"
  | .ShapeRepresentation => cs! "ShapeRepresentation"
  | .LocalPlacement => cs! "LocalPlacement"
  | .NonUniformTransform => cs! "CartesianTransformationOperator3DnonUniform"
  | .UniformTransform => cs! "CartesianTransformationOperator3D"
  | .RelAggregates => cs! "RelAggregates"
  | .RelAssociatesMaterial => cs! "RelAssociatesMaterial"
  | .RelContainedInSpatialStructure => cs! "RelContainedInSpatialStructure"
  | .RelDeclares => cs! "RelDeclares"
  | .RelDefinesByType => cs! "RelDefinesByType"
  | .RelDefinesByProperties => cs! "RelDefinesByProperties"
  | .RelVoidsElement => cs! "RelVoidsElement"
  | .RelFillsElement => cs! "RelFillsElement"
  | .MappedItem => cs! "MappedItem"
  | .RepresentationMap => cs! "RepresentationMap"
  | .UnitAssigment => cs! "UnitAssigment"
  | .ConversionBasedUnit => cs! "ConversionBasedUnit"
  | .SiUnit => cs! "SiUnit"
  | .DimensionalExponents => cs! "DimensionalExponents"
  | .MeasureWithUnit => cs! "MeasureWithUnit"
  | .PlaneAngleMeasure => cs! "PlaneAngleMeasure"
  | .DerivedUnit => cs! "DerivedUnit"
  | .DerivedUnitElement => cs! "DerivedUnitElement"
  | .MonetaryUnit => cs! "MonetaryUnit"
  | .MaterialLayerSetUsage => cs! "MaterialLayerSetUsage"
  | .MaterialLayerSet => cs! "MaterialLayerSet"
  | .MaterialLayer => cs! "MaterialLayer"
  | .Material => cs! "Material"
  | .MaterialConstituent => cs! "MaterialConstituent"
  | .MaterialConstituentSet => cs! "MaterialConstituentSet"
  | .MaterialProperties => cs! "MaterialProperties"
  | .PropertySet => cs! "PropertySet"
  | .PropertySingleValue => cs! "PropertySingleValue"

/-- field.rs:80-137 with meta/datamap/mod.rs:54-56: outcome of one demand -/
def meet (m : DataMap) (d : Demand) : Verdict :=
  match m.getUntyped d.1 with
  | .panic => .panic
  | .val (.dummy _) => .good
  | .val (.known k _) => if structName k ∈ d.2 then .good else .bad

/-- all demands in order, the first failure ends it (`?`) -/
def meetAll (m : DataMap) (l : List Demand) : Verdict := l.foldr (fun d v => (meet m d).andThen v) .good

end Verif.Derive
