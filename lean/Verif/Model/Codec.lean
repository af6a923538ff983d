import Verif.Model.Prim
import Verif.Model.F64
/-
Generic model of attribute and entity readers/writers.

Every entity of the crate is read by `seq!{ KEYWORD( field , field … ); }` and written by a `Display` with the same
shape.  `Fld` is the type of such descriptions; `Fld.parse`, `Fld.print` and `Fld.checks` give the reader,
the writer and the references checked by the derived `IfcVerify`.  The rows (one per Rust struct) are in
`Model/Schema.lean`.
-/
namespace Verif

/-- The Rust types a reference can point to (`TypeId` of the stored box); `Dummy` is kept apart. -/
inductive Kind where
  -- objects/mod.rs:57-91
  | ActorRole | PostalAddress | TelecomAddress | Application | Organization | OwnerHistory | Person
  | PersonAndOrganization | Wall | WallType | Slab | SlabType | Roof | RoofType | Building | Storey | Site
  | OpeningElement | Window | WindowType | Project | Space | SpaceType | Door | DoorType | ShadingDevice
  | ShadingDeviceType
  -- geometry/mod.rs:32-57
  | ArbitraryClosedProfileDef | Axis2D | Axis3D | Direction2D | Direction3D | ExtrudedAreaSolid
  | IndexedPolyCurve | Point2D | Point3D | PointList2D | PointList3D | PolyLine | ProductDefinitionShape
  | RectangleProfileDef | GeometricRepresentationContext | GeometricRepresentationSubContext
  | ShapeRepresentation | LocalPlacement | NonUniformTransform | UniformTransform
  -- relations/mod.rs:22-37
  | RelAggregates | RelAssociatesMaterial | RelContainedInSpatialStructure | RelDeclares | RelDefinesByType
  | RelDefinesByProperties | RelVoidsElement | RelFillsElement | MappedItem | RepresentationMap
  -- units/mod.rs:24-38
  | UnitAssigment | ConversionBasedUnit | SiUnit | DimensionalExponents | MeasureWithUnit | PlaneAngleMeasure
  | DerivedUnit | DerivedUnitElement | MonetaryUnit
  -- materials/mod.rs:20-31
  | MaterialLayerSetUsage | MaterialLayerSet | MaterialLayer | Material | MaterialConstituent
  | MaterialConstituentSet
  -- properties/mod.rs:14-22
  | MaterialProperties | PropertySet | PropertySingleValue
  deriving DecidableEq, Repr

/-- parser/optional.rs:9-14 `OptionalParameter<T>` -/
inductive Opt (α : Type) where
  | omitted
  | inherited
  | custom (a : α)
  deriving DecidableEq, Repr

/-- id/id_or.rs:11-17 `IdOr<T>` -/
inductive IdOr (α : Type) where
  | id (n : Nat)
  | custom (a : α)
  deriving DecidableEq, Repr

/-- values/core.rs:16-23 `IfcValue` -/
inductive Value where
  | bool (b : Tri)
  | label (s : Str)
  | real (r : F64)
  | identifier (s : Str)
  | thermal (r : F64)
  deriving DecidableEq, Repr

/-- Field grammars.  `ref (some ks)`: `TypedId<K>` (`ks = [K]`) or `Id` with `#[ifc_types(ks)]`;
`ref none`: `Id` without attribute (never checked, ifc_rs_verify_derive/src/lib.rs:79-81). -/
inductive Fld where
  | ref (chk : Option (List Kind))
  | real
  | int
  | int32
  | bool
  | str
  | guid
  | time
  | value
  | enum (names : List Str)
  | vec2
  | vec3
  | opt (f : Fld)
  | optDim (names : List Str)
  | list (f : Fld)
  | idOr (k : Kind) (f : Fld)
  | seq (f g : Fld)
  | ent (kws : List Str) (spaced : Bool) (body : Fld) (close : Str)

namespace Fld

/-- the Rust value of a field -/
@[reducible] def Val : Fld → Type
  | ref _ => Nat
  | real => F64
  | int => Int
  | int32 => Int
  | bool => Tri
  | str => Str
  | guid => Guid
  | time => Stamp
  | value => Value
  | enum t => Fin t.length
  | vec2 => F64 × F64
  | vec3 => F64 × F64 × F64
  | opt f => Opt f.Val
  | optDim t => Opt (Fin t.length)
  | list f => List f.Val
  | idOr _ f => IdOr f.Val
  | seq f g => f.Val × g.Val
  | ent _ _ b _ => b.Val

def decEqVal : (f : Fld) → DecidableEq f.Val
  | ref _ => inferInstanceAs (DecidableEq Nat)
  | real => inferInstanceAs (DecidableEq F64)
  | int => inferInstanceAs (DecidableEq Int)
  | int32 => inferInstanceAs (DecidableEq Int)
  | bool => inferInstanceAs (DecidableEq Tri)
  | str => inferInstanceAs (DecidableEq Str)
  | guid => inferInstanceAs (DecidableEq Guid)
  | time => inferInstanceAs (DecidableEq Stamp)
  | value => inferInstanceAs (DecidableEq Value)
  | enum t => inferInstanceAs (DecidableEq (Fin t.length))
  | vec2 => inferInstanceAs (DecidableEq (F64 × F64))
  | vec3 => inferInstanceAs (DecidableEq (F64 × F64 × F64))
  | opt f => have := decEqVal f; inferInstanceAs (DecidableEq (Opt f.Val))
  | optDim t => inferInstanceAs (DecidableEq (Opt (Fin t.length)))
  | list f => have := decEqVal f; inferInstanceAs (DecidableEq (List f.Val))
  | idOr _ f => have := decEqVal f; inferInstanceAs (DecidableEq (IdOr f.Val))
  | seq f g => have := decEqVal f; have := decEqVal g; inferInstanceAs (DecidableEq (f.Val × g.Val))
  | ent _ _ b _ => decEqVal b

instance (f : Fld) : DecidableEq f.Val := decEqVal f

end Fld

/-- The `alt(variants.map(..))` of every enumeration, giving the variant's index
(e.g. objects/slabtype/type_enum.rs:41-54). -/
def pEnum (t : List Str) : P (Fin t.length) :=
  sp (pTable ((List.finRange t.length).map fun i => (t.get i, i)))

/-- parser/geometry.rs:8-19 `p_vec2` -/
def pVec2 : P (F64 × F64) :=
  (sp (lit (cs! "("))).bind fun _ =>
  pFloat.bind fun x =>
  comma.bind fun _ =>
  pFloat.bind fun y =>
  (sp (lit (cs! ")"))).map fun _ => (x, y)

/-- parser/geometry.rs:21-34 `p_vec3` -/
def pVec3 : P (F64 × F64 × F64) :=
  (sp (lit (cs! "("))).bind fun _ =>
  pFloat.bind fun x =>
  comma.bind fun _ =>
  pFloat.bind fun y =>
  comma.bind fun _ =>
  pFloat.bind fun z =>
  (sp (lit (cs! ")"))).map fun _ => (x, y, z)

/-- parser/real.rs:57-66 -/
def showVec2 (v : F64 × F64) : Str :=
  '(' :: (v.1.format ++ ',' :: v.2.format ++ [')'])
/-- parser/real.rs:93-103 -/
def showVec3 (v : F64 × F64 × F64) : Str :=
  '(' :: (v.1.format ++ ',' :: v.2.1.format ++ ',' :: v.2.2.format ++ [')'])

/-- values/{bool,label,real,identifier,thermal_transmittance}.rs: `(alt((A, B)), "(") p ")"` -/
def pTagged {α : Type} (a b : Str) (p : P α) : P α :=
  P.delimited ((P.alt (lit a) (lit b)).bind fun _ => lit (cs! "(")) p (lit (cs! ")"))

/-- values/core.rs:25-38 and the five value readers -/
def pValue : P Value := P.altL
  [(pTagged (cs! "IFCBOOLEAN") (cs! "IfcBoolean") pBool).map Value.bool,
   (pTagged (cs! "IFCLABEL") (cs! "IfcLabel") pString).map Value.label,
   (pTagged (cs! "IFCREAL") (cs! "IfcReal") pFloat).map Value.real,
   (pTagged (cs! "IFCIDENTIFIER") (cs! "IfcIdentifier") pString).map Value.identifier,
   (pTagged (cs! "IFCTHERMALTRANSMITTANCEMEASURE") (cs! "IfcThermaltransmittancemeasure") pFloat).map
     Value.thermal]

/-- values/core.rs:40-50 and the five value writers (the thermal one always uses the plain notation,
values/thermal_transmittance.rs) -/
def showValue : Value → Str
  | .bool b => cs! "IFCBOOLEAN(" ++ showBool b ++ [')']
  | .label s => cs! "IFCLABEL(" ++ showString s ++ [')']
  | .real r => cs! "IFCREAL(" ++ r.format ++ [')']
  | .identifier s => cs! "IFCIDENTIFIER(" ++ showString s ++ [')']
  | .thermal r => cs! "IFCTHERMALTRANSMITTANCEMEASURE(" ++ r.formatNonSci ++ [')']

/-- parser/list.rs:26-38 -/
def pList {α : Type} (p : P α) : P (List α) :=
  P.preceded (lit (cs! "("))
    (repeatTill (P.terminated p (sp (P.opt (lit (cs! ","))))) (lit (cs! ")")))

/-- parser/optional.rs:67-76; `fb` is `T::fallback()` -/
def pOpt {α : Type} (p : P α) (fb : P (Opt α)) : P (Opt α) := P.altL
  [(lit (cs! "$")).map fun _ => .omitted,
   (lit (cs! "*")).map fun _ => .inherited,
   p.map .custom,
   fb]

/-- join with commas (`itertools::join(",")`, parser/list.rs:45) -/
def joinComma : List Str → Str
  | [] => []
  | [x] => x
  | x :: y :: r => x ++ ',' :: joinComma (y :: r)

namespace Fld

/-- keyword reader: `p_space_or_comment_surrounded("IFC…(")`, a bare literal, or an `alt` of the former
(objects/wall/deserialize.rs:13 and alike) -/
def pKeyword (kws : List Str) (spaced : Bool) : P Unit :=
  P.altL (kws.map fun k => if spaced then sp (lit k) else lit k)

/-- closing reader: `p_space_or_comment_surrounded(");")` or a bare literal -/
def pClose (spaced : Bool) (close : Str) : P Unit :=
  if spaced then sp (lit close) else lit close

/-- the reader of a field -/
def parse : (f : Fld) → P f.Val
  | ref _ => pId
  | real => pFloat
  | int => pInt
  | int32 => decInt i32Min i32Max
  | bool => pBool
  | str => pString
  | guid => pGuid
  | time => pStamp
  | value => pValue
  | enum t => pEnum t
  | vec2 => pVec2
  | vec3 => pVec3
  | opt f => pOpt f.parse P.fail
  | optDim t => pOpt (pEnum t) ((decInt i32Min i32Max).map fun _ => .inherited)
  | list f => pList f.parse
  | idOr _ f => P.altL [pId.map .id, f.parse.map .custom]
  | seq f g => f.parse.bind fun a => comma.bind fun _ => g.parse.map fun b => (a, b)
  | ent kws spaced b close =>
    (pKeyword kws spaced).bind fun _ => b.parse.bind fun v => (pClose spaced close).map fun _ => v

/-- parser/optional.rs:78-86 -/
def showOpt {α : Type} (p : α → Str) : Opt α → Str
  | .omitted => ['$']
  | .inherited => ['*']
  | .custom a => p a

/-- the writer of a field -/
def print : (f : Fld) → f.Val → Str
  | ref _, v => showId v
  | real, v => v.format
  | int, v => showInt v
  | int32, v => intStr v
  | bool, v => showBool v
  | str, v => showString v
  | guid, v => showGuid v
  | time, v => showStamp v
  | value, v => showValue v
  | enum t, v => t.get v
  | vec2, v => showVec2 v
  | vec3, v => showVec3 v
  | opt f, v => showOpt f.print v
  | optDim t, v => showOpt (fun i => t.get i) v
  | list f, v => '(' :: (joinComma (v.map f.print) ++ [')'])
  | idOr _ f, v => match v with
    | .id n => showId n
    | .custom a => f.print a
  | seq f g, v => f.print v.1 ++ ',' :: g.print v.2
  | ent kws _ b close, v => (kws.headD []) ++ b.print v ++ close

/-- References checked by the derived `verify_id_types`
(ifc_rs_verify_derive/src/{lib,field,data_type}.rs): target and allowed kinds, in checking order.
Inline `IdOr::Custom` values are not descended into (field.rs:197-208, 287-301). -/
def checks : (f : Fld) → f.Val → List (Nat × List Kind)
  | ref (some ks), n => [(n, ks)]
  | ref none, _ => []
  | opt f, v => match v with
    | .custom a => f.checks a
    | _ => []
  | list f, v => v.flatMap f.checks
  | idOr k _, v => match v with
    | .id n => [(n, [k])]
    | .custom _ => []
  | seq f g, v => f.checks v.1 ++ g.checks v.2
  | ent _ _ b _, v => b.checks v
  | _, _ => []

/-- every reference occurring in a value, checked or not, inline or not (used by specifications) -/
def refs : (f : Fld) → f.Val → List Nat
  | ref _, n => [n]
  | opt f, v => match v with
    | .custom a => f.refs a
    | _ => []
  | list f, v => v.flatMap f.refs
  | idOr _ f, v => match v with
    | .id n => [n]
    | .custom a => f.refs a
  | seq f g, v => f.refs v.1 ++ g.refs v.2
  | ent _ _ b _, v => b.refs v
  | _, _ => []

end Fld
end Verif
