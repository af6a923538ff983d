import Verif.Model.DataMap
/-
Following references inside a model: the `mappings` functions of the geometry types and the queries on products.
Paths are relative to /repo/ifc_rs/src.  References into the model are returned by value.
-/
namespace Verif

abbrev V2 := F64 × F64
abbrev V3 := F64 × F64 × F64

instance : Monad Ret where
  pure := .val
  bind x f := match x with
    | .val a => f a
    | .panic => .panic

/-- `iter().map(f).collect()` -/
def Ret.mapL {α β : Type} (f : α → Ret β) : List α → Ret (List β)
  | [] => .val []
  | a :: l => do
    let b ← f a
    let r ← Ret.mapL f l
    return b :: r

/-- `iter().find_map(f)`: stops at the first `Some` -/
def Ret.findL {α β : Type} (f : α → Ret (Option β)) : List α → Ret (Option β)
  | [] => .val none
  | a :: l => do
    match ← f a with
    | some b => return some b
    | none => Ret.findL f l

/-- parser/optional.rs:29-34 `custom` -/
def Opt.get? {α : Type} : Opt α → Option α
  | .custom a => some a
  | _ => none

/-- `option.map(f)` with an `f` that may panic -/
def Ret.opt {α β : Type} (f : α → Ret β) : Option α → Ret (Option β)
  | some a => do return some (← f a)
  | none => .val none

namespace Mapping

/-- `.custom().map(|id| ifc.data.get(*id))` -/
def getOpt (m : DataMap) (k : Kind) (o : Opt Nat) : Ret (Option (Schema.row k).Val) := Ret.opt (m.get k) o.get?

/-- geometry/axis/mod.rs:23-27, 57-66 -/
structure Axis2 where
  location : V2
  localX : Option V2
  deriving DecidableEq

/-- geometry/axis/mod.rs:57-66 -/
def axis2 (m : DataMap) (a : (Schema.row .Axis2D).Val) : Ret Axis2 := do
  let a : Nat × Opt Nat := a
  return ⟨← m.get .Point2D a.1, ← getOpt m .Direction2D a.2⟩

/-- geometry/axis/mod.rs:71-76 -/
structure Axis3 where
  location : V3
  localZ : Option V3
  localX : Option V3
  deriving DecidableEq

/-- geometry/axis/mod.rs:111-121 -/
def axis3 (m : DataMap) (a : (Schema.row .Axis3D).Val) : Ret Axis3 := do
  let a : Nat × Opt Nat × Opt Nat := a
  return ⟨← m.get .Point3D a.1, ← getOpt m .Direction3D a.2.1, ← getOpt m .Direction3D a.2.2⟩

/-- geometry/axis/mod.rs:8-11 `AxisMappings` -/
inductive Axis where
  | d2 (a : Axis2)
  | d3 (a : Axis3)
  deriving DecidableEq

/-- geometry/rectangle_profile_def/mod.rs:77-86: the axis placement behind an id; anything else is `unreachable!` -/
def axis (m : DataMap) (i : Nat) : Ret Axis := do
  let e ← m.getUntyped i
  match e.downcast .Axis2D with
  | some a => return .d2 (← axis2 m a)
  | none => match e.downcast .Axis3D with
    | some a => return .d3 (← axis3 m a)
    | none => .panic

/-- geometry/rectangle_profile_def/mod.rs:76-94 -/
def rectangle (m : DataMap) (v : (Schema.row .RectangleProfileDef).Val) : Ret (Option Axis × F64 × F64) := do
  let v : Fin Schema.eProfileType.length × Opt Str × Opt Nat × F64 × F64 := v
  let a ← Ret.opt (axis m) v.2.2.1.get?
  return (a, v.2.2.2.1, v.2.2.2.2)

/-- geometry/arbitrary_closed_profile_def/mod.rs:14-17 -/
inductive Points where
  | d2 (l : List V2)
  | d3 (l : List V3)
  deriving DecidableEq

/-- geometry/polyline/mod.rs:31-52; indexing an empty list panics -/
def polyPoints (m : DataMap) (v : (Schema.row .PolyLine).Val) : Ret Points := do
  let v : List Nat := v
  match v with
  | [] => .panic
  | i :: _ =>
    let e ← m.getUntyped i
    match e.kind with
    | some .Point2D => return .d2 (← Ret.mapL (m.get .Point2D) v)
    | some .Point3D => return .d3 (← Ret.mapL (m.get .Point3D) v)
    | _ => .panic

/-- geometry/arbitrary_closed_profile_def/mod.rs:67-91 -/
def arbitrary (m : DataMap) (v : (Schema.row .ArbitraryClosedProfileDef).Val) :
    Ret (Fin Schema.eProfileType.length × Points) := do
  let v : Fin Schema.eProfileType.length × Opt Str × Nat := v
  let e ← m.getUntyped v.2.2
  match e.downcast .IndexedPolyCurve with
  | some c =>
    let c : Nat × Opt Str × Opt Tri := c
    let p ← m.getUntyped c.1
    match p.downcast .PointList2D with
    | some l =>
      let l : List V2 × Opt (List Str) := l
      return (v.1, .d2 l.1)
    | none => match p.downcast .PointList3D with
      | some l =>
        let l : List V3 × Opt (List Str) := l
        return (v.1, .d3 l.1)
      | none => .panic
  | none => match e.downcast .PolyLine with
    | some l => return (v.1, ← polyPoints m l)
    | none => .panic

/-- geometry/extruded_area_solid.rs:11-21 `MappedProfileDef`, `MappedExtrudedAreaSolid` -/
inductive Profile where
  | rectangle (p : Option Axis × F64 × F64)
  | arbitrary (p : Fin Schema.eProfileType.length × Points)

structure Solid where
  profile : Profile
  position : Option Axis3
  direction : V3
  depth : F64

/-- geometry/extruded_area_solid.rs:77-88 -/
def profile (m : DataMap) (i : Nat) : Ret Profile := do
  let e ← m.getUntyped i
  match e.downcast .RectangleProfileDef with
  | some r => return .rectangle (← rectangle m r)
  | none => match e.downcast .ArbitraryClosedProfileDef with
    | some a => return .arbitrary (← arbitrary m a)
    | none => .panic

/-- geometry/extruded_area_solid.rs:76-101 -/
def solid (m : DataMap) (v : (Schema.row .ExtrudedAreaSolid).Val) : Ret Solid := do
  let v : Nat × Opt Nat × Nat × F64 := v
  let p ← profile m v.1
  let pos ← Ret.opt (fun i => m.get .Axis3D i >>= axis3 m) v.2.1.get?
  return ⟨p, pos, ← m.get .Direction3D v.2.2.1, v.2.2.2⟩

/-- `match c { IdOr::Id(id) => ifc.data.get(*id), IdOr::Custom(custom) => custom }` -/
def idOr (m : DataMap) (k : Kind) : IdOr (Schema.row k).Val → Ret (Schema.row k).Val
  | .id i => m.get k i
  | .custom v => .val v

/-- `.custom().map(|c| match c …)` -/
def idOrOpt (m : DataMap) (k : Kind) (o : Opt (IdOr (Schema.row k).Val)) : Ret (Option (Schema.row k).Val) :=
  Ret.opt (idOr m k) o.get?

/-- geometry/transform_base.rs:11-20 `TransformBaseMapping`, geometry/uniform_transformations.rs:13-16 -/
structure Transform where
  translation : Option V3
  axisX : Option V3
  axisY : Option V3
  axisZ : Option V3
  scale : Option F64
  /-- geometry/non_uniform_transformations.rs:15-22; `none` for the uniform operator -/
  more : Option (Option F64 × Option F64)
  deriving DecidableEq

/-- geometry/transform_base.rs:61-85 -/
def transformBase (m : DataMap) (v : Schema.transformBase.Val) : Ret Transform := do
  let v : Opt (IdOr V3) × Opt (IdOr V3) × Opt (IdOr V3) × Opt F64 × Opt (IdOr V3) := v
  return ⟨← idOrOpt m .Point3D v.2.2.1, ← idOrOpt m .Direction3D v.1, ← idOrOpt m .Direction3D v.2.1,
    ← idOrOpt m .Direction3D v.2.2.2.2, v.2.2.2.1.get?, none⟩

/-- geometry/uniform_transformations.rs:53-61, geometry/non_uniform_transformations.rs:76-83 and
relations/mapped_item.rs:94-106: the operator behind an id; anything else is `unreachable!` -/
def transform (m : DataMap) (i : Nat) : Ret Transform := do
  let e ← m.getUntyped i
  match e.downcast .UniformTransform with
  | some u => transformBase m u
  | none => match e.downcast .NonUniformTransform with
    | some n =>
      let n : Schema.transformBase.Val × Opt F64 × Opt F64 := n
      let t ← transformBase m n.1
      return { t with more := some (n.2.1.get?, n.2.2.get?) }
    | none => .panic

/-- relations/mapped_item.rs:78-109 -/
def mapped (m : DataMap) (v : (Schema.row .MappedItem).Val) :
    Ret ((Axis3 × (Schema.row .ShapeRepresentation).Val) × Transform) := do
  let v : IdOr (Schema.row .RepresentationMap).Val × Nat := v
  let r ← idOr m .RepresentationMap v.1
  let r : IdOr (Schema.row .Axis3D).Val × IdOr (Schema.row .ShapeRepresentation).Val := r
  let o ← idOr m .Axis3D r.1
  let s ← idOr m .ShapeRepresentation r.2
  let t ← transform m v.2
  return ((← axis3 m o, s), t)

/-- geometry/shape_representation/mod.rs:19-24 `ShapeItemEnum` -/
inductive Item where
  | mapped (v : (Schema.row .MappedItem).Val)
  | solid (v : (Schema.row .ExtrudedAreaSolid).Val)
  | dummy (s : Str)
  | other (e : Entity)
  deriving DecidableEq

/-- geometry/shape_representation/mod.rs:92-102 -/
def item (m : DataMap) (i : Nat) : Ret Item := do
  let e ← m.getUntyped i
  match e.downcast .MappedItem with
  | some v => return .mapped v
  | none => match e.downcast .ExtrudedAreaSolid with
    | some v => return .solid v
    | none => match e with
      | .dummy s => return .dummy s
      | _ => return .other e

/-- `ShapeRepresentation.items` -/
def itemIds (v : (Schema.row .ShapeRepresentation).Val) : List Nat :=
  let v : Nat × Opt (Fin Schema.eRepresentationIdentifier.length) ×
    Opt (Fin Schema.eRepresentationType.length) × List Nat := v
  v.2.2.2

/-- geometry/shape_representation/mod.rs:112-122 -/
def parentContext (m : DataMap) (v : (Schema.row .ShapeRepresentation).Val) :
    Ret (Schema.row .GeometricRepresentationContext).Val := do
  let v : Nat × Opt (Fin Schema.eRepresentationIdentifier.length) ×
    Opt (Fin Schema.eRepresentationType.length) × List Nat := v
  let e ← m.getUntyped v.1
  match e.downcast .GeometricRepresentationSubContext with
  | some s =>
    let s : Opt (Fin Schema.eRepresentationIdentifier.length) × Opt Str × Opt (Fin Schema.eDimensionCount.length) ×
      Opt F64 × Opt Nat × Opt Nat × Nat × Opt F64 × Fin Schema.eGeometricProjection.length × Opt Str := s
    m.get .GeometricRepresentationContext s.2.2.2.2.2.2.1
  | none => match e.downcast .GeometricRepresentationContext with
    | some c => return c
    | none => .panic

/-- objects/shared/product.rs:29-50, as found inside the element types -/
abbrev Product := Schema.object.Val × Opt Nat × Opt Nat

/-- the `Product` part of the structs that have one (`Deref` chains) -/
def productOf : Entity → Option Product
  | .known .Wall v => let v : (Product × Opt Str) × Opt (IdOr (Schema.row .WallType).Val) := v; some v.1.1
  | .known .Slab v => let v : (Product × Opt Str) × Opt (Fin Schema.eSlabTypeEnum.length) := v; some v.1.1
  | .known .Roof v => let v : (Product × Opt Str) × Opt (Fin Schema.eRoofTypeEnum.length) := v; some v.1.1
  | .known .OpeningElement v =>
    let v : (Product × Opt Str) × Opt (Fin Schema.eOpeningElementTypeEnum.length) := v; some v.1.1
  | .known .Window v =>
    let v : (Product × Opt Str) × Opt F64 × Opt F64 × Opt (Fin Schema.eWindowTypeEnum.length) ×
      Opt (Fin Schema.eWindowPartitioningTypeEnum.length) × Opt Str := v
    some v.1.1
  | .known .Door v =>
    let v : (Product × Opt Str) × Opt F64 × Opt F64 × Opt (Fin Schema.eDoorTypeEnum.length) ×
      Opt (Fin Schema.eDoorOperationTypeEnum.length) × Opt Str := v
    some v.1.1
  | .known .ShadingDevice v =>
    let v : (Product × Opt Str) × Opt (Fin Schema.eShadingDeviceTypeEnum.length) := v; some v.1.1
  | .known .Site v =>
    let v : ((Product × Opt Str) × Opt (Fin Schema.eCompositionTypeEnum.length)) × Opt (List Int) ×
      Opt (List Int) × Opt F64 × Opt Str × Opt Nat := v
    some v.1.1.1
  | .known .Building v =>
    let v : ((Product × Opt Str) × Opt (Fin Schema.eCompositionTypeEnum.length)) × Opt F64 × Opt F64 × Opt Nat := v
    some v.1.1.1
  | .known .Storey v =>
    let v : ((Product × Opt Str) × Opt (Fin Schema.eCompositionTypeEnum.length)) × Opt F64 := v; some v.1.1.1
  | .known .Space v =>
    let v : ((Product × Opt Str) × Opt (Fin Schema.eCompositionTypeEnum.length)) ×
      Opt (Fin Schema.eSpaceTypeEnum.length) × Opt F64 := v
    some v.1.1.1
  | _ => none

/-- `product.object_placement.custom()` -/
def placementId (p : Product) : Option Nat := p.2.1.get?
/-- `product.representation.custom()`; the `shape` of every `TransformableType` -/
def shapeId (p : Product) : Option Nat := p.2.2.get?

/-- objects/shared/product.rs:61-74 -/
def shapes (m : DataMap) (p : Product) : Ret (List (Schema.row .ShapeRepresentation).Val) := do
  match shapeId p with
  | none => return []
  | some i =>
    let s ← m.get .ProductDefinitionShape i
    let s : Opt Str × Opt Str × List Nat := s
    Ret.mapL (m.get .ShapeRepresentation) s.2.2

/-- objects/shared/product.rs:88-96 -/
def solidDirection (m : DataMap) (i : Nat) : Ret (Option V3) := do
  match ← item m i with
  | .solid a => return some (← solid m a).direction
  | _ => return none

/-- objects/shared/product.rs:77-102 -/
def direction (m : DataMap) (p : Product) : Ret (Option V3) := do
  let ss ← shapes m p
  Ret.findL (fun s => Ret.findL (fun i => do
    match ← item m i with
    | .solid a => return some (← solid m a).direction
    | .mapped a =>
      let r ← mapped m a
      Ret.findL (solidDirection m) (itemIds r.1.2)
    | _ => return none) (itemIds s)) ss

/-- objects/shared/product.rs:104-117 -/
def localPlacement (m : DataMap) (p : Product) : Ret (Option V3) := do
  match placementId p with
  | none => return none
  | some i =>
    let l ← m.get .LocalPlacement i
    let l : Opt Nat × Nat := l
    let e ← m.getUntyped l.2
    match e.downcast .Axis3D with
    | some a =>
      let a : Nat × Opt Nat × Opt Nat := a
      return some (← m.get .Point3D a.1)
    | none => return none

end Mapping
end Verif
