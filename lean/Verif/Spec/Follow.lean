import Verif.Model.Report
import Verif.Spec.Transform
import Verif.Spec.Extractor
/-
Specification vocabulary: what is found in a model by following references from one entity to the next, told as relations
between the stored values and what is found.
-/
namespace Verif.Follow
open Verif Schema Mapping Build Report

/-- the entity under the id is of type `k` with the value `v` -/
abbrev Has (m : DataMap) (k : Kind) (i : Nat) (v : (row k).Val) : Prop := m.lookup i = some (.known k v)

/-- nothing is found for an attribute that is not given, and what is related to its value for one that is -/
inductive Maybe {α β : Type} (R : α → β → Prop) : Opt α → Option β → Prop
  | omitted : Maybe R .omitted none
  | inherited : Maybe R .inherited none
  | custom {a b} : R a b → Maybe R (.custom a) (some b)

/-- a value written in place, or a reference to one -/
inductive Given {α : Type} (R : Nat → α → Prop) : IdOr α → α → Prop
  | id {i v} : R i v → Given R (.id i) v
  | custom {v} : Given R (.custom v) v

/-! ### Geometry -/

/-- location and x direction of a plane axis placement -/
inductive IsAxis2 (m : DataMap) : Nat × Opt Nat → Axis2 → Prop
  | mk {p x location localX} : Has m .Point2D p location → Maybe (Has m .Direction2D) x localX →
    IsAxis2 m (p, x) ⟨location, localX⟩

/-- location, z direction and x direction of a spatial axis placement -/
inductive IsAxis3 (m : DataMap) : Nat × Opt Nat × Opt Nat → Axis3 → Prop
  | mk {p z x location localZ localX} : Has m .Point3D p location → Maybe (Has m .Direction3D) z localZ →
    Maybe (Has m .Direction3D) x localX → IsAxis3 m (p, z, x) ⟨location, localZ, localX⟩

/-- the axis placement under an id -/
inductive AxisAt (m : DataMap) : Nat → Axis → Prop
  | plane {i a r} : Has m .Axis2D i a → IsAxis2 m a r → AxisAt m i (.d2 r)
  | space {i a r} : Has m .Axis3D i a → IsAxis3 m a r → AxisAt m i (.d3 r)

/-- the spatial axis placement under an id -/
inductive SpaceAt (m : DataMap) : Nat → Axis3 → Prop
  | mk {i a r} : Has m .Axis3D i a → IsAxis3 m a r → SpaceAt m i r

/-- the points of the curve under an id -/
inductive CurveAt (m : DataMap) : Nat → Points → Prop
  | indexed2 {c p segments closed l tags} :
    Has m .IndexedPolyCurve c ((p, segments, closed) : Nat × Opt Str × Opt Tri) →
    Has m .PointList2D p ((l, tags) : List V2 × Opt (List Str)) → CurveAt m c (.d2 l)
  | indexed3 {c p segments closed l tags} :
    Has m .IndexedPolyCurve c ((p, segments, closed) : Nat × Opt Str × Opt Tri) →
    Has m .PointList3D p ((l, tags) : List V3 × Opt (List Str)) → CurveAt m c (.d3 l)
  | poly2 {c ids l} : Has m .PolyLine c (ids : List Nat) → ids ≠ [] → Paired (Has m .Point2D) ids l → CurveAt m c (.d2 l)
  | poly3 {c ids l} : Has m .PolyLine c (ids : List Nat) → ids ≠ [] → Paired (Has m .Point3D) ids l → CurveAt m c (.d3 l)

/-- the outline under an id -/
inductive ProfileAt (m : DataMap) : Nat → Profile → Prop
  | rectangle {i kind name a x y place} :
    Has m .RectangleProfileDef i ((kind, name, a, x, y) : Fin eProfileType.length × Opt Str × Opt Nat × F64 × F64) →
    Maybe (AxisAt m) a place → ProfileAt m i (.rectangle (place, x, y))
  | curve {i kind name c l} :
    Has m .ArbitraryClosedProfileDef i ((kind, name, c) : Fin eProfileType.length × Opt Str × Nat) →
    CurveAt m c l → ProfileAt m i (.arbitrary (kind, l))

/-- outline, position, direction and depth of an extruded solid -/
inductive IsSolid (m : DataMap) : Nat × Opt Nat × Nat × F64 → Mapping.Solid → Prop
  | mk {p a d depth profile position direction} : ProfileAt m p profile → Maybe (SpaceAt m) a position →
    Has m .Direction3D d direction → IsSolid m (p, a, d, depth) ⟨profile, position, direction, depth⟩

/-- the part that both transformation operators share: axes, origin and scale -/
inductive IsBase (m : DataMap) : Opt (IdOr V3) × Opt (IdOr V3) × Opt (IdOr V3) × Opt F64 × Opt (IdOr V3) →
    Option (Option F64 × Option F64) → Mapping.Transform → Prop
  | mk {x y o s z rx ry ro rs rz more} : Maybe (Given (Has m .Direction3D)) x rx → Maybe (Given (Has m .Direction3D)) y ry →
    Maybe (Given (Has m .Point3D)) o ro → Maybe Eq s rs → Maybe (Given (Has m .Direction3D)) z rz →
    IsBase m (x, y, o, s, z) more ⟨ro, rx, ry, rz, rs, more⟩

/-- the transformation operator under an id -/
inductive TransformAt (m : DataMap) : Nat → Mapping.Transform → Prop
  | uniform {i v t} : Has m .UniformTransform i v → IsBase m v none t → TransformAt m i t
  | nonUniform {i v s2 s3 r2 r3 t} : Has m .NonUniformTransform i ((v, s2, s3) :
      (Opt (IdOr V3) × Opt (IdOr V3) × Opt (IdOr V3) × Opt F64 × Opt (IdOr V3)) × Opt F64 × Opt F64) →
    Maybe Eq s2 r2 → Maybe Eq s3 r3 → IsBase m v (some (r2, r3)) t → TransformAt m i t

/-- origin of the map, representation mapped, and transformation of a mapped item -/
inductive IsMapped (m : DataMap) : IdOr (row .RepresentationMap).Val × Nat →
    Axis3 → (row .ShapeRepresentation).Val → Mapping.Transform → Prop
  | mk {r t} {o : IdOr (row .Axis3D).Val} {s : IdOr (row .ShapeRepresentation).Val} {a rep origin transform} :
    Given (Has m .RepresentationMap) r ((o, s) : IdOr (row .Axis3D).Val × IdOr (row .ShapeRepresentation).Val) →
    Given (Has m .Axis3D) o a → Given (Has m .ShapeRepresentation) s rep →
    IsAxis3 m a origin → TransformAt m t transform → IsMapped m (r, t) origin rep transform

/-! ### Representations and products -/

/-- the attributes of a representation: context, identifier, type and items -/
abbrev Rep := Nat × Opt (Fin eRepresentationIdentifier.length) × Opt (Fin eRepresentationType.length) × List Nat

/-- the context of a representation, or the one that its context is a part of -/
inductive ContextOf (m : DataMap) : Rep → (row .GeometricRepresentationContext).Val → Prop
  | sub {c mark type items ident kind dims prec world north parent scale view user v} :
    Has m .GeometricRepresentationSubContext c ((ident, kind, dims, prec, world, north, parent, scale, view, user) :
      Opt (Fin eRepresentationIdentifier.length) × Opt Str × Opt (Fin eDimensionCount.length) × Opt F64 × Opt Nat ×
        Opt Nat × Nat × Opt F64 × Fin eGeometricProjection.length × Opt Str) →
    Has m .GeometricRepresentationContext parent v → ContextOf m (c, mark, type, items) v
  | direct {c mark type items v} : Has m .GeometricRepresentationContext c v → ContextOf m (c, mark, type, items) v

/-- the representations of a product -/
inductive ShapesOf (m : DataMap) : Product → List (row .ShapeRepresentation).Val → Prop
  | omitted {o a} : ShapesOf m (o, a, .omitted) []
  | inherited {o a} : ShapesOf m (o, a, .inherited) []
  | custom {o a sh name text ids l} :
    Has m .ProductDefinitionShape sh ((name, text, ids) : Opt Str × Opt Str × List Nat) →
    Paired (Has m .ShapeRepresentation) ids l → ShapesOf m (o, a, .custom sh) l

/-- where a product is placed: at the location of the spatial axis placement of its placement; nowhere if it has no
placement, or one with something else in place of the axis -/
inductive PlaceOf (m : DataMap) : Product → Option V3 → Prop
  | omitted {o r} : PlaceOf m (o, .omitted, r) none
  | inherited {o r} : PlaceOf m (o, .inherited, r) none
  | axis {o l r up a p z x v} : Has m .LocalPlacement l ((up, a) : Opt Nat × Nat) →
    Has m .Axis3D a ((p, z, x) : Nat × Opt Nat × Opt Nat) → Has m .Point3D p v → PlaceOf m (o, .custom l, r) (some v)
  | other {o l r up a e} : Has m .LocalPlacement l ((up, a) : Opt Nat × Nat) → m.lookup a = some e →
    e.kind ≠ some .Axis3D → PlaceOf m (o, .custom l, r) none

/-- the items of a representation -/
def itemList : Rep → List Nat := fun v => v.2.2.2

/-- the entity under the id is neither an extruded solid nor a mapped item -/
def Neither (m : DataMap) (i : Nat) : Prop :=
  ∃ e, m.lookup i = some e ∧ e.kind ≠ some .ExtrudedAreaSolid ∧ e.kind ≠ some .MappedItem

/-- the first of the entries for which something is found -/
inductive First {α β : Type} (R : α → Option β → Prop) : List α → Option β → Prop
  | found {pre a post b} : (∀ x ∈ pre, R x none) → R a (some b) → First R (pre ++ a :: post) (some b)
  | nothing {l} : (∀ x ∈ l, R x none) → First R l none

/-- the direction of an item that is an extruded solid -/
inductive SolidPoints (m : DataMap) : Nat → Option V3 → Prop
  | solid {i v s} : Has m .ExtrudedAreaSolid i v → IsSolid m v s → SolidPoints m i (some s.direction)
  | other {i e} : m.lookup i = some e → e.kind ≠ some .ExtrudedAreaSolid → SolidPoints m i none

/-- the direction of an item: of the solid, or of the first solid mapped -/
inductive ItemPoints (m : DataMap) : Nat → Option V3 → Prop
  | solid {i v s} : Has m .ExtrudedAreaSolid i v → IsSolid m v s → ItemPoints m i (some s.direction)
  | mapped {i v o rep t d} : Has m .MappedItem i v → IsMapped m v o rep t → First (SolidPoints m) (itemList rep) d →
    ItemPoints m i d
  | other {i} : Neither m i → ItemPoints m i none

/-- the direction of a product: of the first item of all its representations that has one -/
inductive DirectionOf (m : DataMap) : Product → Option V3 → Prop
  | mk {p l d} : ShapesOf m p l → First (ItemPoints m) (l.flatMap itemList) d → DirectionOf m p d

/-! ### The report -/

/-- The paragraphs about items, indented by `level`, the first of them with the given number: one for each extruded solid
and each mapped item, the latter followed by those about the representation mapped, three steps further in.  Other
items count but nothing is said of them. -/
inductive Says (m : DataMap) : Nat → Nat → List Nat → List Line → Prop
  | nil {level k} : Says m level k [] []
  | solid {level k i ids v s rest} : Has m .ExtrudedAreaSolid i v → IsSolid m v s → Says m level (k + 1) ids rest →
    Says m level k (i :: ids) (⟨level, k, .solid s⟩ :: rest)
  | mapped {level k i ids v o rep t inside rest} : Has m .MappedItem i v → IsMapped m v o rep t →
    Says m (level + 3) 0 (itemList rep) inside → Says m level (k + 1) ids rest →
    Says m level k (i :: ids) (⟨level, k, .mapped o t⟩ :: (inside ++ rest))
  | other {level k i ids rest} : Neither m i → Says m level (k + 1) ids rest → Says m level k (i :: ids) rest

/-- the paragraphs about the representations of a product -/
inductive Product.Says (m : DataMap) (level : Nat) : Product → List Line → Prop
  | mk {p l lines} : ShapesOf m p l → Follow.Says m level 0 (l.flatMap itemList) lines → Product.Says m level p lines

/-- the attributes of an opening -/
abbrev OpeningV := (Product × Opt Str) × Opt (Fin eOpeningElementTypeEnum.length)

/-- what is said about the opening under an id: its kind and its items -/
inductive OpeningAt (m : DataMap) : Nat → Opt (Fin eOpeningElementTypeEnum.length) × List Line → Prop
  | mk {i p tag kind lines} : Has m .OpeningElement i (((p, tag), kind) : OpeningV) → Product.Says m 6 p lines →
    OpeningAt m i (kind, lines)

/-- the layers behind a material, if it is the usage of a layer set; nothing else has any -/
inductive LayersAt (m : DataMap) : Nat → List (row .MaterialLayer).Val → Prop
  | usage {mat set dir sense off ext ids names text l} :
    Has m .MaterialLayerSetUsage mat ((set, dir, sense, off, ext) :
      Nat × Fin eLayerSetDirectionEnum.length × Fin eDirectionSenseEnum.length × F64 × Opt F64) →
    Has m .MaterialLayerSet set ((ids, names, text) : List Nat × Opt Str × Opt Str) →
    Paired (Has m .MaterialLayer) ids l → LayersAt m mat l
  | other {mat e} : m.lookup mat = some e → e.kind ≠ some .MaterialLayerSetUsage → LayersAt m mat []

/-- what is said about the object `i`, stored as `e` -/
inductive Tells (m : DataMap) (i : Nat) : Entity → About → Prop
  | wall {p tag own ty types tv kind layers lines openings} :
    Extract.typesOf m i = ty :: types → Has m .WallType ty ((tv, kind) : Schema.elementType.Val × Fin eWallTypeEnum.length) →
    Paired (LayersAt m) (Extract.materialIds m i) layers →
    Product.Says m 5 p lines → Paired (OpeningAt m) (Extract.openingsOf m i) openings →
    Tells m i (.known .Wall (((p, tag), own) : (Product × Opt Str) × Opt (IdOr (row .WallType).Val)))
      (.wall kind layers.flatten.length lines openings)
  | slab {p tag x lines} : Product.Says m 5 p lines →
    Tells m i (.known .Slab (((p, tag), x) : (Product × Opt Str) × Opt (Fin eSlabTypeEnum.length))) (.element lines)
  | roof {p tag x lines} : Product.Says m 5 p lines →
    Tells m i (.known .Roof (((p, tag), x) : (Product × Opt Str) × Opt (Fin eRoofTypeEnum.length))) (.element lines)
  | window {p tag x lines} : Product.Says m 5 p lines →
    Tells m i (.known .Window (((p, tag), x) : (Product × Opt Str) × Opt F64 × Opt F64 × Opt (Fin eWindowTypeEnum.length) ×
      Opt (Fin eWindowPartitioningTypeEnum.length) × Opt Str)) (.element lines)
  | door {p tag x lines} : Product.Says m 5 p lines →
    Tells m i (.known .Door (((p, tag), x) : (Product × Opt Str) × Opt F64 × Opt F64 × Opt (Fin eDoorTypeEnum.length) ×
      Opt (Fin eDoorOperationTypeEnum.length) × Opt Str)) (.element lines)
  | shade {p tag x lines} : Product.Says m 5 p lines →
    Tells m i (.known .ShadingDevice (((p, tag), x) : (Product × Opt Str) × Opt (Fin eShadingDeviceTypeEnum.length)))
      (.element lines)
  | other {e : Entity} : (∀ k ∈ [Kind.Wall, .Slab, .Roof, .Window, .Door, .ShadingDevice], e.kind ≠ some k) →
    Tells m i e .nothing

/-- the objects of type `k` among the parts listed for `i`, in order; every part listed has to exist -/
inductive PartsAre (m : DataMap) (k : Kind) (i : Nat) : List Nat → Prop
  | mk {l} : (∀ j ∈ Extract.partsOf m i, ∃ e, m.lookup j = some e) →
    l = (Extract.partsOf m i).filter (fun j => (m.lookup j).any fun e => e.kind == some k) → PartsAre m k i l

/-- what is said about an object contained in a storey: its type and what there is to tell -/
inductive ObjectAt (m : DataMap) : Nat → Option Kind × About → Prop
  | mk {i e a} : m.lookup i = some e → Tells m i e a → ObjectAt m i (e.kind, a)

/-- what is said about a storey -/
inductive StoreyAt (m : DataMap) : Nat → OfStorey → Prop
  | mk {st spaces objects} : PartsAre m .Space st spaces → Paired (ObjectAt m) (Extract.elementsOf m st) objects →
    StoreyAt m st ⟨spaces.length, objects, spaces.map fun i => (Extract.elementsOf m i).length⟩

/-- what is said about a model: its projects, their sites, their buildings and their storeys -/
inductive Reported (m : DataMap) : Printed → Prop
  | mk {projects sites buildings storeys told} :
    projects = (m.filter fun x => x.2.kind == some .Project).map (·.1) →
    Paired (PartsAre m .Site) projects sites → Paired (PartsAre m .Building) sites.flatten buildings →
    Paired (PartsAre m .Storey) buildings.flatten storeys → Paired (StoreyAt m) storeys.flatten told →
    Reported m ⟨projects.length, sites.flatten.length, buildings.flatten.length, told⟩

end Verif.Follow
