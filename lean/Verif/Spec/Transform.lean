import Verif.Spec.Geometry
/-
What transforms do to the shape of an object: every representation is wrapped in a mapped one.  Read from the stored
values alone.
-/
namespace Verif.Build
open Verif Schema

/-- the shape of a product, if it has one -/
def shownBy : Entity → Option Nat
  | .known .Wall v => let v : Element × Opt (IdOr (row .WallType).Val) := v; v.1.1.2.2.get?
  | .known .Slab v => let v : Element × Opt (Fin eSlabTypeEnum.length) := v; v.1.1.2.2.get?
  | .known .Roof v => let v : Element × Opt (Fin eRoofTypeEnum.length) := v; v.1.1.2.2.get?
  | .known .ShadingDevice v => let v : Element × Opt (Fin eShadingDeviceTypeEnum.length) := v; v.1.1.2.2.get?
  | .known .OpeningElement v => let v : Element × Opt (Fin eOpeningElementTypeEnum.length) := v; v.1.1.2.2.get?
  | .known .Window v =>
    let v : Element × Opt F64 × Opt F64 × Opt (Fin eWindowTypeEnum.length) ×
      Opt (Fin eWindowPartitioningTypeEnum.length) × Opt Str := v
    v.1.1.2.2.get?
  | .known .Door v =>
    let v : Element × Opt F64 × Opt F64 × Opt (Fin eDoorTypeEnum.length) ×
      Opt (Fin eDoorOperationTypeEnum.length) × Opt Str := v
    v.1.1.2.2.get?
  | .known .Space v =>
    let v : (Element × Opt (Fin eCompositionTypeEnum.length)) × Opt (Fin eSpaceTypeEnum.length) × Opt F64 := v
    v.1.1.1.2.2.get?
  | .known .Storey v => let v : (Element × Opt (Fin eCompositionTypeEnum.length)) × Opt F64 := v; v.1.1.1.2.2.get?
  | .known .Building v =>
    let v : (Element × Opt (Fin eCompositionTypeEnum.length)) × Opt F64 × Opt F64 × Opt Nat := v
    v.1.1.1.2.2.get?
  | .known .Site v =>
    let v : (Element × Opt (Fin eCompositionTypeEnum.length)) × Opt (List Int) × Opt (List Int) × Opt F64 × Opt Str ×
      Opt Nat := v
    v.1.1.1.2.2.get?
  | _ => none

/-- one transform: its values, the origin of the map and whether the mark of the representation is kept -/
structure Turn where
  t : Transform
  origin : V3
  keep : Bool

/-- the operator `op` has the given translation, the directions of the given ones, and scale one -/
def IsOperator (unit : V3 → V3) (m : DataMap) (op : Nat) (t : Transform) : Prop :=
  ∃ x y o z, Holds m x .Direction3D (unit t.x) ∧ Holds m y .Direction3D (unit t.y) ∧ Holds m z .Direction3D (unit t.z) ∧
    Holds m o .Point3D t.translation ∧
    Holds m op .NonUniformTransform (((.custom (.id x), .custom (.id y), .custom (.id o), .custom F64.one, .custom (.id z)),
      .custom F64.one, .custom F64.one) :
      (Opt (IdOr V3) × Opt (IdOr V3) × Opt (IdOr V3) × Opt F64 × Opt (IdOr V3)) × Opt F64 × Opt F64)

/-- the representation `r` is marked `name`, or not marked and `name` is `'Body'` -/
def HasMark (m : DataMap) (r : Nat) (name : Str) : Prop :=
  ∃ sub mark type items, Holds m r .ShapeRepresentation ((sub, mark, type, items) :
      Nat × Opt (Fin eRepresentationIdentifier.length) × Opt (Fin eRepresentationType.length) × List Nat) ∧
    name = match mark with
      | .custom n => eRepresentationIdentifier.get n
      | _ => cs! "'Body'"

/-- in context `sub`, `r'` is a mapped representation of `r`, turned by `u` -/
def Wraps (unit : V3 → V3) (sub : Nat) (m : DataMap) (u : Turn) (r' r : Nat) : Prop :=
  ∃ op name i mp ax q, IsOperator unit m op u.t ∧
    (if u.keep then HasMark m r name else name = cs! "'Body'") ∧
    IsRepr m r' sub name (cs! "'MappedRepresentation'") [i] ∧
    Holds m i .MappedItem ((.id mp, op) : IdOr (row .RepresentationMap).Val × Nat) ∧
    Holds m mp .RepresentationMap ((.id ax, .id r) : IdOr (row .Axis3D).Val × IdOr (row .ShapeRepresentation).Val) ∧
    Holds m ax .Axis3D ((q, .omitted, .omitted) : Nat × Opt Nat × Opt Nat) ∧ Holds m q .Point3D u.origin

/-- from `r` to `r'` by the given turns, one after the other -/
inductive Chain (unit : V3 → V3) (sub : Nat) (m : DataMap) : List Turn → Nat → Nat → Prop
  | nil (r : Nat) : Chain unit sub m [] r r
  | snoc {us : List Turn} {u : Turn} {r'' r' r : Nat} : Chain unit sub m us r' r → Wraps unit sub m u r'' r' →
      Chain unit sub m (us ++ [u]) r'' r

/-- the members of two lists are related one to one, in order -/
inductive Paired {α β : Type} (R : α → β → Prop) : List α → List β → Prop
  | nil : Paired R [] []
  | cons {a : α} {b : β} {l : List α} {l' : List β} : R a b → Paired R l l' → Paired R (a :: l) (b :: l')

/-- the transforms among the calls that were made on an object with shape `sh`, in order -/
def turnsOf (m : DataMap) (sh : Nat) (log : List Ev) : List Turn :=
  log.filterMap fun
    | .transform _ i t => if (m.lookup i).bind shownBy = some sh then some ⟨t, (F64.zero, F64.zero, F64.zero), false⟩ else none
    | _ => none

/-- the shape has the wished body and, if wished, axis, each turned as given, and nothing else -/
def IsTurned (unit : V3 → V3) (m : DataMap) (s sub : Nat) (b : Body) (axis : Option V3) (us : List Turn) : Prop :=
  ∃ r r', IsBody m r sub b ∧ Chain unit sub m us r' r ∧
    match axis with
    | none => Holds m s .ProductDefinitionShape ((.omitted, .omitted, [r']) : Opt Str × Opt Str × List Nat)
    | some tip => ∃ a a', IsAxis m a sub tip ∧ Chain unit sub m us a' a ∧
        Holds m s .ProductDefinitionShape ((.omitted, .omitted, [r', a']) : Opt Str × Opt Str × List Nat)

/-- under `i` there is an element of kind `k` as wished, with shape `s`, turned as given -/
def Shown (unit : V3 → V3) (m : DataMap) (k : Kind) (i : Nat) (w : Wish) (s : Nat) (us : List Turn) : Prop :=
  ∃ e g p, m.lookup i = some e ∧ IsElement k e g w.hist (strFrom w.name) p s ∧
    IsPlace m p w.hostKind w.host w.pos ∧ IsTurned unit m s w.sub w.body w.axis us

end Verif.Build
