import Verif.Spec.Builder
/-
What the entities behind a built element say about its name, place and body, read from the stored values alone.
-/
namespace Verif.Build
open Verif Schema

/-- the value stored under an id -/
def Holds (m : DataMap) (i : Nat) (k : Kind) (v : (row k).Val) : Prop := m.lookup i = some (.known k v)

/-! ### Layers -/

/-- the thicknesses of the given layers, one for each -/
inductive Thicknesses (m : DataMap) : List Nat → List F64 → Prop
  | nil : Thicknesses m [] []
  | cons {i : Nat} {is : List Nat} {t : F64} {ts : List F64} (mat : Opt Nat) (rest : Tri × Opt Str × Opt Str × Opt Str × Opt Int) :
      Holds m i .MaterialLayer ((mat, t, rest) : Opt Nat × F64 × Tri × Opt Str × Opt Str × Opt Str × Opt Int) →
      Thicknesses m is ts → Thicknesses m (i :: is) (t :: ts)

/-- the thicknesses of the layers of the set used by a layer set usage -/
def UsageThicknesses (m : DataMap) (usage : Nat) (ts : List F64) : Prop :=
  ∃ set rest layers names,
    Holds m usage .MaterialLayerSetUsage ((set, rest) :
      Nat × Fin eLayerSetDirectionEnum.length × Fin eDirectionSenseEnum.length × F64 × Opt F64) ∧
    Holds m set .MaterialLayerSet ((layers, names) : List Nat × Opt Str × Opt Str) ∧
    Thicknesses m layers ts

/-- added from the left in the given order, starting with `z` -/
inductive IsSum (z : F64) : List F64 → F64 → Prop
  | nil : IsSum z [] z
  | snoc {ts : List F64} {x : F64} (t : F64) : IsSum z ts x → IsSum z (ts ++ [t]) (x.add t)

/-- `t` is the sum of the thicknesses of the layers used by `usage`, in order -/
def LayerSum (z : F64) (m : DataMap) (usage : Nat) (t : F64) : Prop := ∃ ts, UsageThicknesses m usage ts ∧ IsSum z ts t

/-! ### Vectors -/

/-- from `b` to `a` -/
def diff3 : V3 → V3 → V3
  | (x, y, z), (x', y', z') => (x.sub x', y.sub y', z.sub z')

/-- the vector product -/
def cross3 : V3 → V3 → V3
  | (x, y, z), (x', y', z') => ((y.mul z').sub (y'.mul z), (z.mul x').sub (z'.mul x), (x.mul y').sub (x'.mul y))

/-! ### Bodies -/

inductive Outline where
  /-- a rectangle `x` by `y` with a corner in the origin -/
  | rect (x y : F64)
  | flat (points : List V2)
  | spatial (points : List V3)

/-- an outline moved along a direction -/
structure Body where
  outline : Outline
  dir : V3
  depth : F64

def IsOutline (m : DataMap) (i : Nat) : Outline → Prop
  | .rect x y => ∃ t a p, eProfileType.get t = cs! ".AREA." ∧
      Holds m i .RectangleProfileDef ((t, .omitted, .custom a, x, y) :
        Fin eProfileType.length × Opt Str × Opt Nat × F64 × F64) ∧
      Holds m a .Axis2D ((p, .omitted) : Nat × Opt Nat) ∧ Holds m p .Point2D (x.mul F64.oneHalf, y.mul F64.oneHalf)
  | .flat l => ∃ t c q, eProfileType.get t = cs! ".AREA." ∧
      Holds m i .ArbitraryClosedProfileDef ((t, .omitted, c) : Fin eProfileType.length × Opt Str × Nat) ∧
      Holds m c .IndexedPolyCurve ((q, .omitted, .omitted) : Nat × Opt Str × Opt Tri) ∧
      Holds m q .PointList2D ((l, .omitted) : List V2 × Opt (List Str))
  | .spatial l => ∃ t c q, eProfileType.get t = cs! ".AREA." ∧
      Holds m i .ArbitraryClosedProfileDef ((t, .omitted, c) : Fin eProfileType.length × Opt Str × Nat) ∧
      Holds m c .IndexedPolyCurve ((q, .omitted, .omitted) : Nat × Opt Str × Opt Tri) ∧
      Holds m q .PointList3D ((l, .omitted) : List V3 × Opt (List Str))

/-- a representation marked `name` and `type`, in context `sub`, with the given items -/
def IsRepr (m : DataMap) (r sub : Nat) (name type : Str) (items : List Nat) : Prop :=
  ∃ n t, eRepresentationIdentifier.get n = name ∧ eRepresentationType.get t = type ∧
    Holds m r .ShapeRepresentation ((sub, .custom n, .custom t, items) :
      Nat × Opt (Fin eRepresentationIdentifier.length) × Opt (Fin eRepresentationType.length) × List Nat)

/-- the representation `r` is an extruded body -/
def IsBody (m : DataMap) (r sub : Nat) (b : Body) : Prop :=
  ∃ i o d, IsRepr m r sub (cs! "'Body'") (cs! "'SweptSolid'") [i] ∧
    Holds m i .ExtrudedAreaSolid ((o, .omitted, d, b.depth) : Nat × Opt Nat × Nat × F64) ∧
    Holds m d .Direction3D b.dir ∧ IsOutline m o b.outline

/-- the representation `r` is a line from the origin to `tip` -/
def IsAxis (m : DataMap) (r sub : Nat) (tip : V3) : Prop :=
  ∃ i p q, IsRepr m r sub (cs! "'Axis'") (cs! "'Curve2D'") [i] ∧
    Holds m i .PolyLine ([p, q] : List Nat) ∧
    Holds m p .Point3D (F64.zero, F64.zero, F64.zero) ∧ Holds m q .Point3D tip

/-! ### Elements -/

/-- `e` is an element of kind `k` with the given label, placement and shape, and everything else left out -/
inductive IsElement : Kind → Entity → Guid → Nat → Str → Nat → Nat → Prop
  | wall (g h n p s) : IsElement .Wall (.known .Wall
      ((((((g, .custom h, .custom n, .omitted), .omitted), .custom p, .custom s), .omitted), .omitted) :
        Element × Opt (IdOr (row .WallType).Val))) g h n p s
  | slab (g h n p s) : IsElement .Slab (.known .Slab
      ((((((g, .custom h, .custom n, .omitted), .omitted), .custom p, .custom s), .omitted), .omitted) :
        Element × Opt (Fin eSlabTypeEnum.length))) g h n p s
  | roof (g h n p s) : IsElement .Roof (.known .Roof
      ((((((g, .custom h, .custom n, .omitted), .omitted), .custom p, .custom s), .omitted), .omitted) :
        Element × Opt (Fin eRoofTypeEnum.length))) g h n p s
  | shade (g h n p s) : IsElement .ShadingDevice (.known .ShadingDevice
      ((((((g, .custom h, .custom n, .omitted), .omitted), .custom p, .custom s), .omitted), .omitted) :
        Element × Opt (Fin eShadingDeviceTypeEnum.length))) g h n p s
  | opening (g h n p s) : IsElement .OpeningElement (.known .OpeningElement
      ((((((g, .custom h, .custom n, .omitted), .omitted), .custom p, .custom s), .omitted), .omitted) :
        Element × Opt (Fin eOpeningElementTypeEnum.length))) g h n p s
  | window (g h n p s) : IsElement .Window (.known .Window
      ((((((g, .custom h, .custom n, .omitted), .omitted), .custom p, .custom s), .omitted),
          .omitted, .omitted, .omitted, .omitted, .omitted) :
        Element × Opt F64 × Opt F64 × Opt (Fin eWindowTypeEnum.length) ×
          Opt (Fin eWindowPartitioningTypeEnum.length) × Opt Str)) g h n p s
  | space (g h n p s) : IsElement .Space (.known .Space
      (((((((g, .custom h, .custom n, .omitted), .omitted), .custom p, .custom s), .omitted), .omitted),
          .omitted, .omitted) :
        (Element × Opt (Fin eCompositionTypeEnum.length)) × Opt (Fin eSpaceTypeEnum.length) × Opt F64)) g h n p s

/-- `e` is a site, building, storey, wall, slab or opening placed by the local placement `p` -/
inductive PlacedBy : Kind → Entity → Nat → Prop
  | site (o : Object) (s : Opt Nat) (x : Opt Str) (c : Opt (Fin eCompositionTypeEnum.length))
      (z : Opt (List Int) × Opt (List Int) × Opt F64 × Opt Str × Opt Nat) (p : Nat) :
      PlacedBy .Site (.known .Site (((((o, .custom p, s), x), c), z) :
        (Element × Opt (Fin eCompositionTypeEnum.length)) × Opt (List Int) × Opt (List Int) × Opt F64 × Opt Str × Opt Nat)) p
  | building (o : Object) (s : Opt Nat) (x : Opt Str) (c : Opt (Fin eCompositionTypeEnum.length))
      (z : Opt F64 × Opt F64 × Opt Nat) (p : Nat) :
      PlacedBy .Building (.known .Building (((((o, .custom p, s), x), c), z) :
        (Element × Opt (Fin eCompositionTypeEnum.length)) × Opt F64 × Opt F64 × Opt Nat)) p
  | storey (o : Object) (s : Opt Nat) (x : Opt Str) (c : Opt (Fin eCompositionTypeEnum.length)) (z : Opt F64) (p : Nat) :
      PlacedBy .Storey (.known .Storey (((((o, .custom p, s), x), c), z) :
        (Element × Opt (Fin eCompositionTypeEnum.length)) × Opt F64)) p
  | wall (o : Object) (s : Opt Nat) (x : Opt Str) (c : Opt (IdOr (row .WallType).Val)) (p : Nat) :
      PlacedBy .Wall (.known .Wall ((((o, .custom p, s), x), c) : Element × Opt (IdOr (row .WallType).Val))) p
  | slab (o : Object) (s : Opt Nat) (x : Opt Str) (c : Opt (Fin eSlabTypeEnum.length)) (p : Nat) :
      PlacedBy .Slab (.known .Slab ((((o, .custom p, s), x), c) : Element × Opt (Fin eSlabTypeEnum.length))) p
  | opening (o : Object) (s : Opt Nat) (x : Opt Str) (c : Opt (Fin eOpeningElementTypeEnum.length)) (p : Nat) :
      PlacedBy .OpeningElement (.known .OpeningElement
        ((((o, .custom p, s), x), c) : Element × Opt (Fin eOpeningElementTypeEnum.length))) p

/-- the local placement `p` is at `pos` relative to the place of the `k` under `host` -/
def IsPlace (m : DataMap) (p : Nat) (k : Kind) (host : Nat) (pos : V3) : Prop :=
  ∃ e r a q, m.lookup host = some e ∧ PlacedBy k e r ∧
    Holds m p .LocalPlacement ((.custom r, a) : Opt Nat × Nat) ∧
    Holds m a .Axis3D ((q, .omitted, .omitted) : Nat × Opt Nat × Opt Nat) ∧ Holds m q .Point3D pos

/-- what is asked for when an element is made -/
structure Wish where
  name : Str
  hist : Nat
  sub : Nat
  hostKind : Kind
  host : Nat
  pos : V3
  body : Body
  axis : Option V3

/-- the shape has the wished body and, if wished, axis, and nothing else -/
def IsShape (m : DataMap) (s sub : Nat) (b : Body) (axis : Option V3) : Prop :=
  ∃ r, IsBody m r sub b ∧
    match axis with
    | none => Holds m s .ProductDefinitionShape ((.omitted, .omitted, [r]) : Opt Str × Opt Str × List Nat)
    | some tip => ∃ a, IsAxis m a sub tip ∧
        Holds m s .ProductDefinitionShape ((.omitted, .omitted, [r, a]) : Opt Str × Opt Str × List Nat)

/-- under `i` there is an element of kind `k` as wished -/
def IsMade (m : DataMap) (k : Kind) (i : Nat) (w : Wish) : Prop :=
  ∃ e g p s, m.lookup i = some e ∧ IsElement k e g w.hist (strFrom w.name) p s ∧
    IsPlace m p w.hostKind w.host w.pos ∧ IsShape m s w.sub w.body w.axis

end Verif.Build
