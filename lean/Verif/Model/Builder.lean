import Verif.Model.Mapping
import Verif.Model.F64Ops
import Verif.Model.File
/-
The builders (`/repo/ifc_rs/src/ifc_builder`) and the constructors they call.  Paths are relative to /repo/ifc_rs/src.

A builder function is a function from the state (model under construction and builder fields) to its result and the
new state, or a panic.  What is not decided by the program text is a parameter (`World`): new global ids, the clock,
vector normalisation, the start value of `sum::<f64>()` and the order in which hash tables are walked.
-/
namespace Verif.Build
open Verif Schema Mapping

/-- Things the program does not decide. -/
structure World where
  /-- n-th `Uuid::new_v4()` (id/ifc_uuid.rs:36-39) -/
  guid : Nat → Guid
  /-- n-th `IfcTimestamp::now()` (parser/timestamp.rs:17-19) -/
  now : Nat → Stamp
  /-- `Utc::now()` in the header (meta/header/mod.rs:62-125) -/
  clock : Civil
  /-- `DVec3::normalize` (crate `glam`) -/
  unit : V3 → V3
  /-- `0.0` or `-0.0`, depending on the standard library's version -/
  sumStart : F64
  /-- n-th walk through a hash table holding the given keys -/
  order : Nat → List Nat → List Nat

/-- a hash table walk visits every key once -/
def World.Fair (W : World) : Prop := ∀ n l, (W.order n l).Perm l

/-- ifc_builder/transforms.rs:7-13 -/
structure Transform where
  translation : V3
  x : V3
  y : V3
  z : V3
  deriving DecidableEq, Repr

/-- kinds of elements a storey builder keeps sets of (ifc_builder/storey.rs:13-19); openings are kept apart -/
inductive Part where
  | wall | slab | roof | window | shade | space
  deriving DecidableEq, Repr

/-- the nine material tables (ifc_builder/project.rs:17-28), in the order `build` writes them (132-140) -/
inductive Mat where
  | wall | slab | roof | window | wallType | slabType | roofType | shade | shadeType
  deriving DecidableEq, Repr

/-! ### Trace of calls (specification only: the builders never read it) -/

/-- A finished call with the ids passed to it and the id it returned.  `window` also shows the id of the opening made
by the call, which the code does not return. -/
inductive Ev where
  | project (id : Nat)
  | site (id : Nat)
  | building (id : Nat)
  | storey (id : Nat)
  | elem (p : Part) (mat : Option Nat) (ty id : Nat)
  | type (p : Part) (mat : Option Nat) (id : Nat)
  | opening (k : Kind) (host id : Nat)
  | window (k : Kind) (host op mat ty id : Nat)
  | other (k : Kind) (uses : List (Kind × Nat)) (id : Nat)
  | relate (k : Kind) (set obj : Nat)
  | transform (k : Kind) (id : Nat) (t : Transform)
  deriving DecidableEq

/-! ### State -/

abbrev Root := Guid × Opt Nat × Opt Str × Opt Str
abbrev Object := Root × Opt Str
abbrev Element := Product × Opt Str
abbrev TypeVal := ((Root × Opt Nat × Opt (List Nat)) × Opt (List Nat) × Opt Str) × Opt Str
abbrev RelMat := (Root × List Nat) × Nat
abbrev Shape := Opt Str × Opt Str × List Nat

/-- Fields of the project, site, building and storey builder (ifc_builder/project.rs:7-29, site.rs:7-15,
building.rs:7-15, storey.rs:5-44).  Each of the inner ones is alive only while the outer one is borrowed, so there is
never more than one of each; hash sets and maps are lists in the order of insertion.  `opening_elements` is never
read and left out. -/
structure Book where
  hist : Nat
  project : Nat
  sites : List Nat
  mats : Mat → List (Nat × RelMat)
  site : Nat
  buildings : List Nat
  building : Nat
  storeys : List Nat
  storey : Nat
  sub : Nat
  members : Part → List Nat
  typed : Part → List (Nat × List Nat)
  wallOpenings : List (Nat × Nat)
  slabOpenings : List (Nat × Nat)
  windowOpenings : List (Nat × Nat)

structure St where
  data : DataMap
  guids : Nat
  nows : Nat
  walks : Nat
  book : Book
  log : List Ev

/-- a builder function -/
def B (α : Type) : Type := St → Ret (α × St)

instance : Monad B where
  pure a := fun s => .val (a, s)
  bind x f := fun s => match x s with
    | .val (a, s') => f a s'
    | .panic => .panic

/-- `ifc.data.insert_new(…)` -/
def new (k : Kind) (v : (row k).Val) : B Nat := fun s =>
  match s.data.insertNew (.known k v) with
  | .val (d, i) => .val (i, { s with data := d })
  | .panic => .panic

/-- a computation that only looks at the model -/
def look {α : Type} (f : DataMap → Ret α) : B α := fun s =>
  match f s.data with
  | .val a => .val (a, s)
  | .panic => .panic

/-- `unwrap` / `expect` -/
def unwrap {α : Type} : Option α → B α
  | some a => pure a
  | none => fun _ => .panic

def book : B Book := fun s => .val (s.book, s)
def update (f : Book → Book) : B Unit := fun s => .val ((), { s with book := f s.book })
def say (e : Ev) : B Unit := fun s => .val ((), { s with log := s.log ++ [e] })

/-- id/ifc_uuid.rs:36-39 -/
def freshGuid (W : World) : B Guid := fun s => .val (W.guid s.guids, { s with guids := s.guids + 1 })
/-- parser/timestamp.rs:17-19 -/
def now (W : World) : B Stamp := fun s => .val (W.now s.nows, { s with nows := s.nows + 1 })
/-- `iter()` of a hash set -/
def walk (W : World) (l : List Nat) : B (List Nat) := fun s => .val (W.order s.walks l, { s with walks := s.walks + 1 })

/-- `for x in l` -/
def each {α : Type} (f : α → B Unit) : List α → B Unit
  | [] => pure ()
  | a :: l => do
    f a
    each f l

/-- `l.map(f).collect()` -/
def mapB {α β : Type} (f : α → B β) : List α → B (List β)
  | [] => pure []
  | a :: l => do
    let b ← f a
    let r ← mapB f l
    return b :: r

/-! ### Hash sets and maps -/

/-- `HashSet::insert` -/
def setInsert (l : List Nat) (i : Nat) : List Nat := if i ∈ l then l else l ++ [i]

/-- `HashMap::get` -/
def mapGet {α : Type} : List (Nat × α) → Nat → Option α
  | [], _ => none
  | (j, a) :: r, i => if i = j then some a else mapGet r i

/-- `HashMap::insert` -/
def mapSet {α : Type} : List (Nat × α) → Nat → α → List (Nat × α)
  | [], i, a => [(i, a)]
  | (j, b) :: r, i, a => if i = j then (i, a) :: r else (j, b) :: mapSet r i a

/-- a table with one field changed -/
def setAt {κ α : Type} [DecidableEq κ] (f : κ → α) (p : κ) (a : α) : κ → α := fun q => if q = p then a else f q

/-- `iter()` of a hash map -/
def walkMap {α : Type} (W : World) (m : List (Nat × α)) : B (List (Nat × α)) := do
  let ks ← walk W (m.map (·.1))
  return ks.filterMap fun i => (mapGet m i).map fun a => (i, a)

/-! ### Constructors of objects -/

/-- objects/shared/root.rs:41-50 -/
def rootNew (W : World) (name : Str) : B Root := do
  return (← freshGuid W, .omitted, .custom (strFrom name), .omitted)

/-- objects/shared/root.rs:55-64 -/
def rootHist (r : Root) (h : Nat) : Root := (r.1, .custom h, r.2.2)

/-- the root of an object made for the builder: `new(name).owner_history(self.owner_history, …)` -/
def rootOf (W : World) (name : Str) : B Root := do
  let r ← rootNew W name
  return rootHist r (← book).hist

/-- objects/shared/object.rs:32-37, objects/shared/product.rs:53-59, 123-139 -/
def productOf' (r : Root) (placement shape : Opt Nat) : Product := ((r, .omitted), placement, shape)
/-- objects/shared/element.rs:32-37, objects/shared/spatial_element.rs:33-38 -/
def elementOf (p : Product) : Element := (p, .omitted)
/-- objects/wall/mod.rs:34-39 -/
def wallV (e : Element) : (row .Wall).Val := ((e, .omitted) : Element × Opt (IdOr (row .WallType).Val))
/-- objects/slab/mod.rs:54-59 -/
def slabV (e : Element) : (row .Slab).Val := ((e, .omitted) : Element × Opt (Fin eSlabTypeEnum.length))
/-- objects/roof/mod.rs:54-59 -/
def roofV (e : Element) : (row .Roof).Val := ((e, .omitted) : Element × Opt (Fin eRoofTypeEnum.length))
/-- objects/shading_device.rs:34-40 -/
def shadeV (e : Element) : (row .ShadingDevice).Val := ((e, .omitted) : Element × Opt (Fin eShadingDeviceTypeEnum.length))
/-- objects/opening_element/mod.rs:72-77 -/
def openingV (e : Element) : (row .OpeningElement).Val :=
  ((e, .omitted) : Element × Opt (Fin eOpeningElementTypeEnum.length))
/-- objects/window/mod.rs:106-115 -/
def windowV (e : Element) : (row .Window).Val :=
  ((e, .omitted, .omitted, .omitted, .omitted, .omitted) : Element × Opt F64 × Opt F64 × Opt (Fin eWindowTypeEnum.length) ×
    Opt (Fin eWindowPartitioningTypeEnum.length) × Opt Str)
/-- objects/space/mod.rs:58-67, objects/shared/spatial_structure_element.rs:33-38 -/
def spaceV (e : Element) : (row .Space).Val :=
  (((e, .omitted), .omitted, .omitted) :
    (Element × Opt (Fin eCompositionTypeEnum.length)) × Opt (Fin eSpaceTypeEnum.length) × Opt F64)
/-- objects/site.rs:82-93 -/
def siteV (e : Element) : (row .Site).Val :=
  (((e, .omitted), .omitted, .omitted, .omitted, .omitted, .omitted) :
    (Element × Opt (Fin eCompositionTypeEnum.length)) × Opt (List Int) × Opt (List Int) × Opt F64 × Opt Str × Opt Nat)
/-- objects/building.rs:42-51 -/
def buildingV (e : Element) : (row .Building).Val :=
  (((e, .omitted), .omitted, .omitted, .omitted) :
    (Element × Opt (Fin eCompositionTypeEnum.length)) × Opt F64 × Opt F64 × Opt Nat)
/-- objects/storey.rs:72-79 -/
def storeyV (e : Element) : (row .Storey).Val :=
  (((e, .omitted), .omitted) : (Element × Opt (Fin eCompositionTypeEnum.length)) × Opt F64)

/-- objects/shared/type_object.rs:49-55, type_product.rs:45-51, element_type.rs:36-41 -/
def typeOf (r : Root) : TypeVal := (((r, .omitted, .omitted), .omitted, .omitted), .omitted)
/-- objects/walltype/mod.rs:35-42 -/
def wallTypeV (t : TypeVal) (e : Fin eWallTypeEnum.length) : (row .WallType).Val :=
  ((t, e) : TypeVal × Fin eWallTypeEnum.length)
/-- objects/slabtype/mod.rs:51-58 -/
def slabTypeV (t : TypeVal) (e : Fin eSlabTypeEnum.length) : (row .SlabType).Val :=
  ((t, e) : TypeVal × Fin eSlabTypeEnum.length)
/-- objects/rooftype/mod.rs:31-38 -/
def roofTypeV (t : TypeVal) (e : Fin eRoofTypeEnum.length) : (row .RoofType).Val :=
  ((t, e) : TypeVal × Fin eRoofTypeEnum.length)
/-- objects/shading_device_type.rs:36-43 -/
def shadeTypeV (t : TypeVal) (e : Fin eShadingDeviceTypeEnum.length) : (row .ShadingDeviceType).Val :=
  ((t, e) : TypeVal × Fin eShadingDeviceTypeEnum.length)
/-- objects/windowtype/mod.rs:69-83 -/
def windowTypeV (t : TypeVal) (e : Fin eWindowTypeEnum.length) (p : Fin eWindowPartitioningTypeEnum.length) :
    (row .WindowType).Val :=
  ((t, e, p, .omitted, .omitted) :
    TypeVal × Fin eWindowTypeEnum.length × Fin eWindowPartitioningTypeEnum.length × Opt Tri × Opt Str)
/-- objects/spacetype/mod.rs:56-64 -/
def spaceTypeV (t : TypeVal) (e : Fin eSpaceTypeEnum.length) : (row .SpaceType).Val :=
  ((t, e, .omitted) : TypeVal × Fin eSpaceTypeEnum.length × Opt Str)

/-! ### Constructors of geometry -/

def identAxis : Fin eRepresentationIdentifier.length := ⟨3, by decide⟩
def identBody : Fin eRepresentationIdentifier.length := ⟨8, by decide⟩
def reprCurve2D : Fin eRepresentationType.length := ⟨3, by decide⟩
def reprSweptSolid : Fin eRepresentationType.length := ⟨19, by decide⟩
def reprMapped : Fin eRepresentationType.length := ⟨28, by decide⟩
def profileArea : Fin eProfileType.length := ⟨1, by decide⟩
example : eRepresentationIdentifier.get identAxis = cs! "'Axis'" ∧ eRepresentationIdentifier.get identBody = cs! "'Body'" ∧
    eRepresentationType.get reprCurve2D = cs! "'Curve2D'" ∧ eRepresentationType.get reprSweptSolid = cs! "'SweptSolid'" ∧
    eRepresentationType.get reprMapped = cs! "'MappedRepresentation'" ∧ eProfileType.get profileArea = cs! ".AREA." := by
  decide

def zero3 : V3 := (F64.zero, F64.zero, F64.zero)
def axisX : V3 := (F64.one, F64.zero, F64.zero)
def axisY : V3 := (F64.zero, F64.one, F64.zero)
def axisZ : V3 := (F64.zero, F64.zero, F64.one)

/-- `DVec3 + DVec3` (crate `glam`) -/
def vadd (a b : V3) : V3 := (a.1.add b.1, a.2.1.add b.2.1, a.2.2.add b.2.2)
/-- `DVec3 - DVec3` -/
def vsub (a b : V3) : V3 := (a.1.sub b.1, a.2.1.sub b.2.1, a.2.2.sub b.2.2)
/-- `DVec3 * f64` -/
def vscale (a : V3) (x : F64) : V3 := (a.1.mul x, a.2.1.mul x, a.2.2.mul x)
/-- `DVec3::cross` -/
def vcross (a b : V3) : V3 :=
  ((a.2.1.mul b.2.2).sub (b.2.1.mul a.2.2), (a.2.2.mul b.1).sub (b.2.2.mul a.1), (a.1.mul b.2.1).sub (b.1.mul a.2.1))
/-- `DVec2::extend` -/
def extend (a : V2) (z : F64) : V3 := (a.1, a.2, z)

/-- geometry/axis/mod.rs:100-108, 47-54: the value; the point is inserted -/
def axis3New (p : V3) : B (row .Axis3D).Val := do
  let i ← new .Point3D p
  return ((i, .omitted, .omitted) : Nat × Opt Nat × Opt Nat)
def axis2New (p : V2) : B (row .Axis2D).Val := do
  let i ← new .Point2D p
  return ((i, .omitted) : Nat × Opt Nat)

/-- geometry/shape_representation/mod.rs:69-88: `new(..)` with the items added -/
def reprV (sub : Nat) (ident : Fin eRepresentationIdentifier.length) (ty : Fin eRepresentationType.length)
    (items : List Nat) : (row .ShapeRepresentation).Val :=
  ((sub, .custom ident, .custom ty, items) : Nat × Opt (Fin eRepresentationIdentifier.length) ×
    Opt (Fin eRepresentationType.length) × List Nat)

/-- geometry/extruded_area_solid.rs:53-65 -/
def solidV (profile dir : Nat) (depth : F64) : (row .ExtrudedAreaSolid).Val :=
  ((profile, .omitted, dir, depth) : Nat × Opt Nat × Nat × F64)

/-- geometry/product_definition_shape/mod.rs:51-57 -/
def shapeNew : Shape := (.omitted, .omitted, [])
def shapeV (s : Shape) : (row .ProductDefinitionShape).Val := s

/-- geometry/product_definition_shape/mod.rs:198-208 -/
def addRepr (s : Shape) (v : (row .ShapeRepresentation).Val) : B Shape := do
  let i ← new .ShapeRepresentation v
  return (s.1, s.2.1, s.2.2 ++ [i])

/-- geometry/product_definition_shape/mod.rs:59-92 -/
def rectShape (length height thickness : F64) (dir : V3) : B Shape := do
  let sub := (← book).sub
  let a ← axis2New (length.mul F64.oneHalf, thickness.mul F64.oneHalf)
  let ai ← new .Axis2D a
  let pi ← new .RectangleProfileDef ((profileArea, .omitted, .custom ai, length, thickness) :
    Fin eProfileType.length × Opt Str × Opt Nat × F64 × F64)
  let di ← new .Direction3D dir
  let si ← new .ExtrudedAreaSolid (solidV pi di height)
  addRepr shapeNew (reprV sub identBody reprSweptSolid [si])

/-- geometry/product_definition_shape/mod.rs:94-186: the part shared by the three functions, after the point list;
geometry/indexed_poly_curve/mod.rs:41-49, geometry/arbitrary_closed_profile_def/mod.rs:46-57 -/
def curveShape (points : Nat) (thickness : F64) (dir : V3) (sub : Nat) : B Shape := do
  let ci ← new .IndexedPolyCurve ((points, .omitted, .omitted) : Nat × Opt Str × Opt Tri)
  let pi ← new .ArbitraryClosedProfileDef ((profileArea, .omitted, ci) : Fin eProfileType.length × Opt Str × Nat)
  let di ← new .Direction3D dir
  let si ← new .ExtrudedAreaSolid (solidV pi di thickness)
  addRepr shapeNew (reprV sub identBody reprSweptSolid [si])

/-- geometry/product_definition_shape/mod.rs:94-121 -/
def horizontalShape (W : World) (coords : List V2) (thickness : F64) : B Shape := do
  let sub := (← book).sub
  let l ← new .PointList2D ((coords, .omitted) : List V2 × Opt (List Str))
  curveShape l thickness (W.unit axisZ) sub

/-- geometry/product_definition_shape/mod.rs:123-156 -/
def verticalShape (W : World) (coords : List V2) (thickness : F64) : B Shape := do
  let sub := (← book).sub
  let l ← new .PointList3D ((coords.map fun c => (c.1, F64.zero, c.2), .omitted) : List V3 × Opt (List Str))
  curveShape l thickness (W.unit axisY) sub

/-- geometry/product_definition_shape/mod.rs:158-186 -/
def arbitraryShape (W : World) (coords : List V3) (thickness : F64) (dir : V3) : B Shape := do
  let sub := (← book).sub
  let l ← new .PointList3D ((coords, .omitted) : List V3 × Opt (List Str))
  curveShape l thickness (W.unit dir) sub

/-- geometry/local_placement/mod.rs:37-42: the value; the axis is inserted -/
def placementNew (a : (row .Axis3D).Val) : B (row .LocalPlacement).Val := do
  let i ← new .Axis3D a
  return ((.omitted, i) : Opt Nat × Nat)

/-- traits/relative_placement.rs:7-42: `placement_id` of a stored `k` -/
def placementOf (k : Kind) (i : Nat) (m : DataMap) : Ret (Option Nat) := do
  let v ← DataMap.get m k i
  return (productOf (.known k v)).bind placementId

/-- traits/relative_placement.rs:45-58, geometry/local_placement/mod.rs:44-51 -/
def placementRel (a : (row .Axis3D).Val) (k : Kind) (i : Nat) : B (row .LocalPlacement).Val := do
  let r ← unwrap (← look (placementOf k i))
  let ai ← new .Axis3D a
  return ((.custom r, ai) : Opt Nat × Nat)

/-! ### Relations -/

/-- relations/rel_aggregates.rs:39-49 -/
def relAggregates (W : World) (name : Str) (parent : Nat) (children : List Nat) : B Nat := do
  new .RelAggregates ((← rootNew W name, parent, children) : Root × Nat × List Nat)

/-- relations/rel_associates_material.rs:34-43 with `.owner_history(..)` -/
def relMatNew (W : World) (name : Str) (mat : Nat) : B RelMat := do
  return ((← rootOf W name, []), mat)

/-- objects/shared/rel_associates.rs:43-48 -/
def relMatPush (r : RelMat) (i : Nat) : RelMat := ((r.1.1, r.1.2 ++ [i]), r.2)

/-- relations/rel_associates_material.rs:45-47 -/
def isRelatedTo (r : RelMat) (i : Nat) : Bool := decide (i ∈ r.1.2)

/-- the name of a material relation (`format!("Material{material:?}To…")`; `Debug` of an id prints the number) -/
def matName (mat : Nat) (suffix : Str) : Str := cs! "Material" ++ natStr mat ++ suffix

/-- `self.project.material_to_….entry(material).or_insert_with(..).relate_push(id, ..)`
(ifc_builder/walls.rs:278-289, 307-318 and the same in slabs.rs, roofs.rs, windows.rs, shading_devices.rs) -/
def relateMaterial (W : World) (slot : Mat) (suffix : Str) (mat id : Nat) : B Unit := do
  let b ← book
  let r ← match mapGet (b.mats slot) mat with
    | some r => pure r
    | none => relMatNew W (matName mat suffix) mat
  update fun b => { b with mats := setAt b.mats slot (mapSet (b.mats slot) mat (relMatPush r id)) }

/-- `self.….insert(id)` on one of the element sets -/
def addMember (p : Part) (id : Nat) : B Unit :=
  update fun b => { b with members := setAt b.members p (setInsert (b.members p) id) }

/-- `self.…_type_to_….entry(ty).or_default().insert(id)` -/
def addTyped (p : Part) (ty id : Nat) : B Unit :=
  update fun b => { b with typed := setAt b.typed p
                            (mapSet (b.typed p) ty (setInsert ((mapGet (b.typed p) ty).getD []) id)) }

/-- `self.wall_type_to_wall.entry(ty).or_default()` (ifc_builder/walls.rs:277) -/
def touchType (p : Part) (ty : Nat) : B Unit :=
  update fun b => { b with typed := setAt b.typed p (mapSet (b.typed p) ty ((mapGet (b.typed p) ty).getD [])) }

/-- `self.…_type_to_….insert(ty, HashSet::new())` (ifc_builder/slabs.rs:213, roofs.rs:59, windows.rs:278,
shading_devices.rs:28, spaces.rs:61) -/
def freshType (p : Part) (ty : Nat) : B Unit :=
  update fun b => { b with typed := setAt b.typed p (mapSet (b.typed p) ty []) }

/-! ### Materials (ifc_builder/materials.rs) -/

abbrev LayerVal := Opt Nat × F64 × Tri × Opt Str × Opt Str × Opt Str × Opt Int

/-- ifc_builder/materials.rs:98-101, materials/material.rs:32-38 -/
def material (name : Str) : B Nat :=
  new .Material ((.custom (strFrom name), .omitted, .omitted) : Opt Str × Opt Str × Opt Str)

/-- ifc_builder/materials.rs:5-13, materials/material_layer.rs:85-88 -/
def materialLayer (name : Str) (layer : LayerVal) : B Nat := do
  let m ← material name
  new .MaterialLayer ((.custom m, layer.2) : LayerVal)

/-- ifc_builder/materials.rs:16-27, materials/material_layer_set.rs:39-60 -/
def materialLayerSet (layers : List Nat) : B Nat :=
  new .MaterialLayerSet ((layers, .omitted, .omitted) : List Nat × Opt Str × Opt Str)

/-- ifc_builder/materials.rs:30-46, materials/material_layer_set_usage.rs:66-80 -/
def materialLayerSetUsage (set : Nat) (dir : Fin eLayerSetDirectionEnum.length) (sense : Fin eDirectionSenseEnum.length)
    (offset : F64) : B Nat :=
  new .MaterialLayerSetUsage ((set, dir, sense, offset, .omitted) :
    Nat × Fin eLayerSetDirectionEnum.length × Fin eDirectionSenseEnum.length × F64 × Opt F64)

/-- ifc_builder/materials.rs:49-69 -/
def thickness (W : World) (usage : Nat) (m : DataMap) : Ret F64 := do
  let u : Nat × Fin eLayerSetDirectionEnum.length × Fin eDirectionSenseEnum.length × F64 × Opt F64 ←
    DataMap.get m .MaterialLayerSetUsage usage
  let s : List Nat × Opt Str × Opt Str ← DataMap.get m .MaterialLayerSet u.1
  let ts ← Ret.mapL (fun i => do
    let l : LayerVal ← DataMap.get m .MaterialLayer i
    return l.2.1) s.1
  return ts.foldl F64.add W.sumStart

/-- ifc_builder/materials.rs:72-80, materials/material_constituent.rs:46-64 -/
def materialConstituent (material' name : Str) : B Nat := do
  let m ← material material'
  new .MaterialConstituent ((.custom (strFrom name), .omitted, m, .omitted, .omitted) :
    Opt Str × Opt Str × Nat × Opt F64 × Opt Str)

/-- ifc_builder/materials.rs:83-95, materials/material_constituent_set.rs:40-67 -/
def materialConstituentSet (l : List Nat) : B Nat :=
  new .MaterialConstituentSet ((.omitted, .omitted, l) : Opt Str × Opt Str × List Nat)

/-! ### Element types -/

/-- ifc_builder/walls.rs:265-292 -/
def wallType (W : World) (mat : Nat) (name : Str) (e : Fin eWallTypeEnum.length) : B Nat := do
  let i ← new .WallType (wallTypeV (typeOf (← rootOf W name)) e)
  touchType .wall i
  relateMaterial W .wallType (cs! "ToWallType") mat i
  return i

/-- ifc_builder/slabs.rs:201-228 -/
def slabType (W : World) (mat : Nat) (name : Str) (e : Fin eSlabTypeEnum.length) : B Nat := do
  let i ← new .SlabType (slabTypeV (typeOf (← rootOf W name)) e)
  freshType .slab i
  relateMaterial W .slabType (cs! "ToSlabType") mat i
  return i

/-- ifc_builder/roofs.rs:47-74 -/
def roofType (W : World) (mat : Nat) (name : Str) (e : Fin eRoofTypeEnum.length) : B Nat := do
  let i ← new .RoofType (roofTypeV (typeOf (← rootOf W name)) e)
  freshType .roof i
  relateMaterial W .roofType (cs! "ToRoofType") mat i
  return i

/-- ifc_builder/shading_devices.rs:15-43 -/
def shadeType (W : World) (mat : Nat) (name : Str) (e : Fin eShadingDeviceTypeEnum.length) : B Nat := do
  let i ← new .ShadingDeviceType (shadeTypeV (typeOf (← rootOf W name)) e)
  freshType .shade i
  relateMaterial W .shadeType (cs! "ToShadingDeviceType") mat i
  return i

/-- ifc_builder/windows.rs:266-282 -/
def windowType (W : World) (name : Str) (e : Fin eWindowTypeEnum.length) (p : Fin eWindowPartitioningTypeEnum.length) :
    B Nat := do
  let i ← new .WindowType (windowTypeV (typeOf (← rootOf W name)) e p)
  freshType .window i
  return i

/-- ifc_builder/spaces.rs:54-65 -/
def spaceType (W : World) (name : Str) (e : Fin eSpaceTypeEnum.length) : B Nat := do
  let i ← new .SpaceType (spaceTypeV (typeOf (← rootOf W name)) e)
  freshType .space i
  return i

/-! ### Elements -/

/-- placement relative to `(k, host)`, then the shape: `.object_placement(..).representation(..)` -/
def placeThenShape (W : World) (name : Str) (pos : V3) (k : Kind) (host : Nat) (shape : Shape) : B Element := do
  let a ← axis3New pos
  let l ← placementRel a k host
  let r ← rootOf W name
  let li ← new .LocalPlacement l
  let si ← new .ProductDefinitionShape (shapeV shape)
  return elementOf (productOf' r (.custom li) (.custom si))

/-- the axis curve of the walls (ifc_builder/walls.rs:129-141, 178-190, 225-238) -/
def axisCurve (tip : V3) : B (row .ShapeRepresentation).Val := do
  let sub := (← book).sub
  let p0 ← new .Point3D zero3
  let p1 ← new .Point3D tip
  let l ← new .PolyLine ([p0, p1] : List Nat)
  return reprV sub identAxis reprCurve2D [l]

/-- ifc_builder/walls.rs:294-326; the new builder has no transform yet -/
def wall (W : World) (mat ty : Nat) (e : Element) : B Nat := do
  let i ← new .Wall (wallV e)
  addMember .wall i
  addTyped .wall ty i
  relateMaterial W .wall (cs! "ToWalls") mat i
  return i

/-- ifc_builder/walls.rs:120-167 -/
def verticalWall (W : World) (mat ty : Nat) (name : Str) (height length : F64) (placement : V3) : B Nat := do
  let t ← look (thickness W mat)
  let c ← axisCurve axisX
  let s ← rectShape length height t (W.unit axisZ)
  let s ← addRepr s c
  let e ← placeThenShape W name placement .Storey (← book).storey s
  wall W mat ty e

/-- ifc_builder/walls.rs:169-214 -/
def verticalArbitraryWall (W : World) (mat ty : Nat) (name : Str) (coords : List V2) (placement : V3) : B Nat := do
  let t ← look (thickness W mat)
  let c ← axisCurve axisX
  let s ← verticalShape W coords t
  let s ← addRepr s c
  let e ← placeThenShape W name placement .Storey (← book).storey s
  wall W mat ty e

/-- ifc_builder/walls.rs:216-263 -/
def arbitraryWall (W : World) (mat ty : Nat) (name : Str) (coords : List V3) (dir placement : V3) : B Nat := do
  let t ← look (thickness W mat)
  let c ← axisCurve (W.unit (vcross dir axisZ))
  let s ← arbitraryShape W coords t dir
  let s ← addRepr s c
  let e ← placeThenShape W name placement .Storey (← book).storey s
  wall W mat ty e

/-- ifc_builder/slabs.rs:230-274 -/
def slab (W : World) (placement : V3) (name : Str) (shape : Shape) (mat ty : Nat) : B Nat := do
  let e ← placeThenShape W name placement .Storey (← book).storey shape
  let i ← new .Slab (slabV e)
  addMember .slab i
  addTyped .slab ty i
  relateMaterial W .slab (cs! "ToSlab") mat i
  return i

/-- ifc_builder/slabs.rs:115-138 -/
def horizontalArbitrarySlab (W : World) (mat ty : Nat) (name : Str) (coords : List V2) (placement : V3) : B Nat := do
  let t ← look (thickness W mat)
  let s ← horizontalShape W coords t
  slab W placement name s mat ty

/-- ifc_builder/slabs.rs:140-173 -/
def verticalSlab (W : World) (mat ty : Nat) (name : Str) (start end_ : V2) (height : F64) (placement : V3) : B Nat := do
  let t ← look (thickness W mat)
  let dir := vcross (vsub (extend start F64.zero) (extend end_ F64.zero)) axisZ
  let s ← arbitraryShape W
    [extend start height, extend start F64.zero, extend end_ F64.zero, extend end_ height] t dir
  slab W placement name s mat ty

/-- ifc_builder/slabs.rs:175-199 -/
def arbitrarySlab (W : World) (mat ty : Nat) (name : Str) (coords : List V3) (dir placement : V3) : B Nat := do
  let t ← look (thickness W mat)
  let s ← arbitraryShape W coords t dir
  slab W placement name s mat ty

/-- ifc_builder/slabs.rs:277-283 followed by `expect` -/
def slabDirection (slabId : Nat) : B V3 := do
  let d ← look fun m => do
    let v ← DataMap.get m .Slab slabId
    match productOf (.known .Slab v) with
    | some p => direction m p
    | none => Ret.panic
  unwrap d

/-- ifc_builder/roofs.rs:14-44, 77-104 -/
def roof (W : World) (mat ty : Nat) (name : Str) (coords : List V2) (placement : V3) : B Nat := do
  let t ← look (thickness W mat)
  let s ← horizontalShape W coords t
  let e ← placeThenShape W name placement .Storey (← book).storey s
  let i ← new .Roof (roofV e)
  addMember .roof i
  addTyped .roof ty i
  relateMaterial W .roof (cs! "ToRoof") mat i
  return i

/-- ifc_builder/shading_devices.rs:46-108 -/
def shade (W : World) (mat ty : Nat) (name : Str) (height length : F64) (placement : V3) : B Nat := do
  let t ← look (thickness W mat)
  let s ← rectShape length t height (W.unit axisZ)
  let e ← placeThenShape W name placement .Storey (← book).storey s
  let i ← new .ShadingDevice (shadeV e)
  addMember .shade i
  addTyped .shade ty i
  relateMaterial W .shade (cs! "ToShadingDevices") mat i
  return i

/-- ifc_builder/spaces.rs:15-51 -/
def space (W : World) (ty : Nat) (name : Str) (coords : List V2) (height : F64) (placement : V3) : B Nat := do
  let s ← horizontalShape W coords height
  let e ← placeThenShape W name placement .Storey (← book).storey s
  let i ← new .Space (spaceV e)
  addMember .space i
  addTyped .space ty i
  return i

/-! ### Openings and windows -/

/-- ifc_builder/openings.rs:86-98, 196-208, windows.rs:65-79, 170-182: the thickness of the first material relation
(in hash order) that lists the host -/
def hostThickness (W : World) (slot : Mat) (host : Nat) : B F64 := do
  let ms ← walkMap W ((← book).mats slot)
  let mat ← unwrap ((ms.find? fun mr => isRelatedTo mr.2 host).map (·.1))
  look (thickness W mat)

/-- the shape, then the placement relative to `(k, host)`: `.representation(..).object_placement(..)` -/
def shapeThenPlace (W : World) (name : Str) (a : (row .Axis3D).Val) (k : Kind) (host : Nat) (shape : Shape) :
    B Element := do
  let l ← placementRel a k host
  let r ← rootOf W name
  let si ← new .ProductDefinitionShape (shapeV shape)
  let li ← new .LocalPlacement l
  return elementOf (productOf' r (.custom li) (.custom si))

/-- ifc_builder/openings.rs:47-83 -/
def wallOpening (W : World) (wallId : Nat) (name : Str) (height length : F64) (placement dir : V3) : B Nat := do
  let a ← axis3New placement
  let t ← hostThickness W .wall wallId
  let s ← rectShape length height t (W.unit dir)
  let e ← shapeThenPlace W name a .Wall wallId s
  let i ← new .OpeningElement (openingV e)
  update fun b => { b with wallOpenings := mapSet b.wallOpenings i wallId }
  return i

/-- ifc_builder/openings.rs:30-44 -/
def wallVerticalOpening (W : World) (wallId : Nat) (name : Str) (height length : F64) (placement : V3) : B Nat :=
  wallOpening W wallId name height length placement axisZ

/-- ifc_builder/openings.rs:170-193 -/
def slabOpening (W : World) (slabId : Nat) (name : Str) (shape : Shape) (placement : V3) : B Nat := do
  let a ← axis3New placement
  let e ← shapeThenPlace W name a .Slab slabId shape
  let i ← new .OpeningElement (openingV e)
  update fun b => { b with slabOpenings := mapSet b.slabOpenings i slabId }
  return i

/-- ifc_builder/openings.rs:103-125 -/
def slabRectOpening (W : World) (slabId : Nat) (name : Str) (height length : F64) (placement : V3) : B Nat := do
  let t ← hostThickness W .slab slabId
  let d ← slabDirection slabId
  let s ← rectShape length t height d
  slabOpening W slabId name s placement

/-- ifc_builder/openings.rs:128-143 -/
def slabHorizontalOpening (W : World) (slabId : Nat) (name : Str) (coords : List V2) : B Nat := do
  let t ← hostThickness W .slab slabId
  let s ← horizontalShape W coords t
  slabOpening W slabId name s zero3

/-- ifc_builder/openings.rs:146-167 -/
def slabArbitraryOpening (W : World) (slabId : Nat) (name : Str) (coords : List V3) : B Nat := do
  let t ← hostThickness W .slab slabId
  let d ← slabDirection slabId
  let s ← arbitraryShape W coords t d
  slabOpening W slabId name s zero3

/-- ifc_builder/windows.rs:373-417 -/
def window (W : World) (mat ty opening : Nat) (name : Str) (shape : Shape) (placement : V3) : B Nat := do
  let a ← axis3New (vadd placement zero3)
  let e ← shapeThenPlace W name a .OpeningElement opening shape
  let i ← new .Window (windowV e)
  addMember .window i
  update fun b => { b with windowOpenings := mapSet b.windowOpenings opening i }
  addTyped .window ty i
  relateMaterial W .window (cs! "ToWindows") mat i
  return i

/-- ifc_builder/windows.rs:285-312 -/
def rectWindow (W : World) (mat ty opening : Nat) (name : Str) (height width : F64) (placement : V3) (thick : F64)
    (dir : V3) : B Nat := do
  let s ← rectShape width height thick dir
  window W mat ty opening name s placement

def windowOpeningName (name : Str) : Str := cs! "OpeningElementOfWindow" ++ name

/-- ifc_builder/windows.rs:24-53, 56-89; the id of the opening is returned too (the code drops it) -/
def wallWindow (W : World) (wallId mat ty : Nat) (name : Str) (height width : F64) (placement dir : V3) :
    B (Nat × Nat) := do
  let o ← wallVerticalOpening W wallId (windowOpeningName name) height width placement
  let t ← hostThickness W .wall wallId
  return (o, ← rectWindow W mat ty o name height width zero3 t dir)

/-- ifc_builder/windows.rs:94-121, 185-213 -/
def slabWindow (W : World) (slabId mat ty : Nat) (name : Str) (height width : F64) (placement : V3) : B (Nat × Nat) := do
  let o ← slabRectOpening W slabId (windowOpeningName name) height width placement
  let t ← hostThickness W .slab slabId
  let d ← slabDirection slabId
  return (o, ← rectWindow W mat ty o name t width zero3 height d)

/-- ifc_builder/windows.rs:124-145, 216-234, 315-340 -/
def slabHorizontalWindow (W : World) (slabId mat ty : Nat) (name : Str) (coords : List V2) : B (Nat × Nat) := do
  let o ← slabHorizontalOpening W slabId (windowOpeningName name) coords
  let t ← hostThickness W .slab slabId
  let s ← horizontalShape W coords t
  return (o, ← window W mat ty o name s zero3)

/-- ifc_builder/windows.rs:147-168, 237-261, 343-370 -/
def slabArbitraryWindow (W : World) (slabId mat ty : Nat) (name : Str) (coords : List V3) : B (Nat × Nat) := do
  let o ← slabArbitraryOpening W slabId (windowOpeningName name) coords
  let t ← hostThickness W .slab slabId
  let d ← slabDirection slabId
  let s ← arbitraryShape W coords t d
  return (o, ← window W mat ty o name s zero3)

/-! ### Transforms (ifc_builder/transforms.rs) -/

/-- ifc_builder/transforms.rs:80-90, geometry/transform_base.rs:38-55, geometry/non_uniform_transformations.rs:55-70 -/
def transformNew (W : World) (t : Transform) : B Nat := do
  let x ← new .Direction3D (W.unit t.x)
  let y ← new .Direction3D (W.unit t.y)
  let o ← new .Point3D t.translation
  let z ← new .Direction3D (W.unit t.z)
  new .NonUniformTransform (((.custom (.id x), .custom (.id y), .custom (.id o), .custom F64.one, .custom (.id z)),
    .custom F64.one, .custom F64.one) :
    (Opt (IdOr V3) × Opt (IdOr V3) × Opt (IdOr V3) × Opt F64 × Opt (IdOr V3)) × Opt F64 × Opt F64)

/-- the `shape` of a `TransformableType` (traits/sub_types.rs:25-27) -/
def shapeOf (k : Kind) (i : Nat) (m : DataMap) : Ret (Option Nat) := do
  let v ← DataMap.get m k i
  return (productOf (.known k v)).bind shapeId

/-- the identifier of the old representation, or `Body` (ifc_builder/transforms.rs:108-114) -/
def identOf (old : Nat) : B (Fin eRepresentationIdentifier.length) := do
  let v : Nat × Opt (Fin eRepresentationIdentifier.length) × Opt (Fin eRepresentationType.length) × List Nat ←
    look fun m => DataMap.get m .ShapeRepresentation old
  return (v.2.1.get?).getD identBody

/-- the body of the `map` over the representations (ifc_builder/transforms.rs:101-129, 166-186); with `keep` the
identifier is that of the old representation, otherwise `Body` -/
def wrapRepr (sub tr : Nat) (origin : V3) (keep : Bool) (old : Nat) : B Nat := do
  let a ← axis3New origin
  let ai ← new .Axis3D a
  let id ← if keep then identOf old else pure identBody
  let mi ← new .RepresentationMap ((.id ai, .id old) : IdOr (row .Axis3D).Val × IdOr (row .ShapeRepresentation).Val)
  let ii ← new .MappedItem ((.id mi, tr) : IdOr (row .RepresentationMap).Val × Nat)
  new .ShapeRepresentation (reprV sub id reprMapped [ii])

/-- `get_mut(shape_id).representations.0 = …` -/
def setReprs (shape : Nat) (l : List Nat) : B Unit := fun s =>
  match s.data.modify .ProductDefinitionShape shape (fun v =>
    let v : Shape := v
    ((v.1, v.2.1, l) : Shape)) with
  | .val d => .val ((), { s with data := d })
  | .panic => .panic

/-- the part shared by the two functions below -/
def applyTransform (W : World) (k : Kind) (i : Nat) (t : Transform) (origin : V3) (keep : Bool) : B Unit := do
  match ← look (shapeOf k i) with
  | none => pure ()
  | some s =>
    let tr ← transformNew W t
    let v : Shape ← look fun m => DataMap.get m .ProductDefinitionShape s
    let sub := (← book).sub
    let l ← mapB (wrapRepr sub tr origin keep) v.2.2
    setReprs s l

/-- ifc_builder/transforms.rs:71-134 (called when a wall or slab builder is dropped) -/
def builderTransform (W : World) (k : Kind) (i : Nat) (t : Transform) (origin : V3) : B Unit :=
  applyTransform W k i t origin true

/-- ifc_builder/transforms.rs:138-192 -/
def storeyTransform (W : World) (k : Kind) (i : Nat) (t : Transform) : B Unit :=
  applyTransform W k i t zero3 false

/-- `.get(opening).local_placement(..)` -/
def openingPlacement (i : Nat) (m : DataMap) : Ret (Option V3) := do
  let v ← DataMap.get m .OpeningElement i
  match productOf (.known .OpeningElement v) with
  | some p => localPlacement m p
  | none => Ret.panic

/-- ifc_builder/walls.rs:54-71, slabs.rs:49-66: openings of the host with their place, in hash order -/
def hostOpenings (host : Nat) : List (Nat × Nat) → B (List (Nat × V3))
  | [] => pure []
  | (o, h) :: l =>
    if h = host then do
      let p ← look (openingPlacement o)
      let r ← hostOpenings host l
      return match p with
        | some p => (o, p) :: r
        | none => r
    else hostOpenings host l

/-- ifc_builder/walls.rs:45-99 and slabs.rs:40-94 with a transform given -/
def hostTransform (W : World) (k : Kind) (host : Nat) (t : Transform) (openings : List (Nat × Nat)) : B Unit := do
  builderTransform W k host t zero3
  let os ← walkMap W openings
  let os ← hostOpenings host os
  each (fun op => builderTransform W .OpeningElement op.1 { t with translation := vsub t.translation op.2 } op.2) os
  let m := (← book).windowOpenings
  let ws := os.filterMap fun op => (mapGet m op.1).map fun w => (w, op.2)
  each (fun wp => builderTransform W .Window wp.1 { t with translation := vsub t.translation wp.2 } wp.2) ws

end Verif.Build
