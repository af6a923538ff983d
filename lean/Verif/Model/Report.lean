import Verif.Model.Extractor
/-
Reading a model through and through, as examples/extractor.rs does it: from the projects down to the bodies of the
elements.  What is printed is returned as data.  Paths are relative to /repo/ifc_rs/src, or to /repo/ifc_rs where they
begin with `examples`.
-/
namespace Verif.Report
open Verif Schema Mapping Extract

/-- The outcome of a function that calls itself: a value, a panic, or more calls inside each other than the number
given.  The code has no such number and ends with an overflow of the stack if it never returns. -/
inductive Out (α : Type) where
  | val (a : α)
  | panic
  | more

instance : Monad Out where
  pure := .val
  bind x f := match x with
    | .val a => f a
    | .panic => .panic
    | .more => .more

/-- a call of a function that always returns -/
def Out.of {α : Type} : Ret α → Out α
  | .val a => .val a
  | .panic => .panic

/-- `for a in l { … }` -/
def Out.mapL {α β : Type} (f : α → Out β) : List α → Out (List β)
  | [] => .val []
  | a :: l => do
    let b ← f a
    let r ← Out.mapL f l
    return b :: r

/-- geometry/shape_representation/mod.rs:105-109 -/
def itemsOf (m : DataMap) (k : Kind) (v : (row .ShapeRepresentation).Val) : Ret (List (row k).Val) := do
  let l ← Ret.mapL m.getUntyped (itemIds v)
  return l.filterMap fun e => e.downcast k

/-- what is printed about an item: for a mapped one the origin of the map and the transform, for an extruded one the
mapped solid; examples/extractor.rs:168-328 -/
inductive Shape where
  | mapped (origin : Axis3) (t : Mapping.Transform)
  | solid (s : Solid)

/-- a paragraph about an item: how far it is indented, the place of the item among its siblings, and what it says -/
structure Line where
  level : Nat
  index : Nat
  shape : Shape

/-- examples/extractor.rs:167-335, one item; `inner` is the call of `print_items` for what is mapped.  Items that are
neither mapped nor extruded are passed over. -/
def printItem (m : DataMap) (inner : Nat → List Nat → Out (List Line)) (level : Nat) (x : Nat × Nat) : Out (List Line) := do
  match ← Out.of (item m x.1) with
  | .mapped v =>
    let r ← Out.of (mapped m v)
    let inside ← inner (level + 3) (itemIds r.1.2)
    return ⟨level, x.2, .mapped r.1.1 r.2⟩ :: inside
  | .solid v =>
    let s ← Out.of (solid m v)
    return [⟨level, x.2, .solid s⟩]
  | _ => return []

/-- examples/extractor.rs:166-337 `print_items`, for the items with the given ids, indented by `level`.  `n` bounds the
depth of the calls inside each other; `level` is a `u32`, which overflows only after a thousand million of them. -/
def printItems (m : DataMap) : Nat → Nat → List Nat → Out (List Line)
  | 0, _, _ => .more
  | n + 1, level, ids => do return (← Out.mapL (printItem m (printItems m n) level) ids.zipIdx).flatten

/-- objects/shared/product.rs:61-74 and `shapes.iter().flat_map(|shape| shape.items(ifc))`, printed -/
def printProduct (m : DataMap) (n level : Nat) (p : Product) : Out (List Line) := do
  let ss ← Out.of (shapes m p)
  printItems m n level (ss.flatMap itemIds)

/-- what is printed about a structure -/
inductive About where
  /-- the kind of the wall type, the number of layers, the items; each opening with its kind and items -/
  | wall (type : Fin eWallTypeEnum.length) (layers : Nat) (items : List Line)
      (openings : List (Opt (Fin eOpeningElementTypeEnum.length) × List Line))
  | element (items : List Line)
  /-- `to_structure` or `structure_type` is `None` -/
  | nothing

/-- `WallType.predefined_type` -/
def wallTypeKind (v : (row .WallType).Val) : Fin eWallTypeEnum.length :=
  let v : Schema.elementType.Val × Fin eWallTypeEnum.length := v
  v.2

/-- examples/extractor.rs:119-130, for one opening -/
def printOpening (m : DataMap) (n : Nat) (v : (row .OpeningElement).Val) :
    Out (Opt (Fin eOpeningElementTypeEnum.length) × List Line) := do
  let v : (Product × Opt Str) × Opt (Fin eOpeningElementTypeEnum.length) := v
  return (v.2, ← printProduct m n 6 v.1.1)

/-- The structs with a `structure_type`: objects/mod.rs:45-53; objects/wall/mod.rs:92-99, objects/slab/mod.rs:106-113,
objects/roof/mod.rs:107-114, objects/window/mod.rs:180-187, objects/door/mod.rs:201-208,
objects/shading_device.rs:113-120.  Sites, buildings, storeys and spaces are structures too (objects/site.rs:209-213,
objects/building.rs:151-155, objects/storey.rs:153-157, objects/space/mod.rs:126-130) but have none
(traits/sub_types.rs:17-21). -/
def isStructure : Kind → Bool
  | .Wall | .Slab | .Roof | .Window | .Door | .ShadingDevice => true
  | _ => false

/-- examples/extractor.rs:75-77, 98-164 `print_structure` -/
def printStructure (m : DataMap) (n : Nat) (i : Nat) (e : Entity) : Out About :=
  match e.kind, productOf e with
  | some .Wall, some p => do
    let ty ← Out.of (relatedTypeAs m .WallType i)
    let layers ← Out.of (relatedMaterials m i)
    let items ← printProduct m n 5 p
    let voids ← Out.of (relatedVoids m i)
    return .wall (wallTypeKind ty) layers.length items (← Out.mapL (printOpening m n) voids)
  | some k, some p => if isStructure k then do return .element (← printProduct m n 5 p) else return .nothing
  | _, _ => return .nothing

/-- what is printed about a storey: the number of its spaces, its structures with their types, and the number of
structures in each space -/
structure OfStorey where
  spaces : Nat
  structures : List (Option Kind × About)
  inSpaces : List Nat

/-- examples/extractor.rs:55-94, for one storey -/
def printStorey (m : DataMap) (n : Nat) (st : Nat) : Out OfStorey := do
  let spaces ← Out.of (relationsOf m .Space st)
  let structures ← Out.mapL (fun i => do
    let e ← Out.of (m.getUntyped i)
    return (e.kind, ← printStructure m n i e)) (containedStructures m st)
  return ⟨spaces.length, structures, spaces.map fun x => (containedStructures m x.1).length⟩

/-- what is printed: the numbers of projects, sites and buildings, and the storeys -/
structure Printed where
  projects : Nat
  sites : Nat
  buildings : Nat
  storeys : List OfStorey

/-- examples/extractor.rs:12-94 `print_project_hierarchy`, `print_sites`, `print_buildings`, `print_storeys` -/
def printHierarchy (m : DataMap) (n : Nat) : Out Printed := do
  let ps := projects m
  let sites ← Out.of (flatR (fun x : Nat × (row .Project).Val => relationsOf m .Site x.1) ps)
  let buildings ← Out.of (flatR (fun x : Nat × (row .Site).Val => relationsOf m .Building x.1) sites)
  let storeys ← Out.of (flatR (fun x : Nat × (row .Building).Val => relationsOf m .Storey x.1) buildings)
  return ⟨ps.length, sites.length, buildings.length, ← Out.mapL (fun x => printStorey m n x.1) storeys⟩

end Verif.Report
