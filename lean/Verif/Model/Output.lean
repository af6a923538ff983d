import Verif.Model.Report
/-
The lines examples/extractor.rs prints, in the order in which it prints them.  A line is given by its indentation and by
what is put into it; the words around it and the notation of numbers are left out.  Paths are relative to /repo/ifc_rs.
-/
namespace Verif.Output
open Verif Schema Mapping Extract Report

/-- what a line says -/
inductive Says where
  | projects (n : Nat)
  | sites (n : Nat)
  | buildings (n : Nat)
  | storeys (n : Nat)
  | storey (index spaces structures : Nat)
  | name (k : Kind)
  | space (index storey structures : Nat)
  | wall (type : Fin eWallTypeEnum.length) (materials : Nat)
  | opening (type : Opt (Fin eOpeningElementTypeEnum.length))
  | item (index : Nat) (e : Entity)
  | location (v : V3)
  | localZ (v : Option V3)
  | localX (v : Option V3)
  | translation (v : Option V3)
  | xAxis (v : Option V3)
  | yAxis (v : Option V3)
  | zAxis (v : Option V3)
  | scale (v : Option F64)
  | scaleY (v : Option F64)
  | scaleZ (v : Option F64)
  | profileDef
  | axis2 (location : V2) (x : Option V2)
  | axis3 (location : V3) (z x : Option V3)
  | xDim (v : F64)
  | yDim (v : F64)
  | profileType (t : Fin eProfileType.length)
  | points (p : Points)
  | position (a : Option Axis3)
  | direction (v : V3)
  | depth (v : F64)

/-- a line: the number of tabs and what it says -/
structure Row where
  tabs : Nat
  says : Says

/-- what has been printed so far, and how the program goes on -/
structure Run (α : Type) where
  rows : List Row
  out : Out α

instance : Monad Run where
  pure a := ⟨[], .val a⟩
  bind x f := match x.out with
    | .val a => ⟨x.rows ++ (f a).rows, (f a).out⟩
    | .panic => ⟨x.rows, .panic⟩
    | .more => ⟨x.rows, .more⟩

/-- `println!` -/
def say (tabs : Nat) (s : Says) : Run Unit := ⟨[⟨tabs, s⟩], .val ()⟩

/-- a call of a function that prints nothing -/
def Run.of {α : Type} (x : Ret α) : Run α := ⟨[], Out.of x⟩

/-- `for a in l { … }` -/
def Run.each {α : Type} (f : α → Run Unit) : List α → Run Unit
  | [] => pure ()
  | a :: l => do
    f a
    Run.each f l

/-- examples/extractor.rs:174-255 -/
def sayMapped (level : Nat) (o : Axis3) (t : Mapping.Transform) : Run Unit := do
  say (level + 1) (.location o.location)
  say (level + 1) (.localZ o.localZ)
  say (level + 1) (.localX o.localX)
  say (level + 1) (.translation t.translation)
  say (level + 1) (.xAxis t.axisX)
  say (level + 1) (.yAxis t.axisY)
  say (level + 1) (.zAxis t.axisZ)
  say (level + 1) (.scale t.scale)
  match t.more with
  | none => pure ()
  | some (y, z) => do
    say (level + 1) (.scaleY y)
    say (level + 1) (.scaleZ z)

/-- examples/extractor.rs:272-309; nothing is printed about a rectangle without a position -/
def sayProfile (level : Nat) : Profile → Run Unit
  | .rectangle (some a, x, y) => do
    match a with
    | .d2 a => say (level + 2) (.axis2 a.location a.localX)
    | .d3 a => say (level + 2) (.axis3 a.location a.localZ a.localX)
    say (level + 2) (.xDim x)
    say (level + 2) (.yDim y)
  | .rectangle (none, _, _) => pure ()
  | .arbitrary (t, p) => do
    say (level + 2) (.profileType t)
    say (level + 2) (.points p)

/-- examples/extractor.rs:270-325 -/
def saySolid (level : Nat) (s : Solid) : Run Unit := do
  say (level + 1) .profileDef
  sayProfile level s.profile
  say (level + 1) (.position s.position)
  say (level + 1) (.direction s.direction)
  say (level + 1) (.depth s.depth)

/-- examples/extractor.rs:167-335, one item with its number; `inner` is the call of `print_items` for what is mapped -/
def runItem (m : DataMap) (inner : Nat → List Nat → Run Unit) (level : Nat) (x : Nat × Nat) : Run Unit := do
  match ← Run.of (item m x.1) with
  | .mapped v =>
    say level (.item x.2 (.known .MappedItem v))
    let r ← Run.of (mapped m v)
    sayMapped level r.1.1 r.2
    inner (level + 3) (itemIds r.1.2)
  | .solid v =>
    say level (.item x.2 (.known .ExtrudedAreaSolid v))
    let s ← Run.of (solid m v)
    saySolid level s
  | _ => pure ()

/-- examples/extractor.rs:166-337 `print_items`; `n` bounds the depth of the calls inside each other.  The items are
fetched one at a time (src/geometry/shape_representation/mod.rs:90-104). -/
def runItems (m : DataMap) : Nat → Nat → List Nat → Run Unit
  | 0, _, _ => ⟨[], .more⟩
  | n + 1, level, ids => Run.each (runItem m (runItems m n) level) ids.zipIdx

/-- the items of the shapes, printed -/
def runShapes (m : DataMap) (n level : Nat) (ss : List (row .ShapeRepresentation).Val) : Run Unit :=
  runItems m n level (ss.flatMap itemIds)

/-- examples/extractor.rs:119-130, for one opening -/
def runOpening (m : DataMap) (n : Nat) (v : (row .OpeningElement).Val) : Run Unit := do
  let v : (Product × Opt Str) × Opt (Fin eOpeningElementTypeEnum.length) := v
  let ss ← Run.of (shapes m v.1.1)
  say 5 (.opening v.2)
  runShapes m n 6 ss

/-- examples/extractor.rs:98-164 `print_structure`.  The openings are fetched one at a time
(src/ifc_extractor/mod.rs:72-81). -/
def runStructure (m : DataMap) (n : Nat) (i : Nat) (e : Entity) : Run Unit :=
  match e.kind, productOf e with
  | some .Wall, some p => do
    let ty ← Run.of (relatedTypeAs m .WallType i)
    let layers ← Run.of (relatedMaterials m i)
    let ss ← Run.of (shapes m p)
    say 4 (.wall (wallTypeKind ty) layers.length)
    runShapes m n 5 ss
    Run.each (fun x => do
      let x : Nat × RelVoidsV := x
      runOpening m n (← Run.of (m.get .OpeningElement x.2.2.2)))
      ((m.findAllOfType .RelVoidsElement).filter fun x => let v : RelVoidsV := x.2; v.2.1 == i)
  | some k, some p => if isStructure k then do
      let ss ← Run.of (shapes m p)
      runShapes m n 5 ss
    else pure ()
  | _, _ => pure ()

/-- examples/extractor.rs:68-82, for one structure; `ends_with("Dummy")` holds for the unknown entities only -/
def runContained (m : DataMap) (n : Nat) (i : Nat) : Run Unit := do
  let e ← Run.of (m.getUntyped i)
  match e.kind with
  | some k => say 3 (.name k)
  | none => pure ()
  runStructure m n i e

/-- examples/extractor.rs:55-94, for one storey with its number -/
def runStorey (m : DataMap) (n : Nat) (x : (Nat × (row .Storey).Val) × Nat) : Run Unit := do
  let spaces ← Run.of (relationsOf m .Space x.1.1)
  let structures := containedStructures m x.1.1
  say 1 (.storey (x.2 + 1) spaces.length structures.length)
  Run.each (runContained m n) structures
  Run.each (fun y => say 2 (.space (y.2 + 1) (x.2 + 1) (containedStructures m y.1.1).length)) spaces.zipIdx

/-- examples/extractor.rs:12-94 -/
def runHierarchy (m : DataMap) (n : Nat) : Run Unit := do
  let ps := projects m
  say 0 (.projects ps.length)
  let sites ← Run.of (flatR (fun x : Nat × (row .Project).Val => relationsOf m .Site x.1) ps)
  say 0 (.sites sites.length)
  let buildings ← Run.of (flatR (fun x : Nat × (row .Site).Val => relationsOf m .Building x.1) sites)
  say 0 (.buildings buildings.length)
  let storeys ← Run.of (flatR (fun x : Nat × (row .Building).Val => relationsOf m .Storey x.1) buildings)
  say 0 (.storeys storeys.length)
  Run.each (runStorey m n) storeys.zipIdx

end Verif.Output
