import Verif.Model.Output
/-
C75: the lines of a report, and what of it no line shows.
-/
namespace Verif.Output
open Verif Schema Mapping Report

/-- a line without the text of the item itself, which stands in the file -/
def Row.plain : Row → Row
  | ⟨t, .item i _⟩ => ⟨t, .item i (.dummy [])⟩
  | r => r

/-- the lines about a mapping: eight for a uniform one, ten otherwise -/
def mappedRows (level : Nat) (o : Axis3) (t : Mapping.Transform) : List Row :=
  ([.location o.location, .localZ o.localZ, .localX o.localX, .translation t.translation, .xAxis t.axisX, .yAxis t.axisY,
    .zAxis t.axisZ, .scale t.scale] ++ (match t.more with
      | none => []
      | some x => [.scaleY x.1, .scaleZ x.2])).map fun s => ⟨level + 1, s⟩

/-- the lines about a profile: none for a rectangle without a position -/
def profileSays : Profile → List Says
  | .rectangle (some (.d2 a), x, y) => [.axis2 a.location a.localX, .xDim x, .yDim y]
  | .rectangle (some (.d3 a), x, y) => [.axis3 a.location a.localZ a.localX, .xDim x, .yDim y]
  | .rectangle (none, _, _) => []
  | .arbitrary (t, p) => [.profileType t, .points p]

/-- the lines about a solid -/
def solidRows (level : Nat) (s : Solid) : List Row :=
  ⟨level + 1, .profileDef⟩ :: ((profileSays s.profile).map fun x => ⟨level + 2, x⟩) ++
    [⟨level + 1, .position s.position⟩, ⟨level + 1, .direction s.direction⟩, ⟨level + 1, .depth s.depth⟩]

/-- the lines about what an item is -/
def shapeRows (level : Nat) : Shape → List Row
  | .mapped o t => mappedRows level o t
  | .solid s => solidRows level s

/-- the lines of a paragraph -/
def lineRows (l : Line) : List Row := ⟨l.level, .item l.index (.dummy [])⟩ :: shapeRows l.level l.shape

/-- the lines about an opening -/
def openingRows (x : Opt (Fin eOpeningElementTypeEnum.length) × List Line) : List Row := ⟨5, .opening x.1⟩ :: x.2.flatMap lineRows

/-- the lines about a structure -/
def aboutRows : About → List Row
  | .wall ty n items os => ⟨4, .wall ty n⟩ :: (items.flatMap lineRows ++ os.flatMap openingRows)
  | .element items => items.flatMap lineRows
  | .nothing => []

/-- the same with the line of its name -/
def structureRows (x : Option Kind × About) : List Row := (x.1.toList.map fun k => ⟨3, .name k⟩) ++ aboutRows x.2

/-- the lines about a storey with its number -/
def storeyRows (x : OfStorey × Nat) : List Row :=
  ⟨1, .storey (x.2 + 1) x.1.spaces x.1.structures.length⟩ :: (x.1.structures.flatMap structureRows ++
    x.1.inSpaces.zipIdx.map fun y => ⟨2, .space (y.2 + 1) (x.2 + 1) y.1⟩)

/-- the lines of a report -/
def printedRows (x : Printed) : List Row :=
  [⟨0, .projects x.projects⟩, ⟨0, .sites x.sites⟩, ⟨0, .buildings x.buildings⟩, ⟨0, .storeys x.storeys.length⟩] ++
    x.storeys.zipIdx.flatMap storeyRows

/-! ### What is not shown -/

/-- the profile without the sides of a rectangle that has no position -/
def hidden : Profile → Profile
  | .rectangle (none, _, _) => .rectangle (none, .fin false 0 (by decide), .fin false 0 (by decide))
  | p => p

/-- a paragraph without them -/
def Line.hidden (l : Line) : Line :=
  match l.shape with
  | .solid s => { l with shape := .solid { s with profile := Output.hidden s.profile } }
  | .mapped _ _ => l

/-- the paragraphs of a report -/
def paragraphs (x : Printed) : List Line :=
  x.storeys.flatMap fun s => s.structures.flatMap fun y => match y.2 with
    | .wall _ _ items os => items ++ os.flatMap (·.2)
    | .element items => items
    | .nothing => []

/-- what is shown about a structure: an object that is none and a structure without items look the same -/
def aboutShown : About → About
  | .wall ty n items os => .wall ty n (items.map Line.hidden) (os.map fun o => (o.1, o.2.map Line.hidden))
  | .element items => .element (items.map Line.hidden)
  | .nothing => .element []

/-- what is shown about a storey: the unknown structures only count -/
def storeyShown (s : OfStorey) : Nat × Nat × List (Kind × About) × List Nat :=
  (s.spaces, s.structures.length, s.structures.filterMap (fun y => y.1.map fun k => (k, aboutShown y.2)), s.inSpaces)

/-- what is shown of a report -/
def reportShown (x : Printed) : Nat × Nat × Nat × List (Nat × Nat × List (Kind × About) × List Nat) :=
  (x.projects, x.sites, x.buildings, x.storeys.map storeyShown)

end Verif.Output
