import Verif.Model.Report
import Verif.Spec.Extractor
/-
Specification vocabulary: what a model must have, beyond what a load checks, for the example to read it.
-/
namespace Verif.Report
open Verif Schema Mapping Extract

/-- every polyline that is the outline of a profile has a point, and all its points are flat or all are spatial -/
def OutlinesWhole (m : DataMap) : Prop :=
  ∀ i t n c l, m.lookup i = some (.known .ArbitraryClosedProfileDef ((t, n, c) : Fin eProfileType.length × Opt Str × Nat)) →
    m.lookup c = some (.known .PolyLine (l : List Nat)) →
    l ≠ [] ∧ ∃ k, (k = .Point2D ∨ k = .Point3D) ∧ ∀ p ∈ l, ∃ v, m.lookup p = some (.known k v)

/-- no map is written inside a mapped item, and no origin and no representation inside a map -/
def MapsApart (m : DataMap) : Prop :=
  (∀ i x t, m.lookup i = some (.known .MappedItem ((x, t) : IdOr (row .RepresentationMap).Val × Nat)) → ∃ r, x = .id r) ∧
  ∀ i o s, m.lookup i =
      some (.known .RepresentationMap ((o, s) : IdOr (row .Axis3D).Val × IdOr (row .ShapeRepresentation).Val)) →
    ∃ a r, o = .id a ∧ s = .id r

/-- the first relation that gives a contained wall its type gives it a wall type -/
def WallsTyped (m : DataMap) : Prop :=
  ∀ st i v, i ∈ elementsOf m st → m.lookup i = some (.known .Wall v) →
    ∃ ty tv, (typesOf m i).head? = some ty ∧ m.lookup ty = some (.known .WallType tv)

/-- `j` is an item of the representation that the mapped item `i` maps -/
def Within (m : DataMap) (i j : Nat) : Prop :=
  ∃ r t o s c a b items, m.lookup i = some (.known .MappedItem ((.id r, t) : IdOr (row .RepresentationMap).Val × Nat)) ∧
    m.lookup r = some (.known .RepresentationMap ((o, .id s) : IdOr (row .Axis3D).Val × IdOr (row .ShapeRepresentation).Val)) ∧
    m.lookup s = some (.known .ShapeRepresentation ((c, a, b, items) : Nat × Opt (Fin eRepresentationIdentifier.length) ×
      Opt (Fin eRepresentationType.length) × List Nat)) ∧
    j ∈ items

end Verif.Report
