import Verif.Model.Report
import Verif.Spec.Told
import Verif.Spec.Trace
/-
Specification vocabulary: what a reader of a model is shown of an element.
-/
namespace Verif.Report
open Verif Schema Mapping Build

/-- the profile is the outline -/
def OutlineSeen : Outline → Profile → Prop
  | .rect x y, .rectangle p => p = (some (.d2 ⟨(x.mul F64.oneHalf, y.mul F64.oneHalf), none⟩), x, y)
  | .flat l, .arbitrary p => eProfileType.get p.1 = cs! ".AREA." ∧ p.2 = .d2 l
  | .spatial l, .arbitrary p => eProfileType.get p.1 = cs! ".AREA." ∧ p.2 = .d3 l
  | _, _ => False

/-- the solid is the body -/
def BodySeen (b : Body) (s : Solid) : Prop :=
  s.position = none ∧ s.direction = b.dir ∧ s.depth = b.depth ∧ OutlineSeen b.outline s.profile

/-- a turn as it is shown: the origin, the translation, three directions and three scales of one -/
def turnSeen (unit : V3 → V3) (u : Turn) : Shape :=
  .mapped ⟨u.origin, none, none⟩ ⟨some u.t.translation, some (unit u.t.x), some (unit u.t.y), some (unit u.t.z), some F64.one,
    some (some F64.one, some F64.one)⟩

/-- one paragraph for each turn, each three steps further in than the one before, and then the solid, if there is one -/
def under (unit : V3 → V3) : List Turn → Nat → Nat → Option Solid → List Line
  | [], level, index, s => s.toList.map fun s => ⟨level, index, .solid s⟩
  | u :: us, level, index, s => ⟨level, index, turnSeen unit u⟩ :: under unit us (level + 3) 0 s

/-- What is shown of an element: its body as item 0 and its axis, of which only the turns are shown, as item 1.  The last
turn is shown first. -/
def shown (unit : V3 → V3) (w : Wish) (us : List Turn) (level : Nat) (s : Solid) : List Line :=
  under unit us.reverse level 0 (some s) ++
    match w.axis with
    | some _ => under unit us.reverse level 1 none
    | none => []

/-! ### What is printed about a run -/

/-- The opening is printed as it stands.  Its kind is never given. -/
def OpeningSaid (T : Told) (x : Opt (Fin eOpeningElementTypeEnum.length) × List Line) (j : Nat) : Prop :=
  (∃ w own, T.Stands .OpeningElement j w own) ∧
  ∀ w own, T.Stands .OpeningElement j w own → ∃ so, BodySeen w.body so ∧
    x = (.omitted, shown T.W.unit w (own ++ laterTurns T.log j) 6 so)

/-- What is printed about a wall besides its items: the kind of the type given, the number of layers of the material
given and the openings made in it. -/
def WallSaid (T : Told) (i : Nat) (items : List Line) (a : About) : Prop :=
  ∃ ty tv kind mat set rest layers names openings ids,
    Holds T.m ty .WallType ((tv, kind) : TypeVal × Fin eWallTypeEnum.length) ∧
    .elem .wall (some mat) ty i ∈ T.log ∧
    Holds T.m mat .MaterialLayerSetUsage ((set, rest) :
      Nat × Fin eLayerSetDirectionEnum.length × Fin eDirectionSenseEnum.length × F64 × Opt F64) ∧
    Holds T.m set .MaterialLayerSet ((layers, names) : List Nat × Opt Str × Opt Str) ∧
    ids.Perm (((T.log.flatMap Ev.voids).filter fun x => decide (x.1 = i)).map (·.2)) ∧
    Paired (OpeningSaid T) openings ids ∧
    a = .wall kind layers.length items openings

/-- what is printed about the object under an id -/
def ElementSaid (T : Told) (x : Option Kind × About) (i : Nat) : Prop :=
  ∃ k, x.1 = some k ∧ (∃ w own, T.Stands k i w own) ∧
  ∀ w own, T.Stands k i w own → ∃ so, BodySeen w.body so ∧
    let items := shown T.W.unit w (own ++ laterTurns T.log i) 5 so
    (k = .Wall → WallSaid T i items x.2) ∧ (k ≠ .Wall → x.2 = .element items)

/-- What is printed about a storey: the spaces made in it, with nothing in them, and the walls, slabs, roofs, windows and
shading devices made in it. -/
def StoreySaid (T : Told) (x : OfStorey) (st : Nat) : Prop :=
  ∃ own, Section Ev.newStorey T.log st own ∧
    x.spaces = (own.flatMap Ev.spaces).length ∧
    x.inSpaces = List.replicate x.spaces 0 ∧
    ∃ ids, ids.Perm (own.flatMap Ev.standing) ∧ Paired (ElementSaid T) x.structures ids

/-- what is printed: one project, and the sites, buildings and storeys of the trace -/
def Said (T : Told) (x : Printed) : Prop :=
  x.projects = 1 ∧
  x.sites = (T.log.filterMap Ev.newSite).length ∧
  x.buildings = (T.log.filterMap Ev.newBuilding).length ∧
  ∃ ids, ids.Perm (T.log.filterMap Ev.newStorey) ∧ Paired (StoreySaid T) x.storeys ids

end Verif.Report
