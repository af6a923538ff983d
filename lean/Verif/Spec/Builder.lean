import Verif.Model.Script
/-
Specification vocabulary for the builders: what a sequence of calls (the trace) asks for, and what a finished model
says, read off its relation entities.  Nothing here mentions the builders' own tables.
-/
namespace Verif.Build
open Verif Schema

/-! ### What the trace asks for -/

def Part.kind : Part → Kind
  | .wall => .Wall
  | .slab => .Slab
  | .roof => .Roof
  | .window => .Window
  | .shade => .ShadingDevice
  | .space => .Space

def Part.typeKind : Part → Kind
  | .wall => .WallType
  | .slab => .SlabType
  | .roof => .RoofType
  | .window => .WindowType
  | .shade => .ShadingDeviceType
  | .space => .SpaceType

namespace Ev

/-- the objects a call made -/
def made : Ev → List (Kind × Nat)
  | project id => [(.Project, id)]
  | site id => [(.Site, id)]
  | building id => [(.Building, id)]
  | storey id => [(.Storey, id)]
  | elem p _ _ id => [(p.kind, id)]
  | type p _ id => [(p.typeKind, id)]
  | opening _ _ id => [(.OpeningElement, id)]
  | window _ _ op _ _ id => [(.OpeningElement, op), (.Window, id)]
  | other k _ id => [(k, id)]
  | relate _ _ _ => []
  | transform _ _ _ => []

/-- the references the caller passed in -/
def used : Ev → List (Kind × Nat)
  | elem p mat ty _ => (mat.toList.map fun m => (.MaterialLayerSetUsage, m)) ++ [(p.typeKind, ty)]
  | type _ mat _ => mat.toList.map fun m => (.MaterialLayerSet, m)
  | window _ _ _ mat ty _ => [(.MaterialConstituentSet, mat), (.WindowType, ty)]
  | other _ uses _ => uses
  | relate k set obj => [(.PropertySet, set), (k, obj)]
  | transform k id _ => [(k, id)]
  | _ => []

/-- a new storey, its id -/
def newStorey : Ev → Option Nat
  | storey id => some id
  | _ => none

def newBuilding : Ev → Option Nat
  | building id => some id
  | _ => none

def newSite : Ev → Option Nat
  | site id => some id
  | _ => none

def newProject : Ev → Option Nat
  | project id => some id
  | _ => none

/-- elements that stand in the storey: walls, slabs, roofs, windows and shading devices -/
def standing : Ev → List Nat
  | elem .space _ _ _ => []
  | elem _ _ _ id => [id]
  | window _ _ _ _ _ id => [id]
  | _ => []

def spaces : Ev → List Nat
  | elem .space _ _ id => [id]
  | _ => []

/-- (type, element) -/
def typed : Ev → List (Nat × Nat)
  | elem .space _ _ _ => []
  | elem _ _ ty id => [(ty, id)]
  | window _ _ _ _ ty id => [(ty, id)]
  | _ => []

/-- (sort of element, type): made by the call, or used for an element made by the call; spaces left out -/
def named : Ev → List (Part × Nat)
  | elem .space _ _ _ => []
  | elem p _ ty _ => [(p, ty)]
  | type .space _ _ => []
  | type p _ id => [(p, id)]
  | window _ _ _ _ ty _ => [(.window, ty)]
  | _ => []

/-- ((sort of element, type), element); spaces left out -/
def typedAs : Ev → List ((Part × Nat) × Nat)
  | elem .space _ _ _ => []
  | elem p _ ty id => [((p, ty), id)]
  | window _ _ _ _ ty id => [((.window, ty), id)]
  | _ => []

/-- (host, opening) -/
def voids : Ev → List (Nat × Nat)
  | opening _ host id => [(host, id)]
  | window _ host op _ _ _ => [(host, op)]
  | _ => []

/-- (opening, window) -/
def fills : Ev → List (Nat × Nat)
  | window _ _ op _ _ id => [(op, id)]
  | _ => []

/-- ((kind of the object, material), object) -/
def materials : Ev → List ((Kind × Nat) × Nat)
  | elem p mat _ id => mat.toList.map fun m => ((p.kind, m), id)
  | type p mat id => mat.toList.map fun m => ((p.typeKind, m), id)
  | window _ _ _ mat _ id => [((.Window, mat), id)]
  | _ => []

/-- (property set, object) -/
def properties : Ev → List (Nat × Nat)
  | relate _ set obj => [(set, obj)]
  | _ => []

end Ev

/-- pairs (owner, thing): every thing with the most recent owner -/
def below {α : Type} (owner : Ev → Option Nat) (things : Ev → List α) : Nat → List Ev → List (Nat × α)
  | _, [] => []
  | o, e :: l => (things e).map (fun i => ((owner e).getD o, i)) ++ below owner things ((owner e).getD o) l

def wantContained (l : List Ev) : List (Nat × Nat) := below Ev.newStorey Ev.standing 0 l

/-- (parent, child) of the spatial tree: project, sites, buildings, storeys, spaces -/
def wantParts (l : List Ev) : List (Nat × Nat) :=
  below Ev.newProject (fun e => e.newSite.toList) 0 l ++ below Ev.newSite (fun e => e.newBuilding.toList) 0 l ++
    below Ev.newBuilding (fun e => e.newStorey.toList) 0 l ++ below Ev.newStorey Ev.spaces 0 l

/-- everything that has parts -/
def wantParents (l : List Ev) : List Nat :=
  l.filterMap Ev.newProject ++ l.filterMap Ev.newSite ++ l.filterMap Ev.newBuilding ++ l.filterMap Ev.newStorey

/-- (storey, sort of element, type): the types made or used in a storey -/
def storeyTypes (l : List Ev) : List (Nat × Part × Nat) := below Ev.newStorey Ev.named 0 l

/-- the elements of one type made in one storey, in the order of the calls -/
def storeyTyped (l : List Ev) (key : Nat × Part × Nat) : List Nat :=
  ((below Ev.newStorey Ev.typedAs 0 l).filter fun x => (x.1, x.2.1) = key).map (·.2.2)

/-- one row for each type made or used in each storey: (type, elements) -/
def wantTypes (l : List Ev) : List (Nat × List Nat) :=
  (storeyTypes l).eraseDups.map fun key => (key.2.2, storeyTyped l key)

/-- objects of one kind that got one material, in the order of the calls -/
def wantMaterial (l : List Ev) (km : Kind × Nat) : List Nat :=
  ((l.flatMap Ev.materials).filter fun x => x.1 = km).map (·.2)

/-- every reference passed in had been returned before, for an object of that kind -/
def HonestAfter : List (Kind × Nat) → List Ev → Prop
  | _, [] => True
  | seen, e :: l => (∀ u ∈ e.used, u ∈ seen) ∧ HonestAfter (seen ++ e.made) l

def Honest (l : List Ev) : Prop := HonestAfter [] l

/-! ### What a model says -/

/-- containment: (structure, elements) -/
def factContained : Entity → List (Nat × List Nat)
  | .known .RelContainedInSpatialStructure v => let v : Root × List Nat × Nat := v; [(v.2.2, v.2.1)]
  | _ => []

/-- aggregation: (whole, parts) -/
def factParts : Entity → List (Nat × List Nat)
  | .known .RelAggregates v => let v : Root × Nat × List Nat := v; [(v.2.1, v.2.2)]
  | _ => []

/-- typing: (type, objects) -/
def factTypes : Entity → List (Nat × List Nat)
  | .known .RelDefinesByType v => let v : Root × List Nat × Nat := v; [(v.2.2, v.2.1)]
  | _ => []

/-- properties: (property set, objects) -/
def factProperties : Entity → List (Nat × List Nat)
  | .known .RelDefinesByProperties v => let v : Root × List Nat × Nat := v; [(v.2.2, v.2.1)]
  | _ => []

/-- materials: (material, objects) -/
def factMaterials : Entity → List (Nat × List Nat)
  | .known .RelAssociatesMaterial v => let v : (Root × List Nat) × Nat := v; [(v.2, v.1.2)]
  | _ => []

/-- (host, opening) -/
def factVoids : Entity → List (Nat × Nat)
  | .known .RelVoidsElement v => let v : Root × Nat × Nat := v; [(v.2.1, v.2.2)]
  | _ => []

/-- (opening, window) -/
def factFills : Entity → List (Nat × Nat)
  | .known .RelFillsElement v => let v : Root × Nat × Nat := v; [(v.2.1, v.2.2)]
  | _ => []

/-- all that the entities of a model say, in id order -/
def facts {β : Type} (f : Entity → List β) (m : DataMap) : List β := m.flatMap fun ie => f ie.2

/-- the same owners in the same order, each with the same things in any order -/
inductive Similar : List (Nat × List Nat) → List (Nat × List Nat) → Prop
  | nil : Similar [] []
  | cons {o : Nat} {a b : List Nat} {l r : List (Nat × List Nat)} : a.Perm b → Similar l r → Similar ((o, a) :: l) ((o, b) :: r)

/-- the same relations, up to the order of the relations and the order inside each -/
def Regrouped (l r : List (Nat × List Nat)) : Prop := ∃ m, Similar l m ∧ m.Perm r

/-- one pair per listed object -/
def pairs (l : List (Nat × List Nat)) : List (Nat × Nat) := l.flatMap fun x => x.2.map fun i => (x.1, i)

/-- The same relations between the same objects.  Containment and property relations come in the same order, the others in
any.  The objects of one relation come in any order, except those that share a material. -/
structure SameRelations (m m' : DataMap) : Prop where
  contained : Similar (facts factContained m) (facts factContained m')
  parts : Regrouped (facts factParts m) (facts factParts m')
  types : Regrouped (facts factTypes m) (facts factTypes m')
  materials : (facts factMaterials m).Perm (facts factMaterials m')
  voids : (facts factVoids m).Perm (facts factVoids m')
  fills : (facts factFills m).Perm (facts factFills m')
  properties : facts factProperties m = facts factProperties m'

end Verif.Build
