import Verif.Model.Mapping
/-
Queries on a loaded model (ifc_extractor/mod.rs).  The iterators are taken as consumed to the end: a panic of one item
is a panic of the query.  Paths are relative to /repo/ifc_rs/src.
-/
namespace Verif.Extract
open Verif Schema

abbrev RootV := Guid × Opt Nat × Opt Str × Opt Str

/-- attributes of relations, in the order of the struct -/
abbrev RelAggregatesV := RootV × Nat × List Nat
abbrev RelContainedV := RootV × List Nat × Nat
abbrev RelTypeV := RootV × List Nat × Nat
abbrev RelVoidsV := RootV × Nat × Nat
abbrev RelMaterialV := (RootV × List Nat) × Nat

/-- ifc_extractor/mod.rs:16-18 -/
def projects (m : DataMap) : List (Nat × (row .Project).Val) := m.findAllOfType .Project

/-- `flat_map` with items that may panic -/
def flatR {α β : Type} (f : α → Ret (List β)) (l : List α) : Ret (List β) := do
  return (← Ret.mapL f l).flatten

/-- `get_untyped(id).downcast_ref::<T>()` as a list of at most one -/
def castOne (m : DataMap) (k : Kind) (i : Nat) : Ret (List (Nat × (row k).Val)) := do
  let e ← m.getUntyped i
  return (e.downcast k).toList.map fun v => (i, v)

/-- ifc_extractor/mod.rs:20-41 -/
def relationsOf (m : DataMap) (related : Kind) (i : Nat) : Ret (List (Nat × (row related).Val)) :=
  let rels := (m.findAllOfType .RelAggregates).filter fun x => let v : RelAggregatesV := x.2; v.2.1 == i
  flatR (fun x => let v : RelAggregatesV := x.2; flatR (castOne m related) v.2.2) rels

/-- ifc_extractor/mod.rs:43-52 -/
def containedStructures (m : DataMap) (i : Nat) : List Nat :=
  let rels := (m.findAllOfType .RelContainedInSpatialStructure).filter fun x => let v : RelContainedV := x.2; v.2.2 == i
  rels.flatMap fun x => let v : RelContainedV := x.2; v.2.1

/-- ifc_extractor/mod.rs:54-70 -/
def relatedType (m : DataMap) (i : Nat) : Ret Entity :=
  match (m.findAllOfType .RelDefinesByType).find? fun x => let v : RelTypeV := x.2; v.2.1.any (· == i) with
  | some x => let v : RelTypeV := x.2; m.getUntyped v.2.2
  | none => .panic

/-- ifc_extractor/mod.rs:141-180: walls, slabs, roofs, windows and doors, each with the kind of its type -/
def typeKinds : List (Kind × Kind) :=
  [(.Wall, .WallType), (.Slab, .SlabType), (.Roof, .RoofType), (.Window, .WindowType), (.Door, .DoorType)]

/-- ifc_extractor/mod.rs:141-180 -/
def relatedTypeAs (m : DataMap) (k : Kind) (i : Nat) : Ret (row k).Val := do
  match (← relatedType m i).downcast k with
  | some v => .val v
  | none => .panic

/-- ifc_extractor/mod.rs:72-81 -/
def relatedVoids (m : DataMap) (i : Nat) : Ret (List (row .OpeningElement).Val) :=
  let rels := (m.findAllOfType .RelVoidsElement).filter fun x => let v : RelVoidsV := x.2; v.2.1 == i
  Ret.mapL (fun x => let v : RelVoidsV := x.2; m.get .OpeningElement v.2.2) rels

/-- ifc_extractor/mod.rs:87-103, 120-136: the materials of kind `k` related to an object -/
def materialsOf (m : DataMap) (k : Kind) (i : Nat) : Ret (List (row k).Val) :=
  let rels := (m.findAllOfType .RelAssociatesMaterial).filter fun x => let v : RelMaterialV := x.2; v.1.2.any (· == i)
  flatR (fun x => let v : RelMaterialV := x.2; do return (← castOne m k v.2).map (·.2)) rels

/-- materials/material_layer_set_usage.rs:25, `spatial_element_structure` -/
def usageSet (u : (row .MaterialLayerSetUsage).Val) : Nat :=
  let u : Nat × Fin eLayerSetDirectionEnum.length × Fin eDirectionSenseEnum.length × F64 × Opt F64 := u
  u.1

/-- materials/material_layer_set.rs:23, `material_layers` -/
def setLayers (s : (row .MaterialLayerSet).Val) : List Nat := let s : List Nat × Opt Str × Opt Str := s; s.1

/-- materials/material_constituent_set.rs:30, `material_constituents` -/
def setConstituents (s : (row .MaterialConstituentSet).Val) : List Nat := let s : Opt Str × Opt Str × List Nat := s; s.2.2

/-- ifc_extractor/mod.rs:83-112 -/
def relatedMaterials (m : DataMap) (i : Nat) : Ret (List (row .MaterialLayer).Val) := do
  let usages ← materialsOf m .MaterialLayerSetUsage i
  flatR (fun u => do
    let set ← m.get .MaterialLayerSet (usageSet u)
    Ret.mapL (m.get .MaterialLayer) (setLayers set)) usages

/-- ifc_extractor/mod.rs:114-139 -/
def relatedConstituents (m : DataMap) (i : Nat) : Ret (List (row .MaterialConstituent).Val) := do
  let sets ← materialsOf m .MaterialConstituentSet i
  flatR (fun s => Ret.mapL (m.get .MaterialConstituent) (setConstituents s)) sets

end Verif.Extract
