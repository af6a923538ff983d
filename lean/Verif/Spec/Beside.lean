import Verif.Spec.Renumber
import Verif.Model.Report
/-
C78: a model inside a greater one.
-/
namespace Verif
open Extract

/-- The ids about which a relation says something to the queries: the whole of an aggregation, the structure that contains,
the objects that get a type, the element that is voided, the objects that get a material. -/
def Entity.subjects : Entity → List Nat
  | .known .RelAggregates v => let v : RelAggregatesV := v; [v.2.1]
  | .known .RelContainedInSpatialStructure v => let v : RelContainedV := v; [v.2.2]
  | .known .RelDefinesByType v => let v : RelTypeV := v; v.2.1
  | .known .RelVoidsElement v => let v : RelVoidsV := v; [v.2.1]
  | .known .RelAssociatesMaterial v => let v : RelMaterialV := v; v.1.2
  | _ => []

/-- `m` has all entries of `m₁`; the others have ids that do not occur in `m₁`, and those of them that are relations say
nothing about ids of `m₁` -/
structure Grown (m₁ m : DataMap) : Prop where
  kept : ∀ ie ∈ m₁, ie ∈ m
  new : ∀ ie ∈ m, ie ∉ m₁ → ie.1 ∉ m₁.ids
  silent : ∀ ie ∈ m, ie ∉ m₁ → ∀ n ∈ ie.2.subjects, n ∉ m₁.ids

/-- no id occurs in both -/
def Strangers (m₁ m₂ : DataMap) : Prop := ∀ i ∈ m₁.ids, i ∉ m₂.ids

/-- the entries of the second model behind those of the first, each of its ids greater by `c` -/
def Ifc.behind (f₁ f₂ : Ifc) (c : Nat) : Ifc := ⟨f₁.header, f₁.data ++ f₂.data.renumber (c + ·)⟩

/-- one report after the other -/
def Report.Printed.beside (x y : Report.Printed) : Report.Printed :=
  ⟨x.projects + y.projects, x.sites + y.sites, x.buildings + y.buildings, x.storeys ++ y.storeys⟩

end Verif
