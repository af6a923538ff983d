import Verif.Spec.Builder
/-
What the relation entities of a model say about one object; `facts` lists them in id order.
-/
namespace Verif.Extract
open Verif Build

/-- the value of a given kind stored under an id -/
def at? (m : DataMap) (k : Kind) (i : Nat) : Option (Schema.row k).Val :=
  match m.lookup i with
  | some (.known k' v) => if h : k' = k then some (h ▸ v) else none
  | _ => none

/-- ids aggregated under `i` -/
def partsOf (m : DataMap) (i : Nat) : List Nat := ((facts factParts m).filter fun x => decide (x.1 = i)).flatMap (·.2)

/-- ids contained in `i` -/
def elementsOf (m : DataMap) (i : Nat) : List Nat := ((facts factContained m).filter fun x => decide (x.1 = i)).flatMap (·.2)

/-- types given to `i`, first relation first -/
def typesOf (m : DataMap) (i : Nat) : List Nat := ((facts factTypes m).filter fun x => decide (i ∈ x.2)).map (·.1)

/-- openings in `i` -/
def openingsOf (m : DataMap) (i : Nat) : List Nat := ((facts factVoids m).filter fun x => decide (x.1 = i)).map (·.2)

/-- materials given to `i` -/
def materialIds (m : DataMap) (i : Nat) : List Nat := ((facts factMaterials m).filter fun x => decide (i ∈ x.2)).map (·.1)

/-- layers of a material that is a layer set usage -/
def layerIds (m : DataMap) (mat : Nat) : List Nat :=
  match at? m .MaterialLayerSetUsage mat with
  | none => []
  | some u =>
    let u : Nat × Fin Schema.eLayerSetDirectionEnum.length × Fin Schema.eDirectionSenseEnum.length × F64 × Opt F64 := u
    match at? m .MaterialLayerSet u.1 with
    | none => []
    | some s => let s : List Nat × Opt Str × Opt Str := s; s.1

/-- constituents of a material that is a constituent set -/
def constituentIds (m : DataMap) (mat : Nat) : List Nat :=
  match at? m .MaterialConstituentSet mat with
  | none => []
  | some s => let s : Opt Str × Opt Str × List Nat := s; s.2.2

end Verif.Extract
