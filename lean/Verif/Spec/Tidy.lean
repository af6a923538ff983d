import Verif.Model.Script
import Verif.Spec.Written
/-
Scripts whose texts can be written: no apostrophes, no unit ids (none are ever returned), no references in the developer
and owner passed in.
-/
namespace Verif.Build
open Verif Schema

def Prop'.Tidy (p : Prop') : Prop := '\'' ∉ p.name ∧ p.value.Writable ∧ p.unit = none

def WallCmd.Tidy : WallCmd → Prop
  | .opening name _ _ _ _ => '\'' ∉ name
  | .verticalOpening name _ _ _ => '\'' ∉ name
  | .window _ _ name _ _ _ _ => '\'' ∉ name
  | .properties name props => '\'' ∉ name ∧ ∀ p ∈ props, p.Tidy
  | .transform _ => True

def SlabCmd.Tidy : SlabCmd → Prop
  | .rectOpening name _ _ _ => '\'' ∉ name
  | .horizontalOpening name _ => '\'' ∉ name
  | .arbitraryOpening name _ => '\'' ∉ name
  | .window _ _ name _ _ _ => '\'' ∉ name
  | .horizontalWindow _ _ name _ => '\'' ∉ name
  | .arbitraryWindow _ _ name _ => '\'' ∉ name
  | .transform _ => True

def StoreyCmd.Tidy : StoreyCmd → Prop
  | .material name => '\'' ∉ name
  | .layer name l => '\'' ∉ name ∧ (row .MaterialLayer).Writable ((.omitted, l.2) : LayerVal)
  | .constituent m name => '\'' ∉ m ∧ '\'' ∉ name
  | .wallType _ name _ => '\'' ∉ name
  | .slabType _ name _ => '\'' ∉ name
  | .roofType _ name _ => '\'' ∉ name
  | .shadeType _ name _ => '\'' ∉ name
  | .windowType name _ _ => '\'' ∉ name
  | .spaceType name _ => '\'' ∉ name
  | .verticalWall _ _ name _ _ _ cmds => '\'' ∉ name ∧ ∀ c ∈ cmds, c.Tidy
  | .verticalArbitraryWall _ _ name _ _ cmds => '\'' ∉ name ∧ ∀ c ∈ cmds, c.Tidy
  | .arbitraryWall _ _ name _ _ _ cmds => '\'' ∉ name ∧ ∀ c ∈ cmds, c.Tidy
  | .horizontalArbitrarySlab _ _ name _ _ cmds => '\'' ∉ name ∧ ∀ c ∈ cmds, c.Tidy
  | .verticalSlab _ _ name _ _ _ _ cmds => '\'' ∉ name ∧ ∀ c ∈ cmds, c.Tidy
  | .arbitrarySlab _ _ name _ _ _ cmds => '\'' ∉ name ∧ ∀ c ∈ cmds, c.Tidy
  | .roof _ _ name _ _ => '\'' ∉ name
  | .shade _ _ name _ _ _ => '\'' ∉ name
  | .space _ name _ _ _ => '\'' ∉ name
  | .properties name props _ => '\'' ∉ name ∧ ∀ p ∈ props, p.Tidy
  | _ => True

def StoreyScript.Tidy (sc : StoreyScript) : Prop := '\'' ∉ sc.name ∧ ∀ c ∈ sc.cmds, c.Tidy

def BuildingScript.Tidy (sc : BuildingScript) : Prop := '\'' ∉ sc.name ∧ ∀ c ∈ sc.storeys, c.Tidy

def SiteScript.Tidy (sc : SiteScript) : Prop := '\'' ∉ sc.name ∧ ∀ c ∈ sc.buildings, c.Tidy

structure ProjectScript.Tidy (sc : ProjectScript) : Prop where
  developer : (row .Organization).Writable sc.developer
  developerRefs : (row .Organization).refs sc.developer = []
  owner : (row .Person).Writable sc.owner
  ownerRefs : (row .Person).refs sc.owner = []
  texts : ∀ t ∈ [sc.version, sc.appName, sc.shortName, sc.orgName, sc.name], '\'' ∉ t
  sites : ∀ c ∈ sc.sites, c.Tidy

end Verif.Build
