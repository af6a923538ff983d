import Verif.Spec.Builder
import Batteries.Data.List.Basic
/-
Specification vocabulary: programs that make the same calls with the same references, whatever names, measures, places,
outlines, transforms, enumeration values and people they pass.
-/
namespace Verif.Build
open Verif Schema

def WallCmd.Same : WallCmd → WallCmd → Prop
  | .opening .., .opening .. => True
  | .verticalOpening .., .verticalOpening .. => True
  | .window mat ty .., .window mat' ty' .. => mat = mat' ∧ ty = ty'
  | .properties _ ps, .properties _ ps' => ps.length = ps'.length
  | .transform _, .transform _ => True
  | _, _ => False

def SlabCmd.Same : SlabCmd → SlabCmd → Prop
  | .rectOpening .., .rectOpening .. => True
  | .horizontalOpening .., .horizontalOpening .. => True
  | .arbitraryOpening .., .arbitraryOpening .. => True
  | .window mat ty .., .window mat' ty' .. => mat = mat' ∧ ty = ty'
  | .horizontalWindow mat ty .., .horizontalWindow mat' ty' .. => mat = mat' ∧ ty = ty'
  | .arbitraryWindow mat ty .., .arbitraryWindow mat' ty' .. => mat = mat' ∧ ty = ty'
  | .transform _, .transform _ => True
  | _, _ => False

def StoreyCmd.Same : StoreyCmd → StoreyCmd → Prop
  | .material _, .material _ => True
  | .layer .., .layer .. => True
  | .layerSet ls, .layerSet ls' => ls = ls'
  | .usage set .., .usage set' .. => set = set'
  | .constituent .., .constituent .. => True
  | .constituentSet ls, .constituentSet ls' => ls = ls'
  | .wallType mat .., .wallType mat' .. => mat = mat'
  | .slabType mat .., .slabType mat' .. => mat = mat'
  | .roofType mat .., .roofType mat' .. => mat = mat'
  | .shadeType mat .., .shadeType mat' .. => mat = mat'
  | .windowType .., .windowType .. => True
  | .spaceType .., .spaceType .. => True
  | .verticalWall mat ty _ _ _ _ cs, .verticalWall mat' ty' _ _ _ _ cs' => mat = mat' ∧ ty = ty' ∧ List.Forall₂ WallCmd.Same cs cs'
  | .verticalArbitraryWall mat ty _ _ _ cs, .verticalArbitraryWall mat' ty' _ _ _ cs' =>
    mat = mat' ∧ ty = ty' ∧ List.Forall₂ WallCmd.Same cs cs'
  | .arbitraryWall mat ty _ _ _ _ cs, .arbitraryWall mat' ty' _ _ _ _ cs' =>
    mat = mat' ∧ ty = ty' ∧ List.Forall₂ WallCmd.Same cs cs'
  | .horizontalArbitrarySlab mat ty _ _ _ cs, .horizontalArbitrarySlab mat' ty' _ _ _ cs' =>
    mat = mat' ∧ ty = ty' ∧ List.Forall₂ SlabCmd.Same cs cs'
  | .verticalSlab mat ty _ _ _ _ _ cs, .verticalSlab mat' ty' _ _ _ _ _ cs' =>
    mat = mat' ∧ ty = ty' ∧ List.Forall₂ SlabCmd.Same cs cs'
  | .arbitrarySlab mat ty _ _ _ _ cs, .arbitrarySlab mat' ty' _ _ _ _ cs' =>
    mat = mat' ∧ ty = ty' ∧ List.Forall₂ SlabCmd.Same cs cs'
  | .roof mat ty .., .roof mat' ty' .. => mat = mat' ∧ ty = ty'
  | .shade mat ty .., .shade mat' ty' .. => mat = mat' ∧ ty = ty'
  | .space ty .., .space ty' .. => ty = ty'
  | .properties _ ps fin, .properties _ ps' fin' => ps.length = ps'.length ∧ fin = fin'
  | .relate k set obj, .relate k' set' obj' => k = k' ∧ set = set' ∧ obj = obj'
  | .transform k id _, .transform k' id' _ => k = k' ∧ id = id'
  | _, _ => False

def StoreyScript.Same (a b : StoreyScript) : Prop := List.Forall₂ StoreyCmd.Same a.cmds b.cmds
def BuildingScript.Same (a b : BuildingScript) : Prop := List.Forall₂ StoreyScript.Same a.storeys b.storeys
def SiteScript.Same (a b : SiteScript) : Prop := List.Forall₂ BuildingScript.Same a.buildings b.buildings
/-- the same calls on everything, with the same references and as many properties -/
def ProjectScript.Same (a b : ProjectScript) : Prop := List.Forall₂ SiteScript.Same a.sites b.sites

/-- one call in the two traces: the same call with the same references, returning the same ids -/
def Ev.Same : Ev → Ev → Prop
  | .transform k id _, .transform k' id' _ => k = k' ∧ id = id'
  | e, e' => e = e'

end Verif.Build
