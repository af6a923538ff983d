import Verif.Model.Script
import Verif.Spec.Conform
/-
Specification vocabulary for built files: scripts whose texts have a form in the file format, entities whose numbers are finite,
and entities that leave no attribute empty.
-/
namespace Verif.Build
open Verif Schema Verif.Exchange

/-- all numbers of the attributes are finite -/
def Finites : (f : Fld) → f.Val → Prop
  | .real, r => Finite r
  | .value, x => match x with
    | .real r => Finite r
    | .thermal r => Finite r
    | _ => True
  | .vec2, v => Finite v.1 ∧ Finite v.2
  | .vec3, v => Finite v.1 ∧ Finite v.2.1 ∧ Finite v.2.2
  | .opt f, v => match v with
    | .custom a => Finites f a
    | _ => True
  | .list f, vs => ∀ v ∈ vs, Finites f v
  | .idOr _ f, v => match v with
    | .id _ => True
    | .custom a => Finites f a
  | .seq f g, v => Finites f v.1 ∧ Finites g v.2
  | .ent _ _ b _, v => Finites b v
  | _, _ => True

/-- numbers are finite, lists have elements, and there is no truth value; of what is given inline nothing is said -/
def Filled : (f : Fld) → f.Val → Prop
  | .real, r => Finite r
  | .bool, _ => False
  | .value, x => match x with
    | .bool _ => False
    | .real r => Finite r
    | .thermal r => Finite r
    | _ => True
  | .vec2, v => Finite v.1 ∧ Finite v.2
  | .vec3, v => Finite v.1 ∧ Finite v.2.1 ∧ Finite v.2.2
  | .opt f, v => match v with
    | .custom a => Filled f a
    | _ => True
  | .list f, vs => vs ≠ [] ∧ ∀ v ∈ vs, Filled f v
  | .seq f g, v => Filled f v.1 ∧ Filled g v.2
  | .ent _ _ b _, v => Filled b v
  | _, _ => True

/-- a wall type with the one constant IFC4 does not have -/
def Retaining (e : Entity) : Prop :=
  ∃ (t : TypeVal) (c : Fin eWallTypeEnum.length), e = .known .WallType (wallTypeV t c) ∧ eWallTypeEnum.get c = cs! ".RETAININGWALL."

/-- Attributes in the edition that the header of a built file names, IFC4X3 ADD2, as far as it differs from IFC4 in what the
builders write: point lists have tags, and there are retaining walls. -/
def attributesX3 : Kind → List (Str × Standard.Std)
  | .PointList2D => [(cs! "CoordList", .list (.coords 2)), (cs! "TagList", .opt (.list .text))]
  | .PointList3D => [(cs! "CoordList", .list (.coords 3)), (cs! "TagList", .opt (.list .text))]
  | .Wall => Standard.elementAttrs ++ [(cs! "PredefinedType", .opt (.word (Standard.wordsWallType ++ [cs! "RETAININGWALL"])))]
  | .WallType => Standard.elementTypeAttrs ++ [(cs! "PredefinedType", .word (Standard.wordsWallType ++ [cs! "RETAININGWALL"]))]
  | k => Standard.attributes k

/-- a line of that edition: keyword, attributes in order, closing parenthesis and semicolon -/
def ConformingX3 (k : Kind) (s : Str) : Prop :=
  ∃ w ∈ keywordTexts k, ∃ ts, List.Forall₂ (fun a t => Standard.Form a.2 t) (attributesX3 k) ts ∧
    s = w ++ (commas ts ++ cs! ");")

/-! ### Scripts with plain texts -/

def LegibleValue : Value → Prop
  | .label s => PlainText s
  | .identifier s => PlainText s
  | _ => True

/-- a text that is given is plain -/
def LegibleText : Opt Str → Prop
  | .custom s => PlainText s
  | _ => True

def Prop'.Legible (p : Prop') : Prop := PlainText p.name ∧ LegibleValue p.value

def WallCmd.Legible : WallCmd → Prop
  | .opening name _ _ _ _ => PlainText name
  | .verticalOpening name _ _ _ => PlainText name
  | .window _ _ name _ _ _ _ => PlainText name
  | .properties name props => PlainText name ∧ ∀ p ∈ props, p.Legible
  | .transform _ => True

def SlabCmd.Legible : SlabCmd → Prop
  | .rectOpening name _ _ _ => PlainText name
  | .horizontalOpening name _ => PlainText name
  | .arbitraryOpening name _ => PlainText name
  | .window _ _ name _ _ _ => PlainText name
  | .horizontalWindow _ _ name _ => PlainText name
  | .arbitraryWindow _ _ name _ => PlainText name
  | .transform _ => True

def StoreyCmd.Legible : StoreyCmd → Prop
  | .material name => PlainText name
  | .layer name l => PlainText name ∧ LegibleText l.2.2.2.1 ∧ LegibleText l.2.2.2.2.1 ∧ LegibleText l.2.2.2.2.2.1
  | .constituent m name => PlainText m ∧ PlainText name
  | .wallType _ name _ => PlainText name
  | .slabType _ name _ => PlainText name
  | .roofType _ name _ => PlainText name
  | .shadeType _ name _ => PlainText name
  | .windowType name _ _ => PlainText name
  | .spaceType name _ => PlainText name
  | .verticalWall _ _ name _ _ _ cmds => PlainText name ∧ ∀ c ∈ cmds, c.Legible
  | .verticalArbitraryWall _ _ name _ _ cmds => PlainText name ∧ ∀ c ∈ cmds, c.Legible
  | .arbitraryWall _ _ name _ _ _ cmds => PlainText name ∧ ∀ c ∈ cmds, c.Legible
  | .horizontalArbitrarySlab _ _ name _ _ cmds => PlainText name ∧ ∀ c ∈ cmds, c.Legible
  | .verticalSlab _ _ name _ _ _ _ cmds => PlainText name ∧ ∀ c ∈ cmds, c.Legible
  | .arbitrarySlab _ _ name _ _ _ cmds => PlainText name ∧ ∀ c ∈ cmds, c.Legible
  | .roof _ _ name _ _ => PlainText name
  | .shade _ _ name _ _ _ => PlainText name
  | .space _ name _ _ _ => PlainText name
  | .properties name props _ => PlainText name ∧ ∀ p ∈ props, p.Legible
  | _ => True

def StoreyScript.Legible (sc : StoreyScript) : Prop := PlainText sc.name ∧ ∀ c ∈ sc.cmds, c.Legible

def BuildingScript.Legible (sc : BuildingScript) : Prop := PlainText sc.name ∧ ∀ c ∈ sc.storeys, c.Legible

def SiteScript.Legible (sc : SiteScript) : Prop := PlainText sc.name ∧ ∀ c ∈ sc.buildings, c.Legible

/-- The developer and the owner passed in are as the standard has them, and all texts are plain. -/
structure ProjectScript.Legible (sc : ProjectScript) : Prop where
  developer : Standard.Fulfils .Organization sc.developer
  owner : Standard.Fulfils .Person sc.owner
  texts : ∀ t ∈ [sc.version, sc.appName, sc.shortName, sc.orgName, sc.name], PlainText t
  sites : ∀ c ∈ sc.sites, c.Legible

end Verif.Build
