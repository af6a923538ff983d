import Mathlib.Data.List.Forall2
import Verif.Spec.Standard
/-
Specification vocabulary: lines as IFC4 prescribes them, and attribute values that have a form there.

Written from knowledge of the standard: trusted base.  Left out are the lengths of texts (255 characters for labels), bounds
on numbers (positive lengths), upper bounds on lists, and the rules that compare several attributes or entities; which
types a reference may point to is C44.
-/
namespace Verif.Standard
open Verif Verif.Exchange

/-- Texts of an attribute. A list has at least one element. -/
def Form : Std → Str → Prop
  | .guid, s => ∃ c w, s = '\'' :: c :: (w ++ ['\'']) ∧ w.length = 21 ∧ guidDigit c < 4 ∧ ∀ c ∈ w, GuidLetter c
  | .text, s => StepString s
  | .real, s => StepReal s
  | .int, s => StepInteger s
  | .truth, s => s = cs! ".T." ∨ s = cs! ".F." ∨ s = cs! ".U."
  | .time, s => StepInteger s
  | .value, s => ValueText s
  | .segment, s => SegmentText s
  | .dim, s => s = ['1'] ∨ s = ['2'] ∨ s = ['3']
  | .word ws, s => ∃ w ∈ ws, s = '.' :: (w ++ ['.'])
  | .ref _, s => StepName s
  | .coords n, s => ItemsText StepReal (· = n) s
  | .list a, s => ItemsText (Form a) (1 ≤ ·) s
  | .opt a, s => s = ['$'] ∨ Form a s
  | .derived, s => s = ['*']

/-- an instance without its number: keyword, attributes in order, closing parenthesis and semicolon -/
def Conforming (k : Kind) (s : Str) : Prop :=
  ∃ w ∈ keywordTexts k, ∃ ts, List.Forall₂ (fun a t => Form a.2 t) (attributes k) ts ∧ s = w ++ (commas ts ++ cs! ");")

/-! ### Values -/

def optional : Std → Prop
  | .opt _ => True
  | _ => False

/-- the form of an attribute that is given -/
def given : Std → Std
  | .opt a => a
  | a => a

/-- values with a type name: those with a finite number or a plain text; a boolean has no such form -/
def ValueMeets : Value → Prop
  | .bool _ => False
  | .label s => PlainText s
  | .identifier s => PlainText s
  | .real r => Finite r
  | .thermal r => Finite r

/-- The standard has the value for the attribute. -/
def Meets (a : Std) : (f : Fld) → f.Val → Prop
  | .opt f, v => match v with
    | .omitted => optional a
    | .inherited => a = .derived
    | .custom x => Meets a f x
  | .optDim t, v => match v with
    | .omitted => optional a
    | .inherited => a = .derived
    | .custom i => given a = .dim ∧ t.get i ∈ [['1'], ['2'], ['3']]
  | .list f, vs => ∃ b, given a = .list b ∧ vs ≠ [] ∧ ∀ v ∈ vs, Meets b f v
  | .ref _, _ => ∃ ks, given a = .ref ks
  | .idOr k f, v => match v with
    | .id _ => ∃ ks, given a = .ref ks
    | .custom x => given a = .value ∧ k = .PlaneAngleMeasure ∧ Plain f x
  | .real, r => given a = .real ∧ Finite r
  | .int, _ => given a = .int
  | .int32, _ => given a = .int
  | .time, _ => given a = .time
  | .bool, _ => False
  | .str, s => given a = .text ∧ PlainText s
  | .guid, _ => given a = .guid
  | .value, x => given a = .value ∧ ValueMeets x
  | .enum t, i => match given a with
    | .word ws => ∃ w ∈ ws, t.get i = '.' :: (w ++ ['.'])
    | .text => (t.get i).head? = some '\''
    | .dim => t.get i ∈ [['1'], ['2'], ['3']]
    | _ => False
  | .vec2, v => given a = .coords 2 ∧ Finite v.1 ∧ Finite v.2
  | .vec3, v => given a = .coords 3 ∧ Finite v.1 ∧ Finite v.2.1 ∧ Finite v.2.2
  | .seq _ _, _ => False
  | .ent _ _ _ _, _ => False

/-- The standard has the values of the entity for the attributes of its type, one by one. -/
def Fulfils (k : Kind) (v : (Schema.row k).Val) : Prop :=
  List.Forall₂ (fun a x => Meets a.2 x.1 x.2) (attributes k) (parts (Schema.row k) v)

end Verif.Standard
