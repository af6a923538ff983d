import Verif.Spec.File
/-
C76: the end of a file.
-/
namespace Verif.Cut
open Verif

/-- the line a file ends with -/
def endMark : Str := cs! "END-ISO-10303-21;"

/-- `p` is what is left of `s` if at least the last `n` characters are lost -/
def LeftOf (p s : Str) (n : Nat) : Prop := ∃ q, s = p ++ q ∧ n ≤ q.length

/-- the texts in a value -/
def strings : (f : Fld) → f.Val → List Str
  | .str, s => [s]
  | .value, x => match x with
    | .label s => [s]
    | .identifier s => [s]
    | _ => []
  | .opt f, v => match v with
    | .custom a => strings f a
    | _ => []
  | .list f, vs => vs.flatMap (strings f)
  | .idOr _ f, v => match v with
    | .custom a => strings f a
    | .id _ => []
  | .seq f g, v => strings f v.1 ++ strings g v.2
  | .ent _ _ b _, v => strings b v
  | _, _ => []

/-- the texts in an entity; an unknown one is a text itself, ended by a semicolon -/
def entityStrings : Entity → List Str
  | .known k v => strings (Schema.row k) v
  | .dummy s => [s ++ [';']]

/-- the texts in a header -/
def headerStrings (h : Header) : List Str :=
  (h.descriptions.flatMap fun d => d.name :: d.items) ++
    h.fileName :: (h.authors ++ h.orgs ++ [h.preprocessor, h.system, h.authorization])

/-- no text of the model contains the end mark -/
def Unmarked (f : Ifc) : Prop :=
  (∀ t ∈ headerStrings f.header, ¬ endMark <:+: t) ∧ ∀ ie ∈ f.data, ∀ t ∈ entityStrings ie.2, ¬ endMark <:+: t

end Verif.Cut
