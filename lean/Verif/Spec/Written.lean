import Verif.Model.Schema
import Verif.Spec.Real
import Verif.Props.Str
/-
Specification vocabulary: which values can be written as text at all, which come back exactly, and what the others
come back as.
-/
namespace Verif

/-- the string that comes back after writing and reading `s` (equal to `s` unless `s` contains an escape body) -/
def strReread (s : Str) : Str := translateDecode (translateEncode s)

def Value.Writable : Value → Prop
  | .label s => '\'' ∉ s
  | .identifier s => '\'' ∉ s
  | _ => True

def Value.reread : Value → Value
  | .label s => .label (strReread s)
  | .identifier s => .identifier (strReread s)
  | .real r => .real r.reread
  | x => x

def StrExact (s : Str) : Prop := ∀ c ∈ umlauts, ¬ escapeBody c <:+: s

def Value.Exact : Value → Prop
  | .label s => StrExact s
  | .identifier s => StrExact s
  | .real r => r.isScientific = false
  | _ => True

namespace Fld

/-- values whose text is well formed: references below 2^64, integers in their Rust range, no apostrophe in texts -/
def Writable : (f : Fld) → f.Val → Prop
  | ref _, n => n < 2 ^ 64
  | int, i => -(2 ^ 63) ≤ i ∧ i < 2 ^ 63
  | int32, i => -(2 ^ 31) ≤ i ∧ i < 2 ^ 31
  | str, s => '\'' ∉ s
  | value, x => x.Writable
  | opt f, v => match v with
    | .custom a => f.Writable a
    | _ => True
  | list f, vs => ∀ v ∈ vs, f.Writable v
  | idOr _ f, v => match v with
    | .id n => n < 2 ^ 64
    | .custom a => f.Writable a
  | seq f g, v => f.Writable v.1 ∧ g.Writable v.2
  | ent _ _ b _, v => b.Writable v
  | _, _ => True

/-- values that come back exactly: no umlaut escape body in texts, no real that is written in scientific form -/
def Exact : (f : Fld) → f.Val → Prop
  | real, r => r.isScientific = false
  | str, s => StrExact s
  | value, x => x.Exact
  | vec2, v => v.1.isScientific = false ∧ v.2.isScientific = false
  | vec3, v => v.1.isScientific = false ∧ v.2.1.isScientific = false ∧ v.2.2.isScientific = false
  | opt f, v => match v with
    | .custom a => f.Exact a
    | _ => True
  | list f, vs => ∀ v ∈ vs, f.Exact v
  | idOr _ f, v => match v with
    | .id _ => True
    | .custom a => f.Exact a
  | seq f g, v => f.Exact v.1 ∧ g.Exact v.2
  | ent _ _ b _, v => b.Exact v
  | _, _ => True

/-- what a value comes back as: every text and every real by itself, everything else unchanged -/
def reread : (f : Fld) → f.Val → f.Val
  | real, r => r.reread
  | str, s => strReread s
  | value, x => x.reread
  | vec2, v => (v.1.reread, v.2.reread)
  | vec3, v => (v.1.reread, v.2.1.reread, v.2.2.reread)
  | opt f, v => match v with
    | .custom a => .custom (f.reread a)
    | .omitted => .omitted
    | .inherited => .inherited
  | list f, vs => vs.map f.reread
  | idOr _ f, v => match v with
    | .id n => .id n
    | .custom a => .custom (f.reread a)
  | seq f g, v => (f.reread v.1, g.reread v.2)
  | ent _ _ b _, v => b.reread v
  | ref _, v => v
  | int, v => v
  | int32, v => v
  | bool, v => v
  | guid, v => v
  | time, v => v
  | enum _, v => v
  | optDim _, v => v

end Fld

end Verif
