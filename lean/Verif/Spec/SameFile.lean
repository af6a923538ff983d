import Mathlib.Data.List.Forall2
import Verif.Model.DataMap
/-
C79: values that are written alike.
-/
namespace Verif

/-- equal but for texts and reals, which are only written alike -/
def Value.Alike : Value → Value → Prop
  | .bool a, .bool b => a = b
  | .label a, .label b => showString a = showString b
  | .identifier a, .identifier b => showString a = showString b
  | .real a, .real b => a.format = b.format
  | .thermal a, .thermal b => a = b
  | _, _ => False

/-- equal but for texts and reals, which are only written alike -/
def Fld.Alike : (f : Fld) → f.Val → f.Val → Prop
  | .real, a, b => a.format = b.format
  | .str, a, b => showString a = showString b
  | .value, a, b => a.Alike b
  | .vec2, a, b => a.1.format = b.1.format ∧ a.2.format = b.2.format
  | .vec3, a, b => a.1.format = b.1.format ∧ a.2.1.format = b.2.1.format ∧ a.2.2.format = b.2.2.format
  | .opt f, a, b => match a, b with
    | .omitted, .omitted => True
    | .inherited, .inherited => True
    | .custom a, .custom b => f.Alike a b
    | _, _ => False
  | .list f, a, b => List.Forall₂ f.Alike a b
  | .idOr _ f, a, b => match a, b with
    | .id i, .id j => i = j
    | .custom a, .custom b => f.Alike a b
    | _, _ => False
  | .seq f g, a, b => f.Alike a.1 b.1 ∧ g.Alike a.2 b.2
  | .ent _ _ f _, a, b => f.Alike a b
  | .ref _, a, b => a = b
  | .int, a, b => a = b
  | .int32, a, b => a = b
  | .bool, a, b => a = b
  | .guid, a, b => a = b
  | .time, a, b => a = b
  | .enum _, a, b => a = b
  | .optDim _, a, b => a = b

/-- of the same kind and equal but for texts and reals, which are only written alike; unknown ones equal -/
def Entity.Alike : Entity → Entity → Prop
  | .known k v, e => ∃ v', e = .known k v' ∧ (Schema.row k).Alike v v'
  | .dummy w, e => e = .dummy w

end Verif
