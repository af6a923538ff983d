import Verif.Spec.Through
/-
C77: a model with other ids.
-/
namespace Verif

/-- the value with every reference `n` replaced by `σ n` -/
def Fld.renumber (σ : Nat → Nat) : (f : Fld) → f.Val → f.Val
  | .ref _, n => σ n
  | .opt f, v => match v with
    | .custom a => .custom (f.renumber σ a)
    | .omitted => .omitted
    | .inherited => .inherited
  | .list f, vs => vs.map (f.renumber σ)
  | .idOr _ f, v => match v with
    | .id n => .id (σ n)
    | .custom a => .custom (f.renumber σ a)
  | .seq f g, v => (f.renumber σ v.1, g.renumber σ v.2)
  | .ent _ _ b _, v => b.renumber σ v
  | .real, v => v
  | .int, v => v
  | .int32, v => v
  | .bool, v => v
  | .str, v => v
  | .guid, v => v
  | .time, v => v
  | .value, v => v
  | .enum _, v => v
  | .vec2, v => v
  | .vec3, v => v
  | .optDim _, v => v

/-- the entity with other references; the text of an unknown one stays as it is -/
def Entity.renumber (σ : Nat → Nat) : Entity → Entity
  | .known k v => .known k ((Schema.row k).renumber σ v)
  | .dummy w => .dummy w

/-- the model with other ids -/
def DataMap.renumber (σ : Nat → Nat) (m : DataMap) : DataMap := m.map fun ie => (σ ie.1, ie.2.renumber σ)

def Ifc.renumber (σ : Nat → Nat) (f : Ifc) : Ifc := ⟨f.header, f.data.renumber σ⟩

/-- the ids that occur in a model, as numbers of lines or in references -/
def DataMap.ids (m : DataMap) : List Nat := m.flatMap fun ie => ie.1 :: ie.2.refs

/-- greater ones become greater ones -/
def Increasing (σ : Nat → Nat) (ids : List Nat) : Prop := ∀ a ∈ ids, ∀ b ∈ ids, a < b → σ a < σ b

/-- different ones become different ones -/
def Apart (σ : Nat → Nat) (ids : List Nat) : Prop := ∀ a ∈ ids, ∀ b ∈ ids, σ a = σ b → a = b

/-- the same for all numbers -/
def AllApart (σ : Nat → Nat) : Prop := ∀ a b, σ a = σ b → a = b

end Verif
