import Verif.Spec.CutOff
/-
C80: a file whose line ends are replaced by other blanks.
-/
namespace Verif

/-- blanks that may stand for a line end: at least one -/
def Blank (e : Str) : Prop := e ≠ [] ∧ ∀ c ∈ e, c = ' ' ∨ c = '\t' ∨ c = '\r' ∨ c = '\n'

instance (e : Str) : Decidable (Blank e) := by unfold Blank; infer_instance

/-- every line feed replaced by `e` -/
def relined (e s : Str) : Str := s.flatMap fun c => if c = '\n' then e else [c]

/-- the same in a property value -/
def Value.relined (e : Str) : Value → Value
  | .label s => .label (Verif.relined e s)
  | .identifier s => .identifier (Verif.relined e s)
  | v => v

/-- the same in every text of a value -/
def Fld.relined (e : Str) : (f : Fld) → f.Val → f.Val
  | .str, v => Verif.relined e v
  | .value, v => Value.relined e v
  | .opt f, v => match v with
    | .omitted => .omitted
    | .inherited => .inherited
    | .custom a => .custom (f.relined e a)
  | .list f, v => v.map (f.relined e)
  | .idOr _ f, v => match v with
    | .id n => .id n
    | .custom a => .custom (f.relined e a)
  | .seq f g, v => (f.relined e v.1, g.relined e v.2)
  | .ent _ _ b _, v => b.relined e v
  | .ref _, v | .real, v | .int, v | .int32, v | .bool, v | .guid, v | .time, v | .enum _, v | .optDim _, v | .vec2, v | .vec3, v => v

/-- the same in every text of an entity; in the whole text of an unknown one -/
def Entity.relined (e : Str) : Entity → Entity
  | .known k v => .known k ((Schema.row k).relined e v)
  | .dummy w => .dummy (Verif.relined e w)

/-- the same in every text of a header -/
def Header.relined (e : Str) (h : Header) : Header where
  descriptions := h.descriptions.map fun v => ⟨v.name, v.items.map (Verif.relined e)⟩
  fileName := Verif.relined e h.fileName
  time := h.time
  authors := h.authors.map (Verif.relined e)
  orgs := h.orgs.map (Verif.relined e)
  preprocessor := Verif.relined e h.preprocessor
  system := Verif.relined e h.system
  authorization := Verif.relined e h.authorization
  schemas := h.schemas

/-- the same in every text of a model -/
def Ifc.relined (e : Str) (f : Ifc) : Ifc := ⟨f.header.relined e, f.data.map fun ie => (ie.1, ie.2.relined e)⟩

/-- no text of the model contains a line feed -/
def Ifc.Unbroken (f : Ifc) : Prop :=
  (∀ t ∈ Cut.headerStrings f.header, '\n' ∉ t) ∧ ∀ ie ∈ f.data, ∀ t ∈ Cut.entityStrings ie.2, '\n' ∉ t

/-- the same in what is loaded; errors stay what they are -/
def Load.relined (e : Str) : Load → Load
  | .ok f => .ok (f.relined e)
  | l => l

end Verif
