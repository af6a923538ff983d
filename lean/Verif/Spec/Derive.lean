import Verif.Model.Derive
/-
Specification vocabulary: which fields of a struct refer to entries, read off their types and attributes.
-/
namespace Verif.Derive
open Verif

/-- a reference: to an entry of any type (`none`), or to one of the type between the brackets -/
inductive Reference : RTy → Option (List RTy) → Prop
  | id {a : Option (List RTy)} : Reference (.path (cs! "Id") a) none
  | typedId {t : List RTy} : Reference (.path (cs! "TypedId") (some t)) (some t)
  | idOr {t : List RTy} : Reference (.path (cs! "IdOr") (some t)) (some t)

/-- a reference or a list of references -/
inductive References : RTy → Option (List RTy) → Prop
  | one {t : RTy} {x : Option (List RTy)} : Reference t x → References t x
  | list {t : RTy} {x : Option (List RTy)} {r : List RTy} :
    Reference t x → References (.path (cs! "IfcList") (some (t :: r))) x

/-- likewise, or such an optional parameter -/
inductive Checkable : RTy → Option (List RTy) → Prop
  | given {t : RTy} {x : Option (List RTy)} : References t x → Checkable t x
  | optional {t : RTy} {x : Option (List RTy)} {r : List RTy} :
    References t x → Checkable (.path (cs! "OptionalParameter") (some (t :: r))) x

/-- a generic type written without its arguments -/
inductive Bare : RTy → Prop
  | list : Bare (.path (cs! "IfcList") none)
  | typedId : Bare (.path (cs! "TypedId") none)
  | idOr : Bare (.path (cs! "IdOr") none)

/-- likewise, `OptionalParameter` included -/
inductive Bare' : RTy → Prop
  | plain {t : RTy} : Bare t → Bare' t
  | optional : Bare' (.path (cs! "OptionalParameter") none)
  | inside {t : RTy} {r : List RTy} : Bare t → Bare' (.path (cs! "OptionalParameter") (some (t :: r)))

/-- `#[inherited]` -/
def FieldDecl.IsInherited (d : FieldDecl) : Prop := Attr.inherited ∈ d.attrs

/-- `#[ifc_types(..)]` with arguments that can be read -/
def FieldDecl.IsTyped (d : FieldDecl) : Prop := ∃ l, Attr.ifcTypes (some l) ∈ d.attrs

/-- all types named -/
def FieldDecl.typesNamed (d : FieldDecl) : List Str := d.attrs.flatMap fun a => match a with
  | .ifcTypes (some l) => l
  | _ => []

/-- the macro generates a check for the field: its type is one of references and, if these are untyped, types are named -/
def FieldDecl.Checked (d : FieldDecl) : Prop :=
  ¬ d.IsInherited ∧ ∃ x, Checkable d.ty x ∧ (x = none → d.typesNamed ≠ [])

/-- what the entries referred to have to be: the types named (`none`) or the type between the brackets -/
def IdOrList.target : IdOrList → Option (List RTy)
  | .id => none
  | .list => none
  | .typedId t => some t
  | .typedIdList t => some t
  | .idOr t => some t
  | .idOrList t => some t

def DataType.target : DataType → Option (List RTy)
  | .id t => t.target
  | .optionalParameter t => t.target

/-- types allowed by it; `none` if there is not one name between the brackets -/
def allowed (types : List Str) : Option (List RTy) → Option (List Str)
  | none => some types
  | some t => (typeName t).map fun x => [x]

/-- the shape of values of a type of references -/
inductive Fits : RTy → Fld → Prop
  | id {a : Option (List RTy)} {ks : Option (List Kind)} : Fits (.path (cs! "Id") a) (.ref ks)
  | typedId {a : Option (List RTy)} {ks : Option (List Kind)} : Fits (.path (cs! "TypedId") a) (.ref ks)
  | idOr {a : Option (List RTy)} {k : Kind} {g : Fld} : Fits (.path (cs! "IdOr") a) (.idOr k g)
  | list {t : RTy} {r : List RTy} {g : Fld} : Fits t g → Fits (.path (cs! "IfcList") (some (t :: r))) (.list g)
  | optional {t : RTy} {r : List RTy} {g : Fld} :
    Fits t g → Fits (.path (cs! "OptionalParameter") (some (t :: r))) (.opt g)

/-- references in such a value, those inside an entity written in place left out -/
def direct : (f : Fld) → f.Val → List Nat
  | .ref _, n => [n]
  | .idOr _ _, v => match v with
    | .id n => [n]
    | .custom _ => []
  | .list f, v => List.flatMap (direct f) v
  | .opt f, v => match v with
    | .custom a => direct f a
    | _ => []
  | _, _ => []

mutual
/-- the type has a reference somewhere in it -/
def RTy.mentions : RTy → Bool
  | .other => false
  | .path n a => decide (n = cs! "Id") || decide (n = cs! "TypedId") || decide (n = cs! "IdOr") || mentionsArgs a
/-- likewise for arguments -/
def mentionsArgs : Option (List RTy) → Bool
  | none => false
  | some l => mentionsList l
/-- likewise for lists -/
def mentionsList : List RTy → Bool
  | [] => false
  | t :: l => t.mentions || mentionsList l
end

/-- fields that hold references and get no check -/
def Crate.unguarded (c : Crate) : List (Str × Str) :=
  c.flatMap fun s => (s.data.fields.filter fun d => d.ty.mentions && match fieldType d with
    | .val none => true
    | _ => false).map fun d => (s.name, d.name)

/-- embedded structs whose checks are not called -/
def Crate.severed (c : Crate) : List (Str × Str) :=
  c.flatMap fun s => (s.data.fields.filter fun d => (match d.ty with
    | .path x none => (c.data x).isSome
    | _ => false) && match fieldType d with
    | .val none => true
    | _ => false).map fun d => (s.name, d.name)

end Verif.Derive
