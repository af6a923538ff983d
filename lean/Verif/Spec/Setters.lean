import Verif.Model.Setters
import Verif.Spec.Standard
/-
Specification vocabulary: the attributes of a value by their names in the standard, and what a call on a value is about.
-/
namespace Verif.Setters
open Verif Schema

/-- the texts of the attributes of a value, in the order they are written -/
def texts : (f : Fld) → f.Val → List Str
  | .seq f g, v => texts f v.1 ++ texts g v.2
  | .ent _ _ b _, v => texts b v
  | .ref c, v => [(Fld.ref c).print v]
  | .real, v => [Fld.real.print v]
  | .int, v => [Fld.int.print v]
  | .int32, v => [Fld.int32.print v]
  | .bool, v => [Fld.bool.print v]
  | .str, v => [Fld.str.print v]
  | .guid, v => [Fld.guid.print v]
  | .time, v => [Fld.time.print v]
  | .value, v => [Fld.value.print v]
  | .enum t, v => [(Fld.enum t).print v]
  | .vec2, v => [Fld.vec2.print v]
  | .vec3, v => [Fld.vec3.print v]
  | .opt f, v => [(Fld.opt f).print v]
  | .optDim t, v => [(Fld.optDim t).print v]
  | .list f, v => [(Fld.list f).print v]
  | .idOr k f, v => [(Fld.idOr k f).print v]

/-- names of the attributes of a type in the standard, in order -/
def names (k : Kind) : List Str := (Standard.attributes k).map (·.1)

/-- the text written for the attribute of a name -/
def attr (k : Kind) (v : (row k).Val) (n : Str) : Option Str := ((names k).zip (texts (row k) v)).lookup n

/-- what a call does with an attribute -/
inductive Mode where
  /-- gives it the argument as its value -/
  | set
  /-- adds the argument at the end of its list -/
  | push
  deriving DecidableEq

/-- `name_like_this` as `NameLikeThis` -/
def camel (s : Str) : Str := go true s
where
  go : Bool → Str → Str
    | _, [] => []
    | up, c :: cs => if c = '_' then go true cs else (if up then upperAscii c else c) :: go false cs

/-- The attributes a call is about: the one of its own name, but for some calls. -/
def aims (k : Kind) (call : Str) : List (Mode × Str) :=
  if k = .OwnerHistory ∧ call = cs! "owning_user" then [(.set, cs! "OwningUser"), (.set, cs! "LastModifyingUser")]
  else if k = .OwnerHistory ∧ call = cs! "owning_application" then
    [(.set, cs! "OwningApplication"), (.set, cs! "LastModifyingApplication")]
  else if k = .MaterialLayerSet ∧ call = cs! "name" then [(.set, cs! "LayerSetName")]
  else if call = cs! "unit_assignment" then [(.set, cs! "UnitsInContext")]
  else if call = cs! "relative_to" then [(.set, cs! "PlacementRelTo")]
  else if call = cs! "add_context" then [(.push, cs! "RepresentationContexts")]
  else if call = cs! "add_layer" then [(.push, cs! "MaterialLayers")]
  else if call = cs! "add_constituent" then [(.push, cs! "MaterialConstituents")]
  else if call = cs! "add_item" then [(.push, cs! "Items")]
  else if call = cs! "add_representation" then [(.push, cs! "Representations")]
  else if call = cs! "relate_obj" then [(.push, cs! "RelatedObjects")]
  else if call = cs! "relate_structure" then [(.push, cs! "RelatedElements")]
  else if call = cs! "relate_definition" then [(.push, cs! "RelatedDefinitions")]
  else if call = cs! "properties" then [(.push, cs! "Properties")]
  else [(.set, camel call)]

/-- the call is about the attribute -/
def About (k : Kind) (call n : Str) : Prop := n ∈ (aims k call).map (·.2)

instance (k : Kind) (call n : Str) : Decidable (About k call n) := inferInstanceAs (Decidable (_ ∈ _))

/-- The text written for an argument: a value as it is written, an id, or an id, unused in the first map, that has the
value in the second. -/
def Says (m m' : DataMap) : (a : ArgTy) → a.Val → Str → Prop
  | .plain f, x, t => t = f.print x
  | .entity _, .id n, t => t = '#' :: natStr n
  | .entity k, .custom v, t => ∃ i, m.lookup i = none ∧ m'.lookup i = some (.known k v) ∧ t = '#' :: natStr i
  | .fresh k, v, t => ∃ i, m.lookup i = none ∧ m'.lookup i = some (.known k v) ∧ t = '#' :: natStr i

/-- the entities that come with an argument: the value given, if it is no id -/
def given : (a : ArgTy) → a.Val → List Entity
  | .plain _, _ => []
  | .entity _, .id _ => []
  | .entity k, .custom v => [.known k v]
  | .fresh k, v => [.known k v]

/-- The second map has the entities besides those of the first, at one new id each. -/
inductive Stores : List Entity → DataMap → DataMap → Prop
  | nil {m : DataMap} : Stores [] m m
  | cons {e : Entity} {es : List Entity} {m m' m'' : DataMap} {i : Nat} : m.lookup i = none → m'.lookup i = some e →
      (∀ j, j ≠ i → m'.lookup j = m.lookup j) → Stores es m' m'' → Stores (e :: es) m m''

/-- the text of a list of references -/
def IsList (ts : List Str) (s : Str) : Prop :=
  (∀ e ∈ ts, ∃ i, e = '#' :: natStr i) ∧ s = '(' :: (commas ts ++ [')'])

/-- the attribute of an entity -/
def attrOf : Entity → Str → Option Str
  | .known k v, n => attr k v n
  | .dummy _, _ => none

end Verif.Setters
