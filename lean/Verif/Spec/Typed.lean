import Verif.Spec.Ctors
import Verif.Model.Actors
import Verif.Props.Verify
/-
Specification vocabulary: values the check of a load accepts, and arguments that are what their types say.
-/
namespace Verif.Setters
open Verif Schema DataMap

/-- The check of a load accepts the entity, and none of its references, checked or not, leads nowhere. -/
structure Sound (m : DataMap) (e : Entity) : Prop where
  checked : verifyEntity m e = .good
  stored : ∀ n ∈ e.refs, m.lookup n ≠ none

/-- what ids of no type have to be ids of -/
def wanted (k : Kind) (par : Str) : Option (List Kind) :=
  if k = .RelAggregates ∧ par = cs! "parent" then some [.Project, .Site, .Building, .Storey]
  else if k = .RelAggregates ∧ par = cs! "children" then some [.Site, .Building, .Storey, .Space]
  else none

/-- the id has an entity of one of the types, or any at all -/
def Leads (m : DataMap) : Option (List Kind) → Nat → Prop
  | none, n => m.lookup n ≠ none
  | some ks, n => GoodTarget m n ks

/-- An argument is what its type says: an id of a type has an entity of the type (or an unknown one), a value given is
one of those that are at hand, and references inside a plain value lead to what is wanted. -/
def Honest (m : DataMap) (w : Option (List Kind)) (hand : Entity → Prop) : (a : ArgTy) → a.Val → Prop
  | .plain f, x => ∀ n ∈ f.refs x, Leads m w n
  | .entity k, .id n => GoodTarget m n [k]
  | .entity k, .custom v => hand (.known k v)
  | .fresh k, v => hand (.known k v)

/-- the type of the entity an argument stands for -/
def ArgTy.kind : ArgTy → Option Kind
  | .plain _ => none
  | .entity k => some k
  | .fresh k => some k

def Par.kind : Par → Option Kind
  | .one a => a.kind
  | .each a => a.kind
  | .typed k => some k
  | .typeds k => some k
  | _ => none

/-- The arguments the Rust types allow but the check of a load does not, by the type of the value, the name of the call
or the parameter, and the type of the argument. -/
def mistyped (k : Kind) (name : Str) (arg : Kind) : Bool :=
  (k = .GeometricRepresentationContext ∧ name = cs! "true_north") ||
  (k = .RelContainedInSpatialStructure ∧ (name = cs! "relate_structure" ∨ name = cs! "relating_structure") ∧
    arg ∈ [Kind.Space, .ShadingDevice]) ||
  (k = .RelVoidsElement ∧ name = cs! "relating_building_element" ∧
    arg ∈ [Kind.Storey, .Door, .Space, .Site, .Roof, .ShadingDevice]) ||
  (k = .RelFillsElement ∧ name = cs! "relating_building_element" ∧
    arg ∈ [Kind.Storey, .Space, .Site, .Roof, .ShadingDevice])

/-- an argument of a function making values is what its type says -/
def HonestPar (m : DataMap) (w : Option (List Kind)) (hand : Entity → Prop) : (p : Par) → p.Val → Prop
  | .one a, x => Honest m w hand a x
  | .each a, xs => ∀ x ∈ xs, Honest m w hand a x
  | .option f, x => ∀ y, x = some y → ∀ n ∈ f.refs y, Leads m w n
  | .flag, _ => True
  | .typed j, n => GoodTarget m n [j]
  | .typeds j, ns => ∀ n ∈ ns, GoodTarget m n [j]

def HonestAll (m : DataMap) (hand : Entity → Prop) (k : Kind) : (ps : Pars) → Args ps → Prop
  | [], _ => True
  | p :: ps, x => HonestPar m (wanted k p.1) hand p.2 x.1 ∧ HonestAll m hand k ps x.2

/-- the call is not for an argument the check does not allow -/
def Allowed (s : Setter) : Prop := ∀ j, s.arg.kind = some j → mistyped s.kind s.name j = false

/-- none of the parameters is for an argument the check does not allow -/
def WellTyped (c : Ctor) : Prop := ∀ p ∈ c.pars, ∀ j, p.2.kind = some j → mistyped c.kind p.1 j = false

/-- an id passed has an entity of its type, not an unknown one -/
def Known (m : DataMap) : (a : ArgTy) → a.Val → Prop
  | .entity k, .id n => ∃ w, m.lookup n = some (.known k w)
  | _, _ => True

def KnownPar (m : DataMap) : (p : Par) → p.Val → Prop
  | .one a, x => Known m a x
  | _, _ => True

def KnownAll (m : DataMap) : (ps : Pars) → Args ps → Prop
  | [], _ => True
  | p :: ps, x => KnownPar m p.2 x.1 ∧ KnownAll m ps x.2

/-- every stored entity is sound -/
def AllSound (m : DataMap) : Prop := ∀ i e, m.lookup i = some e → Sound m e

/-- the argument of a call on a person, an organisation or a person in an organisation -/
def actorArg : Persons.ActorCall → (a : ArgTy) × a.Val
  | .person (.id s) => ⟨.plain .str, s⟩
  | .person (.familyName s) => ⟨.plain .str, s⟩
  | .person (.givenName s) => ⟨.plain .str, s⟩
  | .person (.middleName s) => ⟨.plain .str, s⟩
  | .person (.suffixTitle s) => ⟨.plain .str, s⟩
  | .person (.prefixTitle s) => ⟨.plain .str, s⟩
  | .person (.role r) => ⟨.entity .ActorRole, r⟩
  | .person (.address (.telecom a)) => ⟨.entity .TelecomAddress, a⟩
  | .person (.address (.postal a)) => ⟨.entity .PostalAddress, a⟩
  | .organization (.role r) => ⟨.entity .ActorRole, r⟩
  | .organization (.address (.telecom a)) => ⟨.entity .TelecomAddress, a⟩
  | .organization (.address (.postal a)) => ⟨.entity .PostalAddress, a⟩
  | .personAndOrganization r => ⟨.entity .ActorRole, r⟩

/-- What a program can do with a model and the values it has at hand: take any sound value, make one, change one by a
call, store one.  Values passed are some of those at hand. -/
inductive Prog : DataMap → List Entity → Prop
  | start {m : DataMap} : Sorted m → AllSound m → Prog m []
  | take {m : DataMap} {h : List Entity} {e : Entity} : Prog m h → Sound m e → Prog m (e :: h)
  | make {m m' : DataMap} {h : List Entity} {c : Ctor} {g : Guid} {x : Args c.pars} {v : (row c.kind).Val} : Prog m h →
      c ∈ ctors → WellTyped c → HonestAll m (· ∈ h) c.kind c.pars x → c.run g m x = .val (m', v) →
      Prog m' (.known c.kind v :: h)
  | call {m m' : DataMap} {h : List Entity} {s : Setter} {x : s.arg.Val} {e e' : Entity} : Prog m h → e ∈ h →
      s ∈ setters → Allowed s → Honest m none (· ∈ h) s.arg x → s.on x m e = .val (m', e') → Prog m' (e' :: h)
  | actor {m m' : DataMap} {h : List Entity} {c : Persons.ActorCall} {e e' : Entity} : Prog m h → e ∈ h →
      Honest m none (· ∈ h) (actorArg c).1 (actorArg c).2 → c.on m e = .val (m', e') → Prog m' (e' :: h)
  | store {m m' : DataMap} {h : List Entity} {e : Entity} {i : Nat} : Prog m h → e ∈ h →
      m.insertNew e = .val (m', i) → Prog m' h

end Verif.Setters
