import Verif.Model.Mapping
/-
Persons and organisations: the calls that set or extend their attributes.  Paths are relative to /repo/ifc_rs/src.
-/
namespace Verif.Persons
open Verif Schema

abbrev RoleV := (row .ActorRole).Val
abbrev TelecomV := (row .TelecomAddress).Val
abbrev PostalV := (row .PostalAddress).Val

/-- objects/person/mod.rs:15-37 -/
structure Person where
  id : Opt Str
  familyName : Opt Str
  givenName : Opt Str
  middleNames : Opt (List Str)
  prefixTitles : Opt (List Str)
  suffixTitles : Opt (List Str)
  roles : Opt (List Nat)
  addresses : Opt (List Nat)
deriving DecidableEq

/-- the same as a row of attributes -/
def Person.val (p : Person) : (row .Person).Val :=
  ((p.id, p.familyName, p.givenName, p.middleNames, p.prefixTitles, p.suffixTitles, p.roles, p.addresses) :
    Opt Str × Opt Str × Opt Str × Opt (List Str) × Opt (List Str) × Opt (List Str) × Opt (List Nat) × Opt (List Nat))

def Person.of (v : (row .Person).Val) : Person :=
  let v : Opt Str × Opt Str × Opt Str × Opt (List Str) × Opt (List Str) × Opt (List Str) × Opt (List Nat) × Opt (List Nat) := v
  ⟨v.1, v.2.1, v.2.2.1, v.2.2.2.1, v.2.2.2.2.1, v.2.2.2.2.2.1, v.2.2.2.2.2.2.1, v.2.2.2.2.2.2.2⟩

/-- objects/organization/mod.rs:16-28 -/
structure Organization where
  id : Opt Str
  name : Str
  description : Opt Str
  roles : Opt (List Nat)
  addresses : Opt (List Nat)
deriving DecidableEq

/-- objects/person_and_org/mod.rs:16-23 -/
structure PersonAndOrganization where
  person : Nat
  organization : Nat
  roles : Opt (List Nat)
deriving DecidableEq

/-- an argument `impl Into<IdOr<A>>` with `A: Address` (traits/sub_types.rs:23, objects/address/mod.rs:43, 79) -/
inductive AddressArg where
  | telecom (a : IdOr TelecomV)
  | postal (a : IdOr PostalV)

/-- `if x.is_omitted() { x = IfcList::empty() }; x.custom_mut().unwrap()` (parser/optional.rs:36-41, 47-49) -/
def listMut {α : Type} : Opt (List α) → Ret (List α)
  | .omitted => .val []
  | .custom l => .val l
  | .inherited => .panic

/-- id/id_or.rs:34-39 -/
def orInsert (m : DataMap) (k : Kind) : IdOr (row k).Val → Ret (DataMap × Nat)
  | .id n => .val (m, n)
  | .custom v => m.insertNew (.known k v)

def AddressArg.orInsert (m : DataMap) : AddressArg → Ret (DataMap × Nat)
  | .telecom a => Persons.orInsert m .TelecomAddress a
  | .postal a => Persons.orInsert m .PostalAddress a

/-- the list is borrowed before the new element is made, then extended at its end -/
def pushNew (o : Opt (List Nat)) (x : Ret (DataMap × Nat)) : Ret (DataMap × Opt (List Nat)) := do
  let l ← listMut o
  let (m, i) ← x
  return (m, .custom (l ++ [i]))

def pushText (o : Opt (List Str)) (s : Str) : Ret (Opt (List Str)) := do
  let l ← listMut o
  return .custom (l ++ [s])

/-! ### Persons -/

/-- objects/person/mod.rs:40-51 -/
def Person.empty : Person := ⟨.omitted, .omitted, .omitted, .omitted, .omitted, .omitted, .omitted, .omitted⟩

inductive PersonCall where
  | id (s : Str)
  | familyName (s : Str)
  | givenName (s : Str)
  | middleName (s : Str)
  | suffixTitle (s : Str)
  | prefixTitle (s : Str)
  | role (r : IdOr RoleV)
  | address (a : AddressArg)

/-- objects/person/mod.rs:53-138 -/
def Person.call (m : DataMap) (p : Person) : PersonCall → Ret (DataMap × Person)
  | .id s => .val (m, { p with id := .custom s })
  | .familyName s => .val (m, { p with familyName := .custom s })
  | .givenName s => .val (m, { p with givenName := .custom s })
  | .middleName s => do return (m, { p with middleNames := ← pushText p.middleNames s })
  | .suffixTitle s => do return (m, { p with suffixTitles := ← pushText p.suffixTitles s })
  | .prefixTitle s => do return (m, { p with prefixTitles := ← pushText p.prefixTitles s })
  | .role r => do
    let (m, l) ← pushNew p.roles (orInsert m .ActorRole r)
    return (m, { p with roles := l })
  | .address a => do
    let (m, l) ← pushNew p.addresses (a.orInsert m)
    return (m, { p with addresses := l })

def Person.calls (m : DataMap) (p : Person) : List PersonCall → Ret (DataMap × Person)
  | [] => .val (m, p)
  | c :: cs => do
    let (m, p) ← p.call m c
    Person.calls m p cs

/-! ### Organisations -/

/-- objects/organization/mod.rs:31-43 -/
def Organization.new (id : Option Str) (name : Str) (description : Option Str) : Organization :=
  ⟨match id with | some s => .custom s | none => .omitted, name, match description with | some s => .custom s | none => .omitted,
    .omitted, .omitted⟩

inductive OrganizationCall where
  | role (r : IdOr RoleV)
  | address (a : AddressArg)

/-- objects/organization/mod.rs:45-71 -/
def Organization.call (m : DataMap) (o : Organization) : OrganizationCall → Ret (DataMap × Organization)
  | .role r => do
    let (m, l) ← pushNew o.roles (orInsert m .ActorRole r)
    return (m, { o with roles := l })
  | .address a => do
    let (m, l) ← pushNew o.addresses (a.orInsert m)
    return (m, { o with addresses := l })

def Organization.calls (m : DataMap) (o : Organization) : List OrganizationCall → Ret (DataMap × Organization)
  | [] => .val (m, o)
  | c :: cs => do
    let (m, o) ← o.call m c
    Organization.calls m o cs

/-! ### Persons in organisations -/

/-- objects/person_and_org/mod.rs:26-32 -/
def PersonAndOrganization.new (person organization : Nat) : PersonAndOrganization := ⟨person, organization, .omitted⟩

/-- objects/person_and_org/mod.rs:34-46 -/
def PersonAndOrganization.addRole (m : DataMap) (p : PersonAndOrganization) (r : IdOr RoleV) :
    Ret (DataMap × PersonAndOrganization) := do
  let (m, l) ← pushNew p.roles (orInsert m .ActorRole r)
  return (m, { p with roles := l })

def PersonAndOrganization.addRoles (m : DataMap) (p : PersonAndOrganization) : List (IdOr RoleV) → Ret (DataMap × PersonAndOrganization)
  | [] => .val (m, p)
  | r :: rs => do
    let (m, p) ← p.addRole m r
    PersonAndOrganization.addRoles m p rs

end Verif.Persons
