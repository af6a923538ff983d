import Verif.Model.Persons
/-
The calls of `Model/Persons.lean` on entities, as a program makes them on the values it has.  Paths are relative to
/repo/ifc_rs/src.
-/
namespace Verif.Persons
open Verif Schema

/-- an organisation (objects/organization/mod.rs:16-28) as a row of attributes -/
def Organization.val (o : Organization) : (row .Organization).Val :=
  ((o.id, o.name, o.description, o.roles, o.addresses) : Opt Str × Str × Opt Str × Opt (List Nat) × Opt (List Nat))

def Organization.of (v : (row .Organization).Val) : Organization :=
  let v : Opt Str × Str × Opt Str × Opt (List Nat) × Opt (List Nat) := v
  ⟨v.1, v.2.1, v.2.2.1, v.2.2.2.1, v.2.2.2.2⟩

/-- a person in an organisation (objects/person_and_org/mod.rs:16-23) as a row of attributes -/
def PersonAndOrganization.val (p : PersonAndOrganization) : (row .PersonAndOrganization).Val :=
  ((p.person, p.organization, p.roles) : Nat × Nat × Opt (List Nat))

def PersonAndOrganization.of (v : (row .PersonAndOrganization).Val) : PersonAndOrganization :=
  let v : Nat × Nat × Opt (List Nat) := v
  ⟨v.1, v.2.1, v.2.2⟩

/-- a call of one of the three types -/
inductive ActorCall where
  | person (c : PersonCall)
  | organization (c : OrganizationCall)
  | personAndOrganization (r : IdOr RoleV)

/-- objects/person/mod.rs:53-138, objects/organization/mod.rs:45-71, objects/person_and_org/mod.rs:34-46 on an entity of
the type; the Rust types leave no other case, the last line is for none. -/
def ActorCall.on (m : DataMap) : ActorCall → Entity → Ret (DataMap × Entity)
  | .person c, .known .Person v => do
    let (m, p) ← (Person.of v).call m c
    return (m, .known .Person p.val)
  | .organization c, .known .Organization v => do
    let (m, o) ← (Organization.of v).call m c
    return (m, .known .Organization o.val)
  | .personAndOrganization r, .known .PersonAndOrganization v => do
    let (m, p) ← (PersonAndOrganization.of v).addRole m r
    return (m, .known .PersonAndOrganization p.val)
  | _, _ => .panic

end Verif.Persons
