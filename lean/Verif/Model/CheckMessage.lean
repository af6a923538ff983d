import Verif.Model.Declarations
/-
Model of the message of a failed check (`/repo/ifc_rs_verify_derive/src/field.rs:80-137`): the names of attribute and struct in it,
the types allowed, the type found and the id.  The words between them and the path in front of the type found are left out.
-/
namespace Verif.Derive
open Verif

/-- ifc_rs_verify_derive/src/lib.rs:84-89 and 124-136: `Crate.plan` with the name of the struct the macro is put on in each
`Field` (field.rs:69), which `Crate.plan` leaves out -/
def Crate.owned (c : Crate) : Nat → Str → Nat → Option (List (Str × Nat × Field))
  | 0, _, _ => none
  | n + 1, x, i => match c.data x with
    | none => none
    | some d => match expand d with
      | .panic => none
      | .val (inherited, fields) =>
        let at_ := places (c.width n) i d.fields
        let a := collect (fun v => match at_.lookup v with
          | some (.path y none, j) => c.owned n y j
          | _ => none) inherited
        let b := collect (fun f : Field => (at_.lookup f.var).map fun z => (x, z.2, f)) fields
        match a, b with
        | some a, some b => some (a.flatten ++ b)
        | _, _ => none

/-- what a check demands and the names its message would give: struct, attribute, demand -/
abbrev Saying := Str × Str × Demand

/-- the checks of one field (field.rs:140-300) -/
def sayingsOf (v : List ((f : Fld) × f.Val)) (q : Str × Nat × Field) : Option (List Saying) :=
  match v[q.2.1]? with
  | some y => (q.2.2.demands y.1 y.2).map fun l => l.map fun d => (q.1, q.2.2.var, d)
  | none => none

/-- the checks of `verify_id_types` of struct `x` on a value with these attributes, in order -/
def Crate.sayings (c : Crate) (x : Str) (v : List ((f : Fld) × f.Val)) : Option (List Saying) :=
  match c.owned c.length x 0 with
  | none => none
  | some p => (collect (sayingsOf v) p).map List.flatten

/-- outcome of the checks of an entry -/
inductive Msg where
  | fine
  | error (owner var : Str) (allowed : List Str) (found : Str) (id : Nat)
  | panic
  deriving DecidableEq

/-- `?` -/
def Msg.andThen (a b : Msg) : Msg :=
  match a with
  | .fine => b
  | t => t

/-- field.rs:80-137: with `#var_name`, `#struct_name`, `#type_names` or `#typed_str`, `t.type_name()` and `id` -/
def say (m : DataMap) (s : Saying) : Msg :=
  match m.getUntyped s.2.2.1 with
  | .panic => .panic
  | .val (.dummy _) => .fine
  | .val (.known k _) => if structName k ∈ s.2.2.2 then .fine else .error s.1 s.2.1 s.2.2.2 (structName k) s.2.2.1

def sayAll (m : DataMap) (l : List Saying) : Msg := l.foldr (fun s t => (say m s).andThen t) .fine

end Verif.Derive
