import Verif.Model.File
/-
Model of the error a failed check gives (`/repo/ifc_rs/src/lib.rs:103-105` and `/repo/ifc_rs_verify_derive/src/field.rs`): which
entry, which reference and which types it names.  The words around them are left out; for the attribute see `CheckMessage`.
-/
namespace Verif

/-- Outcome of the check with what its error names: the entry (`ID: {id}`), the id of the reference, the types allowed and the
type found. -/
inductive Told where
  | fine
  | error (holder target : Nat) (allowed : List Kind) (found : Kind)
  | panic
  deriving DecidableEq

/-- `?` -/
def Told.andThen (a b : Told) : Told :=
  match a with
  | .fine => b
  | t => t

/-- ifc_rs_verify_derive/src/field.rs:80-137, with `.context(format!("ID: {id}"))` of lib.rs:104 -/
def checkRefTold (m : DataMap) (i : Nat) (c : Nat × List Kind) : Told :=
  match m.getUntyped c.1 with
  | .panic => .panic
  | .val e => match e.kind with
    | none => .fine
    | some k => if k ∈ c.2 then .fine else .error i c.1 c.2 k

/-- ifc_rs_verify_derive/src/lib.rs:125-135 -/
def entityTold (m : DataMap) (i : Nat) (e : Entity) : Told :=
  e.checks.foldr (fun c t => (checkRefTold m i c).andThen t) .fine

/-- lib.rs:103-105 -/
def allTold (m : DataMap) : Told :=
  m.foldr (fun ie t => (entityTold m ie.1 ie.2).andThen t) .fine

/-- What `IFC::from_str` says about a file it refuses in the check (lib.rs:95-109). -/
def fromStrTold (s : Str) : Option Told :=
  match pIfc s with
  | .ok f r => if r = [] then some (allTold f.data) else none
  | _ => none

end Verif
