import Verif.Model.CheckMessage
import Verif.Model.CheckError
import Verif.Spec.Derive
import Verif.Spec.Exchange
/-
C86: where a named attribute is.
-/
namespace Verif.Derive
open Verif Verif.Exchange

/-- Struct `s` is `x` or embedded in it and declares a field `f` that stands at place `j`, if the attributes of `x` begin at
place `i`.  A field that embeds a struct takes as many places as this has attributes (`Crate.width`). -/
inductive StandsAt (c : Crate) : Str → Nat → Str → Str → Nat → Prop
  | own {x : Str} {i : Nat} {a b : List FieldDecl} {d : FieldDecl} : c.data x = some (.named (a ++ d :: b)) →
    StandsAt c x i x d.name (i + (a.map fun e => c.width c.length e.ty).sum)
  | inside {x y s f : Str} {i j : Nat} {a b : List FieldDecl} {d : FieldDecl} :
    c.data x = some (.named (a ++ d :: b)) → d.ty = .path y none →
    StandsAt c y (i + (a.map fun e => c.width c.length e.ty).sum) s f j → StandsAt c x i s f j

/-- the message about an entry of kind `k` (ifc_rs/src/lib.rs:103-105, `ifc_type.verify_id_types(&me)`) -/
def entityMsg (m : DataMap) (k : Kind) (v : (Schema.row k).Val) : Option Msg :=
  (crate.sayings (structName k) (parts (Schema.row k) v)).map (sayAll m)

/-- what message and error of C85 have in common -/
def Msg.Tells (t : Msg) (i : Nat) (u : Told) : Prop :=
  match t, u with
  | .fine, .fine => True
  | .panic, .panic => True
  | .error _ _ types found n, .error i' n' ks k => i' = i ∧ n' = n ∧ types = ks.map structName ∧ found = structName k
  | _, _ => False

/-- names of checked attributes of a kind, with their places -/
def checkedNames (k : Kind) : List (Str × Str × Nat) :=
  ((crate.owned crate.length (structName k) 0).getD []).map fun q => (q.1, q.2.2.var, q.2.1)

end Verif.Derive
