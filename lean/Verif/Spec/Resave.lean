import Verif.Spec.RecordRead
/-
Specification vocabulary for C70: the values whose reals are all numbers.
-/
namespace Verif.Records
open Verif
open Exchange

/-- no real of the value is infinite or not a number -/
def Numbers : (f : Fld) → f.Val → Prop
  | .real, r => Finite r
  | .value, x => match x with
    | .real r => Finite r
    | .thermal r => Finite r
    | _ => True
  | .vec2, v => Finite v.1 ∧ Finite v.2
  | .vec3, v => Finite v.1 ∧ Finite v.2.1 ∧ Finite v.2.2
  | .opt f, v => match v with
    | .custom a => Numbers f a
    | _ => True
  | .list f, vs => ∀ v ∈ vs, Numbers f v
  | .idOr _ f, v => match v with
    | .id _ => True
    | .custom a => Numbers f a
  | .seq f g, v => Numbers f v.1 ∧ Numbers g v.2
  | .ent _ _ b _, v => Numbers b v
  | _, _ => True

end Verif.Records
