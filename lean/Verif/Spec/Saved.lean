import Verif.Spec.Typed
import Verif.Spec.File
/-
Specification vocabulary: programs that pass only values that can be written.
-/
namespace Verif.Setters
open Verif Schema DataMap

/-- the value passed as it is, if it is one -/
def Fits (P : (f : Fld) → f.Val → Prop) : (a : ArgTy) → a.Val → Prop
  | .plain f, x => P f x
  | _, _ => True

def FitsPar (P : (f : Fld) → f.Val → Prop) : (p : Par) → p.Val → Prop
  | .one a, x => Fits P a x
  | .each a, xs => ∀ x ∈ xs, Fits P a x
  | .option f, x => ∀ y, x = some y → P f y
  | _, _ => True

def FitsAll (P : (f : Fld) → f.Val → Prop) : (ps : Pars) → Args ps → Prop
  | [], _ => True
  | p :: ps, x => FitsPar P p.2 x.1 ∧ FitsAll P ps x.2

/-- an entity of known type with fitting attributes, or an unknown one that can be written -/
def FitEntity (P : (f : Fld) → f.Val → Prop) : Entity → Prop
  | .known k v => P (row k) v
  | .dummy w => UnknownPlain w

/-- The programs of `Prog` in which all plain values passed fit, and all entities they begin with. -/
inductive Tidy (P : (f : Fld) → f.Val → Prop) : DataMap → List Entity → Prop
  | start {m : DataMap} : Sorted m → AllSound m → (∀ i e, m.lookup i = some e → i < 2 ^ 64 ∧ FitEntity P e) → Tidy P m []
  | take {m : DataMap} {h : List Entity} {e : Entity} : Tidy P m h → Sound m e → FitEntity P e → Tidy P m (e :: h)
  | make {m m' : DataMap} {h : List Entity} {c : Ctor} {g : Guid} {x : Args c.pars} {v : (row c.kind).Val} : Tidy P m h →
      c ∈ ctors → WellTyped c → HonestAll m (· ∈ h) c.kind c.pars x → FitsAll P c.pars x → c.run g m x = .val (m', v) →
      Tidy P m' (.known c.kind v :: h)
  | call {m m' : DataMap} {h : List Entity} {s : Setter} {x : s.arg.Val} {e e' : Entity} : Tidy P m h → e ∈ h →
      s ∈ setters → Allowed s → Honest m none (· ∈ h) s.arg x → Fits P s.arg x → s.on x m e = .val (m', e') →
      Tidy P m' (e' :: h)
  | actor {m m' : DataMap} {h : List Entity} {c : Persons.ActorCall} {e e' : Entity} : Tidy P m h → e ∈ h →
      Honest m none (· ∈ h) (actorArg c).1 (actorArg c).2 → Fits P (actorArg c).1 (actorArg c).2 →
      c.on m e = .val (m', e') → Tidy P m' (e' :: h)
  | store {m m' : DataMap} {h : List Entity} {e : Entity} {i : Nat} : Tidy P m h → e ∈ h →
      m.insertNew e = .val (m', i) → Tidy P m' h

/-- values that come back from a file as they are -/
def Lossless (f : Fld) (v : f.Val) : Prop := f.Writable v ∧ f.Exact v

end Verif.Setters
