import Verif.Model.Schema
/-
Stored objects, the `DataMap` (`meta/datamap`) and reference verification (`ifc_rs_verify_derive`).
Paths are relative to /repo/ifc_rs/src unless they start with `ifc_rs_verify_derive`.
-/
namespace Verif

/-- `Box<dyn IfcType>` as it can occur in a file: a value of one of the known structs, or
`Dummy { s }` (parser/dummy.rs:9-12).  Other `IfcType` implementors that no reader produces (`FixMeType`, primitives,
`Header`, `Footer`) are left out. -/
inductive Entity where
  | known (k : Kind) (v : (Schema.row k).Val)
  | dummy (s : Str)

namespace Entity

instance : DecidableEq Entity := fun a b =>
  match a, b with
  | known k v, known k' v' =>
    if h : k = k' then by
      subst h
      exact if h' : v = v' then isTrue (by rw [h']) else isFalse (by intro e; injection e with _ e; exact h' (eq_of_heq (heq_of_eq e)))
    else isFalse (by intro e; injection e with e _; exact h e)
  | dummy s, dummy s' => if h : s = s' then isTrue (by rw [h]) else isFalse (by intro e; injection e; contradiction)
  | known _ _, dummy _ => isFalse (by intro e; cases e)
  | dummy _, known _ _ => isFalse (by intro e; cases e)

/-- the `TypeId` of the boxed value; `none` is `Dummy` -/
def kind : Entity → Option Kind
  | known k _ => some k
  | dummy _ => none

/-- `downcast_ref::<T>()` (crate `downcast_rs`): succeeds iff the `TypeId` matches -/
def downcast (e : Entity) (k : Kind) : Option (Schema.row k).Val :=
  match e with
  | known k' v => if h : k' = k then some (h ▸ v) else none
  | dummy _ => none

/-- `Display` of the boxed value; parser/dummy.rs:29-33 for the unknown ones -/
def print : Entity → Str
  | known k v => (Schema.row k).print v
  | dummy s => s ++ cs! ";"

/-- references checked by `verify_id_types`, in order; `Dummy` has no reference fields -/
def checks : Entity → List (Nat × List Kind)
  | known k v => (Schema.row k).checks v
  | dummy _ => []

/-- all references in the value (specification only) -/
def refs : Entity → List Nat
  | known k v => (Schema.row k).refs v
  | dummy _ => []

end Entity

/-- Result of an API call that may panic. -/
inductive Ret (α : Type) where
  | val (a : α)
  | panic
  deriving DecidableEq

/-- meta/datamap/mod.rs:13-14: `BTreeMap<Id, Box<dyn IfcType>>` as the list of its entries in key order. -/
abbrev DataMap := List (Nat × Entity)

namespace DataMap

/-- `BTreeMap::insert`: the map afterwards -/
def put : DataMap → Nat → Entity → DataMap
  | [], i, e => [(i, e)]
  | (j, f) :: r, i, e =>
    if i < j then (i, e) :: (j, f) :: r
    else if i = j then (i, e) :: r
    else (j, f) :: put r i e

/-- `BTreeMap::get` -/
def lookup : DataMap → Nat → Option Entity
  | [], _ => none
  | (j, f) :: r, i => if i = j then some f else lookup r i

/-- `BTreeMap::remove`: the map afterwards -/
def erase : DataMap → Nat → DataMap
  | [], _ => []
  | (j, f) :: r, i => if i = j then r else (j, f) :: erase r i

/-- `keys().max()` -/
def maxKey : DataMap → Option Nat
  | [] => none
  | (j, _) :: r => match maxKey r with
    | none => some j
    | some m => some (max j m)

/-- meta/datamap/mod.rs:31-37 -/
def insert (m : DataMap) (i : Nat) (e : Entity) : DataMap × Option Entity := (m.put i e, m.lookup i)

/-- meta/datamap/mod.rs:17-29; `id.0 + 1` past `usize::MAX` panics (overflow checks on) -/
def insertNew (m : DataMap) (e : Entity) : Ret (DataMap × Nat) :=
  match m.maxKey with
  | none => .val (m.put 1 e, 1)
  | some k => if k + 1 ≤ usizeMax then .val (m.put (k + 1) e, k + 1) else .panic

/-- meta/datamap/mod.rs:65-67 -/
def contains (m : DataMap) (i : Nat) : Bool := (m.lookup i).isSome

/-- meta/datamap/mod.rs:39-44; `d` is `T::default()` -/
def insertIfNotExists (m : DataMap) (i : Nat) (d : Entity) : DataMap :=
  if m.contains i then m else m.put i d

/-- meta/datamap/mod.rs:46-48 -/
def remove (m : DataMap) (i : Nat) : DataMap × Option Entity := (m.erase i, m.lookup i)

/-- meta/datamap/mod.rs:54-56 -/
def getUntyped (m : DataMap) (i : Nat) : Ret Entity :=
  match m.lookup i with
  | some e => .val e
  | none => .panic

/-- meta/datamap/mod.rs:50-52 -/
def get (m : DataMap) (k : Kind) (i : Nat) : Ret (Schema.row k).Val :=
  match m.lookup i with
  | none => .panic
  | some e => match e.downcast k with
    | some v => .val v
    | none => .panic

/-- meta/datamap/mod.rs:58-63 followed by assigning `f` of the old value through the reference -/
def modify (m : DataMap) (k : Kind) (i : Nat) (f : (Schema.row k).Val → (Schema.row k).Val) : Ret DataMap :=
  match m.lookup i with
  | none => .panic
  | some e => match e.downcast k with
    | some v => .val (m.put i (.known k (f v)))
    | none => .panic

/-- meta/datamap/mod.rs:69-73 -/
def findAllOfType (m : DataMap) (k : Kind) : List (Nat × (Schema.row k).Val) :=
  m.filterMap fun ie => (ie.2.downcast k).map fun v => (ie.1, v)

/-- meta/datamap/mod.rs:75-80 -/
def idOf (m : DataMap) (k : Kind) : List Nat :=
  (m.filter fun ie => ie.2.kind == some k).map (·.1)

/-- meta/datamap/mod.rs:83-90 and the accumulation of the reader's entries (`BTreeMap` from a sequence:
later entries replace earlier ones) -/
def ofEntries (es : List (Nat × Entity)) : DataMap := es.foldl (fun m ie => m.put ie.1 ie.2) []

end DataMap

/-! ### Verification -/

/-- Result of `verify_id_types`: `Ok`, an error, or a panic in `get_untyped`. -/
inductive Verdict where
  | good
  | bad
  | panic
  deriving DecidableEq, Repr

/-- `?` -/
def Verdict.andThen (a b : Verdict) : Verdict :=
  match a with
  | .good => b
  | v => v

/-- ifc_rs_verify_derive/src/field.rs:80-137 with `get_untyped` (meta/datamap/mod.rs:54-56):
the target must exist; it must have an allowed type or be a `Dummy` -/
def checkRef (m : DataMap) (c : Nat × List Kind) : Verdict :=
  match m.getUntyped c.1 with
  | .panic => .panic
  | .val e => match e.kind with
    | none => .good
    | some k => if k ∈ c.2 then .good else .bad

/-- ifc_rs_verify_derive/src/lib.rs:125-135 -/
def verifyEntity (m : DataMap) (e : Entity) : Verdict :=
  e.checks.foldr (fun c v => (checkRef m c).andThen v) .good

/-- lib.rs:103-105: every entry in id order -/
def verifyAll (m : DataMap) : Verdict :=
  m.foldr (fun ie v => (verifyEntity m ie.2).andThen v) .good

end Verif
