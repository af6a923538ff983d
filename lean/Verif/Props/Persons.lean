import Verif.Model.Persons
import Verif.Props.DataMap
import Verif.Props.Verify
/-
C37: adding to the list attributes of persons and organisations.
-/
namespace Verif.Persons
open Verif Schema DataMap

/-! ### Specification -/

/-- the elements of a list attribute; `$` has none -/
def elems {α : Type} : Opt (List α) → List α
  | .custom l => l
  | _ => []

/-- something passed to a call: an id, or a new entity of a kind -/
inductive Arg where
  | id (n : Nat)
  | entity (e : Entity)

/-- the id written for an argument: the id passed, or an id unused before which now has the new entity -/
def Arg.Gets (m m' : DataMap) : Arg → Nat → Prop
  | .id n, i => i = n
  | .entity e, i => m.lookup i = none ∧ m'.lookup i = some e

/-- the ids written for some arguments, one for each -/
inductive AllGet (m m' : DataMap) : List Arg → List Nat → Prop
  | nil : AllGet m m' [] []
  | cons {a : Arg} {i : Nat} {as : List Arg} {is : List Nat} : a.Gets m m' i → AllGet m m' as is → AllGet m m' (a :: as) (i :: is)

/-- all old entities are still there -/
def Keeps (m m' : DataMap) : Prop := ∀ j e, m.lookup j = some e → m'.lookup j = some e

def ofIdOr (k : Kind) : IdOr (row k).Val → Arg
  | .id n => .id n
  | .custom v => .entity (.known k v)

def AddressArg.arg : AddressArg → Arg
  | .telecom a => ofIdOr .TelecomAddress a
  | .postal a => ofIdOr .PostalAddress a

namespace PersonCall
def middle : PersonCall → Option Str | middleName s => some s | _ => none
def suffix : PersonCall → Option Str | suffixTitle s => some s | _ => none
def pre : PersonCall → Option Str | prefixTitle s => some s | _ => none
def roleArg : PersonCall → Option Arg | role r => some (ofIdOr .ActorRole r) | _ => none
def addressArg : PersonCall → Option Arg | address a => some a.arg | _ => none
def setId : PersonCall → Option Str | id s => some s | _ => none
def setFamily : PersonCall → Option Str | familyName s => some s | _ => none
def setGiven : PersonCall → Option Str | givenName s => some s | _ => none
end PersonCall

/-- the value set last, else the old one -/
def lastSet (l : List Str) (old : Opt Str) : Opt Str :=
  match l.getLast? with
  | some s => .custom s
  | none => old

/-! ### Lemmas -/

theorem bind_val {α β : Type} {x : Ret α} {f : α → Ret β} {b : β} : (x >>= f) = .val b ↔ ∃ a, x = .val a ∧ f a = .val b := by
  cases x with
  | val a =>
    constructor
    · intro h; exact ⟨a, rfl, h⟩
    · rintro ⟨_, h, h'⟩; cases h; exact h'
  | panic =>
    constructor
    · intro h; cases h
    · rintro ⟨_, h, _⟩; cases h

theorem Keeps.rfl {m : DataMap} : Keeps m m := fun _ _ h => h
theorem Keeps.trans {m m' m'' : DataMap} (h : Keeps m m') (h' : Keeps m' m'') : Keeps m m'' := fun j e hj => h' j e (h j e hj)

theorem Arg.Gets.later {m m' m'' : DataMap} {a : Arg} {i : Nat} (h : a.Gets m m' i) (h' : Keeps m' m'') : a.Gets m m'' i := by
  cases a with
  | id n => exact h
  | entity e => exact ⟨h.1, h' _ _ h.2⟩

theorem Arg.Gets.earlier {m0 m m' : DataMap} {a : Arg} {i : Nat} (h : a.Gets m m' i) (h' : Keeps m0 m) : a.Gets m0 m' i := by
  cases a with
  | id n => exact h
  | entity e =>
    refine ⟨?_, h.2⟩
    cases hl : m0.lookup i with
    | none => exact Eq.refl _
    | some e' => exact absurd (h' _ _ hl) (by rw [h.1]; intro hc; cases hc)

theorem AllGet.earlier {m0 m m' : DataMap} {as : List Arg} {is : List Nat} (h : AllGet m m' as is) (h' : Keeps m0 m) : AllGet m0 m' as is := by
  induction h with
  | nil => exact .nil
  | cons h _ ih => exact .cons (h.earlier h') ih

theorem orInsert_val {m m' : DataMap} (hm : m.Sorted) {k : Kind} {a : IdOr (row k).Val} {i : Nat} (h : orInsert m k a = .val (m', i)) :
    m'.Sorted ∧ Keeps m m' ∧ (ofIdOr k a).Gets m m' i := by
  cases a with
  | id n => cases h; exact ⟨hm, .rfl, Eq.refl _⟩
  | custom v =>
    have h : insertNewAll m [.known k v] = .val (m', [i]) := by
      simp only [insertNewAll]
      rw [show m.insertNew (.known k v) = .val (m', i) from h]
    obtain ⟨h1, _, _, h4, h5, _⟩ := insert_new_preserves m hm _ m' [i] h
    refine ⟨h1, fun j e hj => ?_, ?_, h5 0 (by simp) (by simp)⟩
    · rw [(h4 j (by rw [hj]; exact fun hc => by cases hc)).2, hj]
    · cases hl : m.lookup i with
      | none => exact Eq.refl _
      | some e => exact absurd ((h4 i (by rw [hl]; exact fun hc => by cases hc)).1 i (by simp)) (Nat.lt_irrefl i)

theorem address_val {m m' : DataMap} (hm : m.Sorted) {a : AddressArg} {i : Nat} (h : a.orInsert m = .val (m', i)) :
    m'.Sorted ∧ Keeps m m' ∧ a.arg.Gets m m' i := by
  cases a with
  | telecom a => exact orInsert_val hm h
  | postal a => exact orInsert_val hm h

theorem listMut_val {α : Type} {o : Opt (List α)} {l : List α} (h : listMut o = .val l) : l = elems o := by
  cases o <;> cases h <;> exact Eq.refl _

theorem pushText_val {o o' : Opt (List Str)} {s : Str} (h : pushText o s = .val o') : elems o' = elems o ++ [s] := by
  obtain ⟨l, hl, h⟩ := bind_val.mp h
  cases h
  rw [listMut_val hl]
  exact Eq.refl _

theorem pushNew_val {o o' : Opt (List Nat)} {x : Ret (DataMap × Nat)} {m' : DataMap} (h : pushNew o x = .val (m', o')) :
    ∃ i, x = .val (m', i) ∧ elems o' = elems o ++ [i] := by
  obtain ⟨l, hl, h⟩ := bind_val.mp h
  obtain ⟨⟨m, i⟩, hx, h⟩ := bind_val.mp h
  cases h
  rw [listMut_val hl]
  exact ⟨i, hx, Eq.refl _⟩

theorem lastSet_cons (s : Str) (l : List Str) (old : Opt Str) : lastSet (s :: l) old = lastSet l (.custom s) := by
  unfold lastSet
  cases l with
  | nil => exact Eq.refl _
  | cons a l =>
    rw [List.getLast?_cons_cons]
    cases h : (a :: l).getLast? with
    | some x => exact Eq.refl _
    | none => simp at h

/-! ### What calls do -/

/-- C37: any sequence of calls on a person: the lists are extended at their ends by exactly what was passed, in order;
the single names are the ones set last; nothing in the model is lost. -/
theorem person_calls (cs : List PersonCall) : ∀ (m m' : DataMap) (p p' : Person), m.Sorted → p.calls m cs = .val (m', p') →
    m'.Sorted ∧ Keeps m m' ∧
    elems p'.middleNames = elems p.middleNames ++ cs.filterMap PersonCall.middle ∧
    elems p'.suffixTitles = elems p.suffixTitles ++ cs.filterMap PersonCall.suffix ∧
    elems p'.prefixTitles = elems p.prefixTitles ++ cs.filterMap PersonCall.pre ∧
    (∃ ids, elems p'.roles = elems p.roles ++ ids ∧ AllGet m m' (cs.filterMap PersonCall.roleArg) ids) ∧
    (∃ ids, elems p'.addresses = elems p.addresses ++ ids ∧ AllGet m m' (cs.filterMap PersonCall.addressArg) ids) ∧
    p'.id = lastSet (cs.filterMap PersonCall.setId) p.id ∧
    p'.familyName = lastSet (cs.filterMap PersonCall.setFamily) p.familyName ∧
    p'.givenName = lastSet (cs.filterMap PersonCall.setGiven) p.givenName := by
  induction cs with
  | nil =>
    intro m m' p p' hm h
    cases h
    exact ⟨hm, .rfl, by simp, by simp, by simp, ⟨[], by simp, .nil⟩, ⟨[], by simp, .nil⟩, Eq.refl _, Eq.refl _, Eq.refl _⟩
  | cons c cs ih =>
    intro m m' p p' hm h
    obtain ⟨⟨m1, p1⟩, hc, h⟩ := bind_val.mp h
    cases c with
    | id s =>
      cases hc
      obtain ⟨a1, a2, a3, a4, a5, a6, a7, a8, a9, a10⟩ := ih _ _ _ _ hm h
      exact ⟨a1, a2, a3, a4, a5, a6, a7, a8.trans (lastSet_cons s _ _).symm, a9, a10⟩
    | familyName s =>
      cases hc
      obtain ⟨a1, a2, a3, a4, a5, a6, a7, a8, a9, a10⟩ := ih _ _ _ _ hm h
      exact ⟨a1, a2, a3, a4, a5, a6, a7, a8, a9.trans (lastSet_cons s _ _).symm, a10⟩
    | givenName s =>
      cases hc
      obtain ⟨a1, a2, a3, a4, a5, a6, a7, a8, a9, a10⟩ := ih _ _ _ _ hm h
      exact ⟨a1, a2, a3, a4, a5, a6, a7, a8, a9, a10.trans (lastSet_cons s _ _).symm⟩
    | middleName s =>
      obtain ⟨o, ho, hc⟩ := bind_val.mp hc
      cases hc
      obtain ⟨a1, a2, a3, a4, a5, a6, a7, a8, a9, a10⟩ := ih _ _ _ _ hm h
      refine ⟨a1, a2, ?_, a4, a5, a6, a7, a8, a9, a10⟩
      rw [a3, pushText_val ho, List.append_assoc]
      exact Eq.refl _
    | suffixTitle s =>
      obtain ⟨o, ho, hc⟩ := bind_val.mp hc
      cases hc
      obtain ⟨a1, a2, a3, a4, a5, a6, a7, a8, a9, a10⟩ := ih _ _ _ _ hm h
      refine ⟨a1, a2, a3, ?_, a5, a6, a7, a8, a9, a10⟩
      rw [a4, pushText_val ho, List.append_assoc]
      exact Eq.refl _
    | prefixTitle s =>
      obtain ⟨o, ho, hc⟩ := bind_val.mp hc
      cases hc
      obtain ⟨a1, a2, a3, a4, a5, a6, a7, a8, a9, a10⟩ := ih _ _ _ _ hm h
      refine ⟨a1, a2, a3, a4, ?_, a6, a7, a8, a9, a10⟩
      rw [a5, pushText_val ho, List.append_assoc]
      exact Eq.refl _
    | role r =>
      obtain ⟨⟨m2, o⟩, ho, hc⟩ := bind_val.mp hc
      cases hc
      obtain ⟨i, hi, ho⟩ := pushNew_val ho
      obtain ⟨b1, b2, b3⟩ := orInsert_val hm hi
      obtain ⟨a1, a2, a3, a4, a5, ⟨ids, a6, a6'⟩, ⟨ids', a7, a7'⟩, a8, a9, a10⟩ := ih _ _ _ _ b1 h
      refine ⟨a1, b2.trans a2, a3, a4, a5, ⟨i :: ids, ?_, .cons (b3.later a2) (a6'.earlier b2)⟩, ⟨ids', a7, a7'.earlier b2⟩, a8, a9, a10⟩
      rw [a6, ho, List.append_assoc]
      exact Eq.refl _
    | address a =>
      obtain ⟨⟨m2, o⟩, ho, hc⟩ := bind_val.mp hc
      cases hc
      obtain ⟨i, hi, ho⟩ := pushNew_val ho
      obtain ⟨b1, b2, b3⟩ := address_val hm hi
      obtain ⟨a1, a2, a3, a4, a5, ⟨ids, a6, a6'⟩, ⟨ids', a7, a7'⟩, a8, a9, a10⟩ := ih _ _ _ _ b1 h
      refine ⟨a1, b2.trans a2, a3, a4, a5, ⟨ids, a6, a6'.earlier b2⟩, ⟨i :: ids', ?_, .cons (b3.later a2) (a7'.earlier b2)⟩, a8, a9, a10⟩
      rw [a7, ho, List.append_assoc]
      exact Eq.refl _

/-- C37: the same for an organisation -/
theorem organization_calls (cs : List OrganizationCall) : ∀ (m m' : DataMap) (o o' : Organization), m.Sorted →
    o.calls m cs = .val (m', o') →
    m'.Sorted ∧ Keeps m m' ∧
    (∃ ids, elems o'.roles = elems o.roles ++ ids ∧
      AllGet m m' (cs.filterMap fun | .role r => some (ofIdOr .ActorRole r) | .address _ => none) ids) ∧
    (∃ ids, elems o'.addresses = elems o.addresses ++ ids ∧
      AllGet m m' (cs.filterMap fun | .role _ => none | .address a => some a.arg) ids) ∧
    o'.id = o.id ∧ o'.name = o.name ∧ o'.description = o.description := by
  induction cs with
  | nil =>
    intro m m' p p' hm h
    cases h
    exact ⟨hm, .rfl, ⟨[], by simp, .nil⟩, ⟨[], by simp, .nil⟩, Eq.refl _, Eq.refl _, Eq.refl _⟩
  | cons c cs ih =>
    intro m m' p p' hm h
    obtain ⟨⟨m1, p1⟩, hc, h⟩ := bind_val.mp h
    cases c with
    | role r =>
      obtain ⟨⟨m2, o⟩, ho, hc⟩ := bind_val.mp hc
      cases hc
      obtain ⟨i, hi, ho⟩ := pushNew_val ho
      obtain ⟨b1, b2, b3⟩ := orInsert_val hm hi
      obtain ⟨a1, a2, ⟨ids, a6, a6'⟩, ⟨ids', a7, a7'⟩, a8⟩ := ih _ _ _ _ b1 h
      refine ⟨a1, b2.trans a2, ⟨i :: ids, ?_, .cons (b3.later a2) (a6'.earlier b2)⟩, ⟨ids', a7, a7'.earlier b2⟩, a8⟩
      rw [a6, ho, List.append_assoc]
      exact Eq.refl _
    | address a =>
      obtain ⟨⟨m2, o⟩, ho, hc⟩ := bind_val.mp hc
      cases hc
      obtain ⟨i, hi, ho⟩ := pushNew_val ho
      obtain ⟨b1, b2, b3⟩ := address_val hm hi
      obtain ⟨a1, a2, ⟨ids, a6, a6'⟩, ⟨ids', a7, a7'⟩, a8⟩ := ih _ _ _ _ b1 h
      refine ⟨a1, b2.trans a2, ⟨ids, a6, a6'.earlier b2⟩, ⟨i :: ids', ?_, .cons (b3.later a2) (a7'.earlier b2)⟩, a8⟩
      rw [a7, ho, List.append_assoc]
      exact Eq.refl _

/-- C37: and for a person in an organisation -/
theorem person_and_organization_roles (rs : List (IdOr RoleV)) : ∀ (m m' : DataMap) (p p' : PersonAndOrganization), m.Sorted →
    p.addRoles m rs = .val (m', p') →
    m'.Sorted ∧ Keeps m m' ∧
    (∃ ids, elems p'.roles = elems p.roles ++ ids ∧ AllGet m m' (rs.map (ofIdOr .ActorRole)) ids) ∧
    p'.person = p.person ∧ p'.organization = p.organization := by
  induction rs with
  | nil =>
    intro m m' p p' hm h
    cases h
    exact ⟨hm, .rfl, ⟨[], by simp, .nil⟩, Eq.refl _, Eq.refl _⟩
  | cons c cs ih =>
    intro m m' p p' hm h
    obtain ⟨⟨m1, p1⟩, hc, h⟩ := bind_val.mp h
    obtain ⟨⟨m2, o⟩, ho, hc⟩ := bind_val.mp hc
    cases hc
    obtain ⟨i, hi, ho⟩ := pushNew_val ho
    obtain ⟨b1, b2, b3⟩ := orInsert_val hm hi
    obtain ⟨a1, a2, ⟨ids, a6, a6'⟩, a8⟩ := ih _ _ _ _ b1 h
    refine ⟨a1, b2.trans a2, ⟨i :: ids, ?_, .cons (b3.later a2) (a6'.earlier b2)⟩, a8⟩
    rw [a6, ho, List.append_assoc]
    exact Eq.refl _

/-! ### When calls panic -/

/-- ids for `n` more entities -/
def Room (m : DataMap) (n : Nat) : Prop := n < 2 ^ 64 ∧ ∀ j, m.lookup j ≠ none → j + n < 2 ^ 64

/-- the list the call would extend is `*` -/
def PersonCall.Starred (p : Person) : PersonCall → Prop
  | .middleName _ => p.middleNames = .inherited
  | .suffixTitle _ => p.suffixTitles = .inherited
  | .prefixTitle _ => p.prefixTitles = .inherited
  | .role _ => p.roles = .inherited
  | .address _ => p.addresses = .inherited
  | _ => False

def OrganizationCall.Starred (o : Organization) : OrganizationCall → Prop
  | .role _ => o.roles = .inherited
  | .address _ => o.addresses = .inherited

theorem orInsert_total {m : DataMap} (hm : m.Sorted) {k : Kind} (a : IdOr (row k).Val) {n : Nat} (hr : Room m (n + 1)) :
    ∃ m' i, orInsert m k a = .val (m', i) ∧ Room m' n := by
  have hm' : Room m n := ⟨by have := hr.1; omega, fun j hj => by have := hr.2 j hj; omega⟩
  cases a with
  | id i => exact ⟨m, i, Eq.refl _, hm'⟩
  | custom v =>
    rcases insertNew_cases hm (.known k v) with ⟨i, h1, h2, _⟩ | ⟨_, j, hj, hl⟩
    · refine ⟨m.put i (.known k v), i, h1, hm'.1, fun j hj => ?_⟩
      rw [lookup_put] at hj
      by_cases hji : j = i
      · subst hji
        rcases h2.2 with ⟨_, rfl⟩ | ⟨j', hj', rfl⟩
        · have := hr.1; omega
        · have := hr.2 j' hj'; omega
      · rw [if_neg hji] at hj
        exact hm'.2 j hj
    · have := hr.2 j hj
      omega

theorem address_total {m : DataMap} (hm : m.Sorted) (a : AddressArg) {n : Nat} (hr : Room m (n + 1)) :
    ∃ m' i, a.orInsert m = .val (m', i) ∧ Room m' n := by
  cases a with
  | telecom a => exact orInsert_total hm a hr
  | postal a => exact orInsert_total hm a hr

theorem listMut_panic {α : Type} {o : Opt (List α)} : o = .inherited ∨ listMut o = .val (elems o) := by
  cases o with
  | inherited => exact .inl (Eq.refl _)
  | omitted => exact .inr (Eq.refl _)
  | custom l => exact .inr (Eq.refl _)

theorem pushText_total (o : Opt (List Str)) (s : Str) :
    (o = .inherited ∧ pushText o s = .panic) ∨ (o ≠ .inherited ∧ ∃ l, pushText o s = .val (.custom l)) := by
  cases o with
  | inherited => exact .inl ⟨Eq.refl _, Eq.refl _⟩
  | omitted => exact .inr ⟨(fun h => by cases h), _, Eq.refl _⟩
  | custom l => exact .inr ⟨(fun h => by cases h), _, Eq.refl _⟩

theorem pushNew_total (o : Opt (List Nat)) {x : Ret (DataMap × Nat)} {m' : DataMap} {i : Nat} (hx : x = .val (m', i)) :
    (o = .inherited ∧ pushNew o x = .panic) ∨ (o ≠ .inherited ∧ ∃ l, pushNew o x = .val (m', .custom l)) := by
  subst hx
  cases o with
  | inherited => exact .inl ⟨Eq.refl _, Eq.refl _⟩
  | omitted => exact .inr ⟨(fun h => by cases h), _, Eq.refl _⟩
  | custom l => exact .inr ⟨(fun h => by cases h), _, Eq.refl _⟩

/-- one call: either it panics on `*`, or it works and no attribute has turned to `*` or away from it -/
theorem person_call_total {m : DataMap} (hm : m.Sorted) {n : Nat} (hr : Room m (n + 1)) (p : Person) (c : PersonCall) :
    (c.Starred p ∧ p.call m c = .panic) ∨
    (¬ c.Starred p ∧ ∃ m' p', p.call m c = .val (m', p') ∧ m'.Sorted ∧ Room m' n ∧ ∀ c' : PersonCall, c'.Starred p' ↔ c'.Starred p) := by
  have hm' : Room m n := ⟨by have := hr.1; omega, fun j hj => by have := hr.2 j hj; omega⟩
  cases c with
  | id s => exact .inr ⟨fun h => h, _, _, Eq.refl _, hm, hm', fun c' => by cases c' <;> exact Iff.rfl⟩
  | familyName s => exact .inr ⟨fun h => h, _, _, Eq.refl _, hm, hm', fun c' => by cases c' <;> exact Iff.rfl⟩
  | givenName s => exact .inr ⟨fun h => h, _, _, Eq.refl _, hm, hm', fun c' => by cases c' <;> exact Iff.rfl⟩
  | middleName s =>
    rcases pushText_total p.middleNames s with ⟨h, h'⟩ | ⟨h, l, h'⟩
    · exact .inl ⟨h, by rw [Person.call, h']; exact Eq.refl _⟩
    · refine .inr ⟨h, m, { p with middleNames := .custom l }, by rw [Person.call, h']; exact Eq.refl _, hm, hm', fun c' => ?_⟩
      cases c' <;> first | exact Iff.rfl | exact ⟨(fun h' => by cases h'), fun hc => absurd hc h⟩
  | suffixTitle s =>
    rcases pushText_total p.suffixTitles s with ⟨h, h'⟩ | ⟨h, l, h'⟩
    · exact .inl ⟨h, by rw [Person.call, h']; exact Eq.refl _⟩
    · refine .inr ⟨h, m, { p with suffixTitles := .custom l }, by rw [Person.call, h']; exact Eq.refl _, hm, hm', fun c' => ?_⟩
      cases c' <;> first | exact Iff.rfl | exact ⟨(fun h' => by cases h'), fun hc => absurd hc h⟩
  | prefixTitle s =>
    rcases pushText_total p.prefixTitles s with ⟨h, h'⟩ | ⟨h, l, h'⟩
    · exact .inl ⟨h, by rw [Person.call, h']; exact Eq.refl _⟩
    · refine .inr ⟨h, m, { p with prefixTitles := .custom l }, by rw [Person.call, h']; exact Eq.refl _, hm, hm', fun c' => ?_⟩
      cases c' <;> first | exact Iff.rfl | exact ⟨(fun h' => by cases h'), fun hc => absurd hc h⟩
  | role r =>
    obtain ⟨m', i, hi, hr'⟩ := orInsert_total hm r hr
    rcases pushNew_total p.roles hi with ⟨h, h'⟩ | ⟨h, l, h'⟩
    · exact .inl ⟨h, by rw [Person.call, h']; exact Eq.refl _⟩
    · refine .inr ⟨h, m', { p with roles := .custom l }, by rw [Person.call, h']; exact Eq.refl _, (orInsert_val hm hi).1, hr', fun c' => ?_⟩
      cases c' <;> first | exact Iff.rfl | exact ⟨(fun h' => by cases h'), fun hc => absurd hc h⟩
  | address a =>
    obtain ⟨m', i, hi, hr'⟩ := address_total hm a hr
    rcases pushNew_total p.addresses hi with ⟨h, h'⟩ | ⟨h, l, h'⟩
    · exact .inl ⟨h, by rw [Person.call, h']; exact Eq.refl _⟩
    · refine .inr ⟨h, m', { p with addresses := .custom l }, by rw [Person.call, h']; exact Eq.refl _, (address_val hm hi).1, hr', fun c' => ?_⟩
      cases c' <;> first | exact Iff.rfl | exact ⟨(fun h' => by cases h'), fun hc => absurd hc h⟩

/-- C37: while ids last, calls panic exactly if one of them would extend a list that is `*`. -/
theorem person_calls_panic (cs : List PersonCall) : ∀ (m : DataMap) (p : Person), m.Sorted → Room m cs.length →
    (p.calls m cs = .panic ↔ ∃ c ∈ cs, c.Starred p) := by
  induction cs with
  | nil => intro m p _ _; exact ⟨(fun h => by cases h), fun ⟨_, h, _⟩ => by cases h⟩
  | cons c cs ih =>
    intro m p hm hr
    rcases person_call_total hm hr p c with ⟨h, h'⟩ | ⟨h, m', p', h', hs, hr', hst⟩
    · rw [Person.calls, h']
      exact ⟨fun _ => ⟨c, List.mem_cons_self, h⟩, fun _ => Eq.refl _⟩
    · rw [Person.calls, h']
      refine (ih m' p' hs hr').trans ?_
      simp only [hst]
      constructor
      · rintro ⟨c', hc, h⟩
        exact ⟨c', List.mem_cons_of_mem _ hc, h⟩
      · rintro ⟨c', hc, h''⟩
        rcases List.mem_cons.mp hc with rfl | hc
        · exact absurd h'' h
        · exact ⟨c', hc, h''⟩

theorem organization_call_total {m : DataMap} (hm : m.Sorted) {n : Nat} (hr : Room m (n + 1)) (o : Organization) (c : OrganizationCall) :
    (c.Starred o ∧ o.call m c = .panic) ∨
    (¬ c.Starred o ∧ ∃ m' o', o.call m c = .val (m', o') ∧ m'.Sorted ∧ Room m' n ∧ ∀ c' : OrganizationCall, c'.Starred o' ↔ c'.Starred o) := by
  cases c with
  | role r =>
    obtain ⟨m', i, hi, hr'⟩ := orInsert_total hm r hr
    rcases pushNew_total o.roles hi with ⟨h, h'⟩ | ⟨h, l, h'⟩
    · exact .inl ⟨h, by rw [Organization.call, h']; exact Eq.refl _⟩
    · refine .inr ⟨h, m', { o with roles := .custom l }, by rw [Organization.call, h']; exact Eq.refl _, (orInsert_val hm hi).1, hr', fun c' => ?_⟩
      cases c' <;> first | exact Iff.rfl | exact ⟨(fun h' => by cases h'), fun hc => absurd hc h⟩
  | address a =>
    obtain ⟨m', i, hi, hr'⟩ := address_total hm a hr
    rcases pushNew_total o.addresses hi with ⟨h, h'⟩ | ⟨h, l, h'⟩
    · exact .inl ⟨h, by rw [Organization.call, h']; exact Eq.refl _⟩
    · refine .inr ⟨h, m', { o with addresses := .custom l }, by rw [Organization.call, h']; exact Eq.refl _, (address_val hm hi).1, hr', fun c' => ?_⟩
      cases c' <;> first | exact Iff.rfl | exact ⟨(fun h' => by cases h'), fun hc => absurd hc h⟩

/-- C37: the same for organisations -/
theorem organization_calls_panic (cs : List OrganizationCall) : ∀ (m : DataMap) (o : Organization), m.Sorted → Room m cs.length →
    (o.calls m cs = .panic ↔ ∃ c ∈ cs, c.Starred o) := by
  induction cs with
  | nil => intro m p _ _; exact ⟨(fun h => by cases h), fun ⟨_, h, _⟩ => by cases h⟩
  | cons c cs ih =>
    intro m p hm hr
    rcases organization_call_total hm hr p c with ⟨h, h'⟩ | ⟨h, m', p', h', hs, hr', hst⟩
    · rw [Organization.calls, h']
      exact ⟨fun _ => ⟨c, List.mem_cons_self, h⟩, fun _ => Eq.refl _⟩
    · rw [Organization.calls, h']
      refine (ih m' p' hs hr').trans ?_
      simp only [hst]
      constructor
      · rintro ⟨c', hc, h⟩
        exact ⟨c', List.mem_cons_of_mem _ hc, h⟩
      · rintro ⟨c', hc, h''⟩
        rcases List.mem_cons.mp hc with rfl | hc
        · exact absurd h'' h
        · exact ⟨c', hc, h''⟩

/-- C37: and for persons in organisations -/
theorem person_and_organization_panic (rs : List (IdOr RoleV)) : ∀ (m : DataMap) (p : PersonAndOrganization), m.Sorted →
    Room m rs.length → (p.addRoles m rs = .panic ↔ p.roles = .inherited ∧ rs ≠ []) := by
  induction rs with
  | nil => intro m p _ _; exact ⟨(fun h => by cases h), fun ⟨_, h⟩ => absurd (Eq.refl _) h⟩
  | cons r rs ih =>
    intro m p hm hr
    obtain ⟨m', i, hi, hr'⟩ := orInsert_total hm r hr
    rcases pushNew_total p.roles hi with ⟨h, h'⟩ | ⟨h, l, h'⟩
    · rw [PersonAndOrganization.addRoles, PersonAndOrganization.addRole, h']
      exact ⟨fun _ => ⟨h, fun hc => by cases hc⟩, fun _ => Eq.refl _⟩
    · rw [PersonAndOrganization.addRoles, PersonAndOrganization.addRole, h']
      refine (ih m' { p with roles := .custom l } (orInsert_val hm hi).1 hr').trans ?_
      exact ⟨fun hc => (by cases hc.1), fun hc => absurd hc.1 h⟩

/-! ### Examples -/

/-- two roles, one given by id, one new -/
example : Person.empty.calls [(3, .dummy (cs! "X"))] [.familyName (cs! "a"), .role (.id 7), .middleName (cs! "b"), .familyName (cs! "c"),
      .role (.custom ((⟨0, by decide⟩, .omitted, .omitted) : Fin eRole.length × Opt Str × Opt Str)), .middleName (cs! "d")] =
    .val ([(3, .dummy (cs! "X")), (4, .known .ActorRole ((⟨0, by decide⟩, .omitted, .omitted) : Fin eRole.length × Opt Str × Opt Str))],
      { Person.empty with familyName := .custom (cs! "c"), middleNames := .custom [cs! "b", cs! "d"], roles := .custom [7, 4] }) := by
  decide +kernel

example : Room [(3, .dummy (cs! "X"))] 6 := ⟨by omega, fun j hj => by
  have : j = 3 := by
    refine Classical.byContradiction fun h => hj ?_
    simp [DataMap.lookup, h]
  omega⟩

/-- C37: a file that loads, with a person for whom adding a middle name panics -/
theorem star_panics : ∃ s f v, fromStr s = .ok f ∧ f.data.lookup 1 = some (.known .Person v) ∧
    ∀ n, (Person.of v).call f.data (.middleName n) = .panic := by
  have h : loads (miniFile (cs! "#1=IFCPERSON($,$,$,*,$,$,$,$);")) (fun m => match m.lookup 1 with
    | some (.known .Person v) => decide ((Person.of v).middleNames = .inherited)
    | _ => false) = true := by decide +kernel
  obtain ⟨f, h1, h2⟩ := loads_spec h
  split at h2
  · rename_i v hv
    refine ⟨_, f, v, h1, hv, fun n => ?_⟩
    rw [Person.call, of_decide_eq_true h2]
    exact Eq.refl _
  · cases h2

end Verif.Persons
