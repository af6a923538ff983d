import Verif.Proofs.Saved
import Verif.Props.Persons
/-
Helper lemmas: what calls on persons and organisations put into them.
-/
set_option linter.unusedSimpArgs false

namespace Verif.Setters
open Verif Schema DataMap
open Verif.Persons (ActorCall Person Organization PersonAndOrganization PersonCall OrganizationCall elems RoleV AddressArg
  bind_val pushText_val pushNew_val)

/-! ### References and texts of persons and organisations -/

theorem needs_ostr (o : Opt Str) : needs (.opt .str) o = [] := by cases o <;> rfl
theorem needs_lstr (o : Opt (List Str)) : needs (.opt (.list .str)) o = [] := by
  cases o with
  | custom l => exact List.flatMap_eq_nil_iff.mpr fun _ _ => rfl
  | _ => rfl
theorem needs_refs_list (c : Option (List Kind)) (o : Opt (List Nat)) :
    needs (.opt (.list (.ref c))) o = (elems o).map (c, ·) := by
  cases o with
  | custom l => exact List.map_eq_flatMap.symm
  | _ => rfl

def omarks (o : Opt Str) : List Mark := marks (.opt .str) o
theorem marks_lstr (o : Opt (List Str)) : marks (.opt (.list .str)) o = (elems o).map .str := by
  cases o with
  | custom l => exact List.map_eq_flatMap.symm
  | _ => rfl
theorem marks_refs_list (c : Option (List Kind)) (o : Opt (List Nat)) :
    marks (.opt (.list (.ref c))) o = (elems o).map .ref := by
  cases o with
  | custom l => exact List.map_eq_flatMap.symm
  | _ => rfl

abbrev roleNeed : Option (List Kind) := some [.ActorRole]
abbrev addressNeed : Option (List Kind) := some [.TelecomAddress, .PostalAddress]

theorem person_needs (p : Person) : needs (row .Person) p.val =
    (elems p.roles).map (roleNeed, ·) ++ (elems p.addresses).map (addressNeed, ·) := by
  rw [← needs_refs_list, ← needs_refs_list]
  change needs (.opt .str) p.id ++ (needs (.opt .str) p.familyName ++ (needs (.opt .str) p.givenName ++
    (needs (.opt (.list .str)) p.middleNames ++ (needs (.opt (.list .str)) p.prefixTitles ++
    (needs (.opt (.list .str)) p.suffixTitles ++ _))))) = _
  rw [needs_ostr, needs_ostr, needs_ostr, needs_lstr, needs_lstr, needs_lstr]
  rfl

theorem person_marks (p : Person) : marks (row .Person) p.val =
    omarks p.id ++ (omarks p.familyName ++ (omarks p.givenName ++ ((elems p.middleNames).map .str ++
    ((elems p.prefixTitles).map .str ++ ((elems p.suffixTitles).map .str ++ ((elems p.roles).map .ref ++
    (elems p.addresses).map .ref)))))) := by
  rw [← marks_refs_list roleNeed, ← marks_refs_list addressNeed, ← marks_lstr, ← marks_lstr, ← marks_lstr]
  rfl

theorem organization_needs (o : Organization) : needs (row .Organization) o.val =
    (elems o.roles).map (roleNeed, ·) ++ (elems o.addresses).map (addressNeed, ·) := by
  rw [← needs_refs_list, ← needs_refs_list]
  change needs (.opt .str) o.id ++ ([] ++ (needs (.opt .str) o.description ++ _)) = _
  rw [needs_ostr, needs_ostr]
  rfl

theorem organization_marks (o : Organization) : marks (row .Organization) o.val =
    omarks o.id ++ ([.str o.name] ++ (omarks o.description ++ ((elems o.roles).map .ref ++ (elems o.addresses).map .ref))) := by
  rw [← marks_refs_list roleNeed, ← marks_refs_list addressNeed]
  rfl

theorem both_needs (p : PersonAndOrganization) : needs (row .PersonAndOrganization) p.val =
    (some [Kind.Person], p.person) :: (some [Kind.Organization], p.organization) :: (elems p.roles).map (roleNeed, ·) := by
  rw [← needs_refs_list]
  rfl

theorem both_marks (p : PersonAndOrganization) : marks (row .PersonAndOrganization) p.val =
    .ref p.person :: .ref p.organization :: (elems p.roles).map .ref := by
  rw [← marks_refs_list roleNeed]
  rfl

/-! ### What a call puts in -/

/-- the argument `y`, once taken, is put into `v` to give `v'` -/
structure Puts (k : Kind) (v : (row k).Val) (a : ArgTy) (y : a.fld.Val) (v' : (row k).Val) : Prop where
  needs : ∃ ks : List Kind, (∀ p ∈ needs (row k) v', p ∈ Setters.needs (row k) v ∨ p ∈ (a.fld.refs y).map (some ks, ·)) ∧
    ∀ j, a.kind = some j → j ∈ ks
  marks : ∀ b ∈ marks (row k) v', b ∈ Setters.marks (row k) v ∨ b ∈ Setters.marks a.fld y
  kept : ∀ b ∈ Setters.marks a.fld y, b ∈ Setters.marks (row k) v'

/-- text put in place of an attribute or at the end of a list -/
theorem puts_text {k : Kind} {v v' : (row k).Val} {s : Str} (h1 : needs (row k) v' = needs (row k) v)
    (h2 : ∀ b ∈ marks (row k) v', b ∈ marks (row k) v ∨ b = .str s) (h3 : .str s ∈ marks (row k) v') :
    Puts k v (.plain .str) s v' :=
  ⟨⟨[], fun x hx => .inl (h1 ▸ hx), fun _ hj => by cases hj⟩, fun b hb => (h2 b hb).imp id fun h => List.mem_singleton.mpr h,
    fun b hb => by rw [List.mem_singleton.mp hb]; exact h3⟩

/-- an id put at the end of a list -/
theorem puts_id {k : Kind} {v v' : (row k).Val} {j : Kind} {i : Nat} {ks : List Kind} (hj : j ∈ ks)
    (h1 : ∀ p ∈ needs (row k) v', p ∈ needs (row k) v ∨ p = (some ks, i))
    (h2 : ∀ b ∈ marks (row k) v', b ∈ marks (row k) v ∨ b = .ref i) (h3 : .ref i ∈ marks (row k) v') :
    Puts k v (.entity j) i v' :=
  ⟨⟨ks, fun x hx => (h1 x hx).imp id fun h => List.mem_singleton.mpr h, fun j' hj' => by cases hj'; exact hj⟩,
    fun b hb => (h2 b hb).imp id fun h => List.mem_singleton.mpr h,
    fun b hb => by rw [List.mem_singleton.mp hb]; exact h3⟩

theorem omarks_custom (s : Str) : omarks (.custom s) = [.str s] := rfl

theorem person_puts {m m' : DataMap} {v : (row .Person).Val} {c : PersonCall} {p : Person}
    (h : (Person.of v).call m c = .val (m', p)) :
    ∃ y, (actorArg (.person c)).1.take m (actorArg (.person c)).2 = .val (m', y) ∧ Puts .Person v _ y p.val := by
  obtain ⟨q, rfl⟩ : ∃ q : Person, v = q.val := ⟨Person.of v, rfl⟩
  change q.call m c = .val (m', p) at h
  cases c with
  | id s =>
    cases h
    refine ⟨s, rfl, puts_text (by rw [person_needs, person_needs]) ?_ ?_⟩ <;>
    · simp only [person_marks, omarks_custom, List.mem_append, List.mem_singleton]
      grind
  | familyName s =>
    cases h
    refine ⟨s, rfl, puts_text (by rw [person_needs, person_needs]) ?_ ?_⟩ <;>
    · simp only [person_marks, omarks_custom, List.mem_append, List.mem_singleton]
      grind
  | givenName s =>
    cases h
    refine ⟨s, rfl, puts_text (by rw [person_needs, person_needs]) ?_ ?_⟩ <;>
    · simp only [person_marks, omarks_custom, List.mem_append, List.mem_singleton]
      grind
  | middleName s =>
    obtain ⟨o, ho, h⟩ := bind_val.mp h
    cases h
    have ho := pushText_val ho
    refine ⟨s, rfl, puts_text (by rw [person_needs, person_needs]) ?_ ?_⟩ <;>
    · simp only [person_marks, ho, List.map_append, List.map_cons, List.map_nil, List.mem_append, List.mem_singleton]
      grind
  | suffixTitle s =>
    obtain ⟨o, ho, h⟩ := bind_val.mp h
    cases h
    have ho := pushText_val ho
    refine ⟨s, rfl, puts_text (by rw [person_needs, person_needs]) ?_ ?_⟩ <;>
    · simp only [person_marks, ho, List.map_append, List.map_cons, List.map_nil, List.mem_append, List.mem_singleton]
      grind
  | prefixTitle s =>
    obtain ⟨o, ho, h⟩ := bind_val.mp h
    cases h
    have ho := pushText_val ho
    refine ⟨s, rfl, puts_text (by rw [person_needs, person_needs]) ?_ ?_⟩ <;>
    · simp only [person_marks, ho, List.map_append, List.map_cons, List.map_nil, List.mem_append, List.mem_singleton]
      grind
  | role r =>
    obtain ⟨⟨m2, o⟩, ho, h⟩ := bind_val.mp h
    cases h
    obtain ⟨i, hi, ho⟩ := pushNew_val ho
    refine ⟨i, hi, puts_id (ks := [.ActorRole]) (by decide) ?_ ?_ ?_⟩ <;>
    · simp only [person_needs, person_marks, ho, List.map_append, List.map_cons, List.map_nil, List.mem_append,
        List.mem_singleton]
      grind
  | address a =>
    obtain ⟨⟨m2, o⟩, ho, h⟩ := bind_val.mp h
    cases h
    obtain ⟨i, hi, ho⟩ := pushNew_val ho
    cases a <;> refine ⟨i, hi, puts_id (ks := [.TelecomAddress, .PostalAddress]) (by decide) ?_ ?_ ?_⟩ <;>
    · simp only [person_needs, person_marks, ho, List.map_append, List.map_cons, List.map_nil, List.mem_append,
        List.mem_singleton]
      grind

theorem organization_puts {m m' : DataMap} {v : (row .Organization).Val} {c : OrganizationCall} {p : Organization}
    (h : (Organization.of v).call m c = .val (m', p)) :
    ∃ y, (actorArg (.organization c)).1.take m (actorArg (.organization c)).2 = .val (m', y) ∧
      Puts .Organization v _ y p.val := by
  obtain ⟨q, rfl⟩ : ∃ q : Organization, v = q.val := ⟨Organization.of v, rfl⟩
  change q.call m c = .val (m', p) at h
  cases c with
  | role r =>
    obtain ⟨⟨m2, o⟩, ho, h⟩ := bind_val.mp h
    cases h
    obtain ⟨i, hi, ho⟩ := pushNew_val ho
    refine ⟨i, hi, puts_id (ks := [.ActorRole]) (by decide) ?_ ?_ ?_⟩ <;>
    · simp only [organization_needs, organization_marks, ho, List.map_append, List.map_cons, List.map_nil,
        List.mem_append, List.mem_singleton]
      grind
  | address a =>
    obtain ⟨⟨m2, o⟩, ho, h⟩ := bind_val.mp h
    cases h
    obtain ⟨i, hi, ho⟩ := pushNew_val ho
    cases a <;> refine ⟨i, hi, puts_id (ks := [.TelecomAddress, .PostalAddress]) (by decide) ?_ ?_ ?_⟩ <;>
    · simp only [organization_needs, organization_marks, ho, List.map_append, List.map_cons, List.map_nil,
        List.mem_append, List.mem_singleton]
      grind

theorem both_puts {m m' : DataMap} {v : (row .PersonAndOrganization).Val} {r : IdOr RoleV} {p : PersonAndOrganization}
    (h : (PersonAndOrganization.of v).addRole m r = .val (m', p)) :
    ∃ y, (ArgTy.entity .ActorRole).take m r = .val (m', y) ∧ Puts .PersonAndOrganization v (.entity .ActorRole) y p.val := by
  obtain ⟨q, rfl⟩ : ∃ q : PersonAndOrganization, v = q.val := ⟨PersonAndOrganization.of v, rfl⟩
  change q.addRole m r = .val (m', p) at h
  obtain ⟨⟨m2, o⟩, ho, h⟩ := bind_val.mp h
  cases h
  obtain ⟨i, hi, ho⟩ := pushNew_val ho
  refine ⟨i, hi, puts_id (ks := [.ActorRole]) (by decide) ?_ ?_ ?_⟩ <;>
  · simp only [both_needs, both_marks, ho, List.map_append, List.map_cons, List.map_nil, List.mem_append,
      List.mem_singleton, List.mem_cons]
    grind

theorem actor_puts {m m' : DataMap} {c : ActorCall} {e e' : Entity} (h : c.on m e = .val (m', e')) :
    ∃ k v v' y, e = .known k v ∧ e' = .known k v' ∧ (actorArg c).1.take m (actorArg c).2 = .val (m', y) ∧
      Puts k v (actorArg c).1 y v' := by
  unfold ActorCall.on at h
  split at h
  · obtain ⟨⟨m1, p⟩, hp, h⟩ := bind_val.mp h
    cases h
    obtain ⟨y, h1, h2⟩ := person_puts hp
    exact ⟨_, _, _, y, rfl, rfl, h1, h2⟩
  · obtain ⟨⟨m1, p⟩, hp, h⟩ := bind_val.mp h
    cases h
    obtain ⟨y, h1, h2⟩ := organization_puts hp
    exact ⟨_, _, _, y, rfl, rfl, h1, h2⟩
  · obtain ⟨⟨m1, p⟩, hp, h⟩ := bind_val.mp h
    cases h
    obtain ⟨y, h1, h2⟩ := both_puts hp
    exact ⟨_, _, _, y, rfl, rfl, h1, h2⟩
  · cases h

end Verif.Setters
