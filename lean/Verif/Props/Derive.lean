import Verif.Proofs.Derive
import Verif.Proofs.DeriveFields
/-
C68: the check of a load is the one the derive macro generates from the declarations of the structs.
-/
namespace Verif.Derive
open Verif Verif.Exchange

/-- Which fields get a check: those of one of the twelve types of references, untyped ones only if types are named. -/
theorem field_checked (d : FieldDecl) : d.Checked ↔ ∃ f, fieldType d = .val (some (.normal f)) := by
  obtain ⟨m1, m2, m3⟩ := merge_eq d
  constructor
  · rintro ⟨hi, x, hx, hn⟩
    obtain ⟨t, ht, htx⟩ := checkable_new hx
    refine ⟨⟨d.name, d.typesNamed, t⟩, ?_⟩
    unfold fieldType
    rw [m3 hi]; dsimp only
    rw [ht]; dsimp only
    rw [if_neg]
    rw [Bool.and_eq_true, List.isEmpty_iff, needs_iff, htx]
    exact fun h => hn h.1 h.2
  · rintro ⟨f, h⟩
    by_cases hi : d.IsInherited
    · by_cases ht : d.IsTyped
      · unfold fieldType at h; rw [m1 hi ht] at h; cases h
      · unfold fieldType at h; rw [m2 hi ht] at h; cases h
    · unfold fieldType at h
      rw [m3 hi] at h; dsimp only at h
      cases hd : DataType.new d.ty with
      | panic => rw [hd] at h; cases h
      | val o =>
        rw [hd] at h
        cases o with
        | none => cases h
        | some t =>
          dsimp only at h
          refine ⟨hi, t.target, new_some hd, fun hx hn => ?_⟩
          rw [if_pos (by rw [Bool.and_eq_true, List.isEmpty_iff, needs_iff]; exact ⟨hx, hn⟩)] at h
          cases h

/-- What a check demands: one of all the types named for an untyped reference, the type in brackets for a typed one. -/
theorem field_demand {d : FieldDecl} {f : Field} (h : fieldType d = .val (some (.normal f))) :
    f.var = d.name ∧ f.types = d.typesNamed ∧ Checkable d.ty f.dataType.target := by
  obtain ⟨hi, -⟩ := (field_checked d).mpr ⟨f, h⟩
  unfold fieldType at h
  rw [(merge_eq d).2.2 hi] at h; dsimp only at h
  cases hd : DataType.new d.ty with
  | panic => rw [hd] at h; cases h
  | val o =>
    rw [hd] at h
    cases o with
    | none => cases h
    | some t =>
      dsimp only at h
      split at h
      · cases h
      · cases h; exact ⟨rfl, rfl, new_some hd⟩

/-- What it does on a value: every reference in it, in order, is to be of one of the types allowed. -/
theorem field_run {d : FieldDecl} {f : Field} (h : fieldType d = .val (some (.normal f))) {g : Fld} (hg : Fits d.ty g)
    {l : List Str} (ha : allowed d.typesNamed f.dataType.target = some l) (v : g.Val) :
    f.demands g v = some ((direct g v).map fun i => (i, l)) := by
  obtain ⟨hi, -⟩ := (field_checked d).mpr ⟨f, h⟩
  unfold fieldType at h
  rw [(merge_eq d).2.2 hi] at h; dsimp only at h
  cases hd : DataType.new d.ty with
  | panic => rw [hd] at h; cases h
  | val o =>
    rw [hd] at h
    cases o with
    | none => cases h
    | some t =>
      dsimp only at h
      split at h
      · cases h
      · cases h
        exact new_run _ _ hd hg v ha

/-- Which fields hand the check on to the struct they embed, whatever their type. -/
theorem field_inherited (d : FieldDecl) (n : Str) :
    fieldType d = .val (some (.inherited n)) ↔ d.IsInherited ∧ ¬ d.IsTyped ∧ n = d.name := by
  obtain ⟨m1, m2, m3⟩ := merge_eq d
  by_cases hi : d.IsInherited
  · by_cases ht : d.IsTyped
    · simp [fieldType, m1 hi ht, ht]
    · simp only [fieldType, m2 hi ht, hi, ht]
      simp [eq_comm]
  · simp only [hi, false_and, iff_false]
    unfold fieldType
    rw [m3 hi]; dsimp only
    cases hd : DataType.new d.ty with
    | panic => simp
    | val o =>
      cases o with
      | none => simp
      | some t => dsimp only; split <;> simp

/-- When the macro panics on a field: both attributes on it, or a generic type without its arguments. -/
def FieldDecl.Refused (d : FieldDecl) : Prop := d.IsInherited ∧ d.IsTyped ∨ ¬ d.IsInherited ∧ Bare' d.ty

theorem field_panic (d : FieldDecl) : fieldType d = .panic ↔ d.Refused := by
  obtain ⟨m1, m2, m3⟩ := merge_eq d
  unfold FieldDecl.Refused
  by_cases hi : d.IsInherited
  · by_cases ht : d.IsTyped
    · simp [fieldType, m1 hi ht, ht, hi]
    · simp [fieldType, m2 hi ht, hi, ht]
  · simp only [hi, false_and, not_false_eq_true, true_and, false_or, ← new_panic]
    unfold fieldType
    rw [m3 hi]; dsimp only
    cases hd : DataType.new d.ty with
    | panic => simp
    | val o => cases o <;> simp

/-- The macro goes through if and only if no field is refused; enums, unions and unit structs always are. -/
theorem expand_panic (d : Data) :
    expand d = .panic ↔ (∃ x ∈ d.fields, x.Refused) ∨ d = .unit ∨ d = .enum ∨ d = .union := by
  cases d with
  | named l =>
    simp only [Data.fields, reduceCtorEq, or_false, ← field_panic]
    unfold expand
    cases hl : filterMapR fieldType l with
    | panic => dsimp only; rw [hl]; exact ⟨fun _ => filterMapR_panic _ _ hl, fun _ => rfl⟩
    | val r =>
      dsimp only; rw [hl]
      simp only [reduceCtorEq, false_iff]
      rintro ⟨x, hx, h⟩
      exact (filterMapR_val _ _ _ hl).1 x hx h
  | unnamed => simp [expand, Data.fields]
  | unit => simp [expand, Data.fields]
  | enum => simp [expand, Data.fields]
  | union => simp [expand, Data.fields]

open Classical in
/-- The calls generated: first the embedded structs marked `inherited`, then the checks of fields, each in the order of declaration. -/
theorem expand_order {l : List FieldDecl} {is : List Str} {fs : List Field} (h : expand (.named l) = .val (is, fs)) :
    is = (l.filter fun d => d.IsInherited).map (·.name) ∧ fs.map (·.var) = (l.filter fun d => d.Checked).map (·.name) := by
  unfold expand at h; dsimp only at h
  cases hl : filterMapR fieldType l with
  | panic => rw [hl] at h; cases h
  | val r =>
    rw [hl] at h
    simp only [Ret.val.injEq, Prod.mk.injEq] at h
    obtain ⟨h1, h2⟩ := filterMapR_val _ _ _ hl
    obtain ⟨rfl, rfl⟩ := h
    subst h2
    clear hl
    induction l with
    | nil => exact ⟨rfl, rfl⟩
    | cons d l ih =>
      obtain ⟨i1, i2⟩ := ih fun a ha => h1 a (List.mem_cons_of_mem _ ha)
      have hp := h1 d List.mem_cons_self
      rw [List.filterMap_cons]
      cases hd : fieldType d with
      | panic => exact absurd hd hp
      | val o =>
        have ni : (∀ n, o ≠ some (.inherited n)) → ¬ d.IsInherited := by
          intro hn hi
          by_cases ht : d.IsTyped
          · exact hp ((field_panic d).mpr (.inl ⟨hi, ht⟩))
          · have := (field_inherited d d.name).mpr ⟨hi, ht, rfl⟩
            rw [hd] at this; cases this; exact hn _ rfl
        have nc : (∀ f, o ≠ some (.normal f)) → ¬ d.Checked := by
          intro hn hc
          obtain ⟨f, hf⟩ := (field_checked d).mp hc
          rw [hd] at hf; cases hf; exact hn _ rfl
        cases o with
        | none =>
          have a := ni (by simp)
          have b := nc (by simp)
          simp only [List.filter_cons, a, b]
          exact ⟨i1, i2⟩
        | some t =>
          cases t with
          | normal f =>
            have a := ni (by simp)
            have b : d.Checked := (field_checked d).mpr ⟨f, hd⟩
            have hv := (field_demand hd).1
            simp only [List.filter_cons, a, b, List.filterMap_cons, List.map_cons, decide_true, decide_false, if_true]
            exact ⟨i1, by rw [hv, i2]⟩
          | inherited n =>
            have b := nc (by simp)
            obtain ⟨a, -, rfl⟩ := (field_inherited d n).mp hd
            simp only [List.filter_cons, a, b, List.filterMap_cons, List.map_cons, decide_true, decide_false, if_true]
            exact ⟨by rw [i1], i2⟩

/-- The check of an entry when a file is loaded does what the code generated from the declaration of its struct does. -/
theorem verify_generated (m : DataMap) (k : Kind) (v : (Schema.row k).Val) :
    ∃ l, crate.demands (structName k) (parts (Schema.row k) v) = some l ∧ verifyEntity m (.known k v) = meetAll m l := by
  refine ⟨_, demands_eq k v, ?_⟩
  unfold verifyEntity meetAll named
  rw [List.foldr_map]
  change List.foldr _ _ ((Schema.row k).checks v) = _
  congr 1
  funext c r
  congr 1
  unfold checkRef meet
  dsimp only
  cases DataMap.getUntyped m c.1 with
  | panic => rfl
  | val e =>
    cases e with
    | dummy s => rfl
    | known k' w =>
      change (if k' ∈ c.2 then _ else _) = (if structName k' ∈ c.2.map structName then _ else _)
      have : structName k' ∈ c.2.map structName ↔ k' ∈ c.2 := by
        rw [List.mem_map]
        exact ⟨fun ⟨a, ha, h⟩ => structName_inj _ _ h ▸ ha, fun h => ⟨_, h, rfl⟩⟩
      simp only [this]

/-- So does that of an unknown entry. -/
theorem verify_dummy (m : DataMap) (s : Str) :
    ∃ l, crate.demands (cs! "Dummy") [⟨.str, s⟩] = some l ∧ verifyEntity m (.dummy s) = meetAll m l := by
  have h : (crate.plan crate.length (cs! "Dummy") 0).map (·.length) = some 0 := by decide +kernel
  refine ⟨[], ?_, rfl⟩
  unfold Crate.demands
  cases hp : crate.plan crate.length (cs! "Dummy") 0 with
  | none => rw [hp] at h; cases h
  | some p =>
    rw [hp] at h
    cases p with
    | nil => rfl
    | cons _ _ => cases h

/-- Fields with references that get no check, all of them. -/
theorem unguarded_fields : crate.unguarded = [
    (cs! "RelAssociates", cs! "related_objects"), (cs! "TypeObject", cs! "applicable_occurence"),
    (cs! "TypeObject", cs! "has_property_sets"), (cs! "ExtendedPropertyBase", cs! "properties"),
    (cs! "PropertySingleValue", cs! "unit"), (cs! "RelDeclares", cs! "related_definitions"),
    (cs! "RelDefinesByProperties", cs! "related_objects"),
    (cs! "RelDefinesByProperties", cs! "relating_property_definition"),
    (cs! "RelDefinesByType", cs! "related_objects"), (cs! "RelDefinesByType", cs! "relating_type"),
    (cs! "NamedUnit", cs! "dimensions")] := by decide +kernel

/-- Embedded structs whose checks are not called, all of them; those named `root` hold the owner history. -/
theorem severed_structs : crate.severed = [
    (cs! "MaterialProperties", cs! "base"), (cs! "PropertySet", cs! "root"), (cs! "PropertySingleValue", cs! "base"),
    (cs! "RelAggregates", cs! "root"), (cs! "RelAssociatesMaterial", cs! "rel_associates"),
    (cs! "RelContainedInSpatialStructure", cs! "root"), (cs! "RelDeclares", cs! "root"),
    (cs! "RelDefinesByProperties", cs! "root"), (cs! "RelDefinesByType", cs! "root"),
    (cs! "RelFillsElement", cs! "root"), (cs! "RelVoidsElement", cs! "root")] := by decide +kernel

/-- No declaration is refused. -/
theorem crate_accepted : ∀ s ∈ crate, expand s.data ≠ .panic := by
  have : ∀ s ∈ crate, (match expand s.data with | .panic => false | .val _ => true) = true := by decide +kernel
  intro s hs h
  have := this s hs
  rw [h] at this; cases this

/-- Every type named in an attribute is that of entries of some kind. -/
theorem crate_types : ∀ s ∈ crate, ∀ d ∈ s.data.fields, ∀ n ∈ d.typesNamed, ∃ k, n = structName k := by
  have : ∀ s ∈ crate, ∀ d ∈ s.data.fields, ∀ n ∈ d.typesNamed, n ∈ Schema.order.map structName := by decide +kernel
  intro s hs d hd n hn
  obtain ⟨k, -, h⟩ := List.mem_map.mp (this s hs d hd n hn)
  exact ⟨k, h.symm⟩

/-- Two relations hold nothing but references and none of them is ever checked. -/
theorem defines_unchecked (m : DataMap) :
    (∀ v, verifyEntity m (.known .RelDefinesByProperties v) = .good) ∧
    (∀ v, verifyEntity m (.known .RelDefinesByType v) = .good) := by
  have h1 : silent (Schema.row .RelDefinesByProperties) = true := by decide +kernel
  have h2 : silent (Schema.row .RelDefinesByType) = true := by decide +kernel
  constructor
  · intro v
    change List.foldr _ _ ((Schema.row .RelDefinesByProperties).checks v) = _
    rw [silent_checks _ _ h1]; rfl
  · intro v
    change List.foldr _ _ ((Schema.row .RelDefinesByType).checks v) = _
    rw [silent_checks _ _ h2]; rfl

/-! Cases. -/

/-- `#[ifc_types(A)] x: Id` is checked, `x: Id` is not -/
example : fieldType ⟨cs! "x", [.ifcTypes (some [cs! "A"])], .path (cs! "Id") none⟩ =
    .val (some (.normal ⟨cs! "x", [cs! "A"], .id .id⟩)) := rfl
example : fieldType ⟨cs! "x", [], .path (cs! "Id") none⟩ = .val none := rfl

/-- a list of `IdOr` -/
example : Field.demands ⟨cs! "x", [], .id (.idOrList [.path (cs! "A") none])⟩ (.list (.idOr .Axis3D .real)) [.id 3, .custom .nan, .id 2] =
    some [(3, [cs! "A"]), (2, [cs! "A"])] := rfl

/-- `#[ifc_types("A")] x: Id`: the argument cannot be read, and the check is left out without a message -/
example : fieldType ⟨cs! "x", [.ifcTypes none], .path (cs! "Id") none⟩ = .val none := rfl

/-- `x: crate::id::Id` with types named: only the first segment is looked at -/
example : fieldType ⟨cs! "x", [.ifcTypes (some [cs! "A"])], .path (cs! "crate") none⟩ = .val none := rfl

/-- `x: IfcList<OptionalParameter<TypedId<A>>>` is not checked -/
example : fieldType ⟨cs! "x", [], .path (cs! "IfcList") (some [.path (cs! "OptionalParameter")
    (some [.path (cs! "TypedId") (some [.path (cs! "A") none])])])⟩ = .val none := rfl

/-- `x: TypedId` is refused -/
example : fieldType ⟨cs! "x", [], .path (cs! "TypedId") none⟩ = .panic := rfl

/-- both attributes -/
example : FieldDecl.Refused ⟨cs! "x", [.inherited, .ifcTypes (some [])], .other⟩ :=
  .inl ⟨List.mem_cons_self, [], by simp⟩

/-- a relation with owner history #99, objects (#99) and type #99 passes in an empty map; a polyline through #99 panics there -/
example (v : (Schema.row .RelDefinesByType).Val) : verifyEntity [] (.known .RelDefinesByType v) = .good :=
  (defines_unchecked []).2 v
example : crate.demands (cs! "PolyLine") [⟨.list (.ref (some [.Point2D, .Point3D])), [99, 98]⟩] =
    some [(99, [cs! "Point2D", cs! "Point3D"]), (98, [cs! "Point2D", cs! "Point3D"])] := by decide +kernel
example : verifyEntity [] (.known .PolyLine [99, 98]) = .panic := by decide +kernel

end Verif.Derive
