import Verif.Model.File
import Verif.Proofs.DataMap
/-
C13, C15, C36 and the reference part of C14: what loading checks about references.
-/
namespace Verif
open DataMap

/-! ### Specification -/

/-- `n` is the content of a reference field with declared target types `ks`, outside inline values -/
inductive CheckedRef : (f : Fld) → f.Val → Nat → List Kind → Prop
  | ref (ks : List Kind) (n : Nat) : CheckedRef (.ref (some ks)) n n ks
  | opt {f : Fld} {v : f.Val} {n : Nat} {ks : List Kind} : CheckedRef f v n ks → CheckedRef (.opt f) (.custom v) n ks
  | list {f : Fld} {v : f.Val} {vs : List f.Val} {n : Nat} {ks : List Kind} :
      v ∈ vs → CheckedRef f v n ks → CheckedRef (.list f) vs n ks
  | idOr (k : Kind) (f : Fld) (n : Nat) : CheckedRef (.idOr k f) (.id n) n [k]
  | left {f g : Fld} {v : f.Val} {w : g.Val} {n : Nat} {ks : List Kind} :
      CheckedRef f v n ks → CheckedRef (.seq f g) (v, w) n ks
  | right {f g : Fld} {v : f.Val} {w : g.Val} {n : Nat} {ks : List Kind} :
      CheckedRef g w n ks → CheckedRef (.seq f g) (v, w) n ks
  | ent {kws : List Str} {sp : Bool} {b : Fld} {close : Str} {v : b.Val} {n : Nat} {ks : List Kind} :
      CheckedRef b v n ks → CheckedRef (.ent kws sp b close) v n ks

/-- a checked reference of an entity; unknown entities have none -/
inductive Entity.HasCheckedRef : Entity → Nat → List Kind → Prop
  | known {k : Kind} {v : (Schema.row k).Val} {n : Nat} {ks : List Kind} :
      CheckedRef (Schema.row k) v n ks → Entity.HasCheckedRef (.known k v) n ks

/-- the target exists and has an allowed type or is an unknown entity -/
def GoodTarget (m : DataMap) (n : Nat) (ks : List Kind) : Prop :=
  (∃ s, m.lookup n = some (.dummy s)) ∨ ∃ k v, k ∈ ks ∧ m.lookup n = some (.known k v)

/-- the target does not exist -/
def Dangling (m : DataMap) (n : Nat) : Prop := m.lookup n = none

theorem mem_checks_iff (f : Fld) (v : f.Val) (n : Nat) (ks : List Kind) :
    (n, ks) ∈ f.checks v ↔ CheckedRef f v n ks := by
  induction f with
  | ref c =>
    cases c with
    | none => simp only [Fld.checks, List.not_mem_nil, false_iff]; intro h; cases h
    | some ks' =>
      simp only [Fld.checks, List.mem_singleton, Prod.mk.injEq]
      constructor
      · rintro ⟨rfl, rfl⟩; exact .ref _ _
      · intro h; cases h; exact ⟨rfl, rfl⟩
  | opt f ih =>
    cases v with
    | omitted => simp only [Fld.checks, List.not_mem_nil, false_iff]; intro h; cases h
    | inherited => simp only [Fld.checks, List.not_mem_nil, false_iff]; intro h; cases h
    | custom a =>
      simp only [Fld.checks, ih]
      exact ⟨.opt, fun h => by cases h; assumption⟩
  | list f ih =>
    simp only [Fld.checks, List.mem_flatMap, ih]
    constructor
    · rintro ⟨a, h1, h2⟩; exact .list h1 h2
    · intro h; cases h; exact ⟨_, by assumption, by assumption⟩
  | idOr k f _ =>
    cases v with
    | id m =>
      simp only [Fld.checks, List.mem_singleton, Prod.mk.injEq]
      constructor
      · rintro ⟨rfl, rfl⟩; exact .idOr _ _ _
      · intro h; cases h; exact ⟨rfl, rfl⟩
    | custom a => simp only [Fld.checks, List.not_mem_nil, false_iff]; intro h; cases h
  | seq f g ihf ihg =>
    obtain ⟨a, b⟩ := v
    simp only [Fld.checks, List.mem_append, ihf, ihg]
    constructor
    · rintro (h | h)
      · exact .left h
      · exact .right h
    · intro h
      cases h
      · left; assumption
      · right; assumption
  | ent kws sp b close ih =>
    simp only [Fld.checks, ih]
    exact ⟨.ent, fun h => by cases h; assumption⟩
  | _ => simp only [Fld.checks, List.not_mem_nil, false_iff]; intro h; cases h

theorem mem_entity_checks_iff (e : Entity) (n : Nat) (ks : List Kind) : (n, ks) ∈ e.checks ↔ e.HasCheckedRef n ks := by
  cases e with
  | known k v =>
    simp only [Entity.checks, mem_checks_iff]
    exact ⟨.known, fun h => by cases h; assumption⟩
  | dummy s => simp only [Entity.checks, List.not_mem_nil, false_iff]; intro h; cases h

theorem checkRef_good (m : DataMap) (n : Nat) (ks : List Kind) : checkRef m (n, ks) = .good ↔ GoodTarget m n ks := by
  unfold checkRef getUntyped GoodTarget
  cases m.lookup n with
  | none => simp
  | some e =>
    cases e with
    | dummy s => simp [Entity.kind]
    | known k v =>
      simp only [Entity.kind, Option.some.injEq, reduceCtorEq, exists_false, false_or]
      by_cases h : k ∈ ks
      · simp only [h, if_true, true_iff]; exact ⟨k, v, h, rfl⟩
      · simp only [h, if_false, reduceCtorEq, false_iff]
        rintro ⟨k', v', hk', he⟩
        injection he with hk _
        exact h (hk ▸ hk')

theorem checkRef_panic (m : DataMap) (n : Nat) (ks : List Kind) : checkRef m (n, ks) = .panic ↔ Dangling m n := by
  unfold checkRef getUntyped Dangling
  cases m.lookup n with
  | none => simp
  | some e =>
    cases e with
    | dummy s => simp [Entity.kind]
    | known k v =>
      simp only [Entity.kind, reduceCtorEq, iff_false]
      split <;> simp

theorem foldr_andThen_good {α : Type} (f : α → Verdict) (l : List α) :
    l.foldr (fun c v => (f c).andThen v) .good = .good ↔ ∀ c ∈ l, f c = .good := by
  induction l with
  | nil => simp
  | cons c l ih =>
    simp only [List.foldr_cons, List.forall_mem_cons, ← ih]
    cases f c <;> simp [Verdict.andThen]

theorem foldr_andThen_panic {α : Type} (f : α → Verdict) (l : List α) :
    l.foldr (fun c v => (f c).andThen v) .good = .panic ↔
      ∃ a c b, l = a ++ c :: b ∧ f c = .panic ∧ ∀ x ∈ a, f x = .good := by
  induction l with
  | nil => simp
  | cons c l ih =>
    simp only [List.foldr_cons]
    constructor
    · intro h
      cases hc : f c with
      | good =>
        rw [hc] at h
        obtain ⟨a, d, b, h1, h2, h3⟩ := ih.mp h
        exact ⟨c :: a, d, b, by simp [h1], h2, by
          intro x hx
          rcases List.mem_cons.mp hx with rfl | hx
          · exact hc
          · exact h3 x hx⟩
      | bad => rw [hc] at h; simp [Verdict.andThen] at h
      | panic => exact ⟨[], c, l, rfl, hc, by simp⟩
    · rintro ⟨a, d, b, h1, h2, h3⟩
      cases a with
      | nil =>
        simp only [List.nil_append, List.cons.injEq] at h1
        rw [h1.1, h2]; rfl
      | cons x a =>
        simp only [List.cons_append, List.cons.injEq] at h1
        rw [h1.1, h3 x (by simp)]
        exact ih.mpr ⟨a, d, b, h1.2, h2, fun y hy => h3 y (by simp [hy])⟩

theorem verifyEntity_good (m : DataMap) (e : Entity) :
    verifyEntity m e = .good ↔ ∀ n ks, e.HasCheckedRef n ks → GoodTarget m n ks := by
  unfold verifyEntity
  rw [foldr_andThen_good]
  constructor
  · intro h n ks hc
    exact (checkRef_good m n ks).mp (h (n, ks) ((mem_entity_checks_iff e n ks).mpr hc))
  · rintro h ⟨n, ks⟩ hc
    exact (checkRef_good m n ks).mpr (h n ks ((mem_entity_checks_iff e n ks).mp hc))

/-- C13: the check passes exactly when every checked reference has a good target. -/
theorem verify_iff (m : DataMap) :
    verifyAll m = .good ↔ ∀ i e, (i, e) ∈ m → ∀ n ks, e.HasCheckedRef n ks → GoodTarget m n ks := by
  unfold verifyAll
  rw [foldr_andThen_good]
  constructor
  · intro h i e hm; exact (verifyEntity_good m e).mp (h (i, e) hm)
  · rintro h ⟨i, e⟩ hm; exact (verifyEntity_good m e).mpr (h i e hm)

/-- C13: after a successful load every checked reference points to an existing entity of an allowed type, or to an
unknown entity. -/
theorem load_refs_good (s : Str) (f : Ifc) (h : fromStr s = .ok f) (i : Nat) (e : Entity) (he : (i, e) ∈ f.data)
    (n : Nat) (ks : List Kind) (hr : e.HasCheckedRef n ks) : GoodTarget f.data n ks := by
  unfold fromStr at h
  cases hp : pIfc s with
  | ok f' r =>
    rw [hp] at h
    simp only at h
    split at h
    · cases hv : verifyAll f'.data with
      | good =>
        rw [hv] at h
        simp only [Load.ok.injEq] at h
        subst h
        exact (verify_iff _).mp hv i e he n ks hr
      | bad => rw [hv] at h; cases h
      | panic => rw [hv] at h; cases h
    · cases h
  | back => rw [hp] at h; cases h
  | cut => rw [hp] at h; cases h
  | panic => rw [hp] at h; cases h

/-- C14, reference part: on a readable file loading panics exactly when some checked reference dangles and every
reference checked before it (entities by id, fields in order) is good. -/
theorem verify_panics_iff (m : DataMap) :
    verifyAll m = .panic ↔ ∃ before i e after, m = before ++ (i, e) :: after ∧
      (∀ j e', (j, e') ∈ before → ∀ n ks, e'.HasCheckedRef n ks → GoodTarget m n ks) ∧
      ∃ earlier n ks later, e.checks = earlier ++ (n, ks) :: later ∧
        (∀ n' ks', (n', ks') ∈ earlier → GoodTarget m n' ks') ∧ Dangling m n := by
  unfold verifyAll
  rw [foldr_andThen_panic]
  constructor
  · rintro ⟨a, ⟨i, e⟩, b, h1, h2, h3⟩
    refine ⟨a, i, e, b, h1, fun j e' hj => (verifyEntity_good m e').mp (h3 (j, e') hj), ?_⟩
    unfold verifyEntity at h2
    rw [foldr_andThen_panic] at h2
    obtain ⟨a', ⟨n, ks⟩, b', h4, h5, h6⟩ := h2
    exact ⟨a', n, ks, b', h4, fun n' ks' h => (checkRef_good m n' ks').mp (h6 (n', ks') h), (checkRef_panic m n ks).mp h5⟩
  · rintro ⟨a, i, e, b, h1, h3, a', n, ks, b', h4, h6, h5⟩
    refine ⟨a, (i, e), b, h1, ?_, ?_⟩
    · unfold verifyEntity
      rw [foldr_andThen_panic]
      exact ⟨a', (n, ks), b', h4, (checkRef_panic m n ks).mpr h5,
        by rintro ⟨n', ks'⟩ h; exact (checkRef_good m n' ks').mpr (h6 n' ks' h)⟩
    · rintro ⟨j, e'⟩ hj; exact (verifyEntity_good m e').mpr (h3 j e' hj)

/-! ### C15 -/

/-- C15: in a loaded model following a reference with a single declared type gives the entity, unless the target was
kept as an unknown entity; then it panics. -/
theorem load_follow_ref (s : Str) (f : Ifc) (h : fromStr s = .ok f) (i : Nat) (e : Entity) (he : (i, e) ∈ f.data)
    (n : Nat) (k : Kind) (hr : e.HasCheckedRef n [k]) :
    (∃ v, f.data.get k n = .val v ∧ f.data.lookup n = some (.known k v)) ∨
    (f.data.get k n = .panic ∧ ∃ t, f.data.lookup n = some (.dummy t)) := by
  rcases load_refs_good s f h i e he n [k] hr with ⟨t, ht⟩ | ⟨k', v, hk, hv⟩
  · right
    exact ⟨by simp [DataMap.get, ht, Entity.downcast], t, ht⟩
  · left
    have : k' = k := by simpa using hk
    subst this
    exact ⟨v, DataMap.get_eq_val.mpr hv, hv⟩

/-- a small complete file around the given instance lines -/
def miniFile (lines : Str) : Str :=
  cs! "ISO-10303-21;HEADER;FILE_DESCRIPTION((''),'2;1');FILE_NAME('','2020-01-01T00:00:00',(),(),'','','');FILE_SCHEMA(('IFC4'));ENDSEC;DATA;"
    ++ lines ++ cs! "ENDSEC;END-ISO-10303-21;"

/-- does loading succeed with a model of this property? (for witnesses) -/
def loads (s : Str) (p : DataMap → Bool) : Bool :=
  match fromStr s with
  | .ok f => p f.data
  | _ => false
def isPanic {α : Type} : Ret α → Bool
  | .panic => true
  | .val _ => false

theorem loads_spec {s : Str} {p : DataMap → Bool} (h : loads s p = true) : ∃ f, fromStr s = .ok f ∧ p f.data = true := by
  unfold loads at h
  cases hf : fromStr s with
  | ok f => rw [hf] at h; exact ⟨f, rfl, h⟩
  | parseError => rw [hf] at h; cases h
  | verifyError => rw [hf] at h; cases h
  | panic => rw [hf] at h; cases h

theorem isPanic_spec {α : Type} {r : Ret α} (h : isPanic r = true) : r = .panic := by
  cases r with
  | panic => rfl
  | val a => cases h

/-- a two-line file: an application whose developer organisation is readable -/
example : loads (miniFile (cs! "#1=IFCAPPLICATION(#2,'1','n','i');#2=IFCORGANIZATION($,'o',$,$,$);"))
    (fun m => m.idOf .Application == [1] && m.idOf .Organization == [2]) = true := by decide +kernel

/-- C15 is false in general: a file that loads, in which following a typed reference panics. -/
theorem load_follow_ref_can_panic : ∃ s f, fromStr s = .ok f ∧
    (∃ i e, (i, e) ∈ f.data ∧ e.HasCheckedRef 2 [.Organization]) ∧ f.data.get .Organization 2 = .panic := by
  have h : loads (miniFile (cs! "#1=IFCAPPLICATION(#2,'1','n','i');#2=IFCORGANIZATION($,$,$,$,$);"))
      (fun m => isPanic (m.get .Organization 2) && m.any fun ie => ie.2.checks.contains (2, [.Organization])) = true := by
    decide +kernel
  obtain ⟨f, h1, h2⟩ := loads_spec h
  simp only [Bool.and_eq_true, List.any_eq_true, List.contains_iff_mem] at h2
  obtain ⟨h3, ⟨i, e⟩, h4, h5⟩ := h2
  exact ⟨_, f, h1, ⟨i, e, h4, (mem_entity_checks_iff _ _ _).mp h5⟩, isPanic_spec h3⟩

/-- a dangling checked reference: the whole load panics (finding for C14) -/
theorem load_dangling_panics :
    fromStr (miniFile (cs! "#1=IFCAPPLICATION(#2,'1','n','i');")) = .panic := by
  have h : (match fromStr (miniFile (cs! "#1=IFCAPPLICATION(#2,'1','n','i');")) with
    | .panic => true | _ => false) = true := by decide +kernel
  revert h
  cases fromStr (miniFile (cs! "#1=IFCAPPLICATION(#2,'1','n','i');")) <;> simp

/-! ### C36 -/

/-- does a value of this shape hold references at all? -/
def Fld.HasRef : Fld → Prop
  | .ref _ => True
  | .opt f => f.HasRef
  | .list f => f.HasRef
  | .idOr _ _ => True
  | .seq f g => f.HasRef ∨ g.HasRef
  | .ent _ _ b _ => b.HasRef
  | _ => False

/-- does it have places for references that are not checked: undeclared types, or inside an inline value? -/
def Fld.HasUnchecked : Fld → Prop
  | .ref c => c = none
  | .opt f => f.HasUnchecked
  | .list f => f.HasUnchecked
  | .idOr _ f => f.HasRef
  | .seq f g => f.HasUnchecked ∨ g.HasUnchecked
  | .ent _ _ b _ => b.HasUnchecked
  | _ => False

instance decHasRef : (f : Fld) → Decidable f.HasRef
  | .ref _ => isTrue trivial
  | .opt f => decHasRef f
  | .list f => decHasRef f
  | .idOr _ _ => isTrue trivial
  | .seq f g => @instDecidableOr _ _ (decHasRef f) (decHasRef g)
  | .ent _ _ b _ => decHasRef b
  | .real | .int | .int32 | .bool | .str | .guid | .time | .value | .enum _ | .vec2 | .vec3 | .optDim _ =>
    isFalse id

instance decHasUnchecked : (f : Fld) → Decidable f.HasUnchecked
  | .ref c => inferInstanceAs (Decidable (c = none))
  | .opt f => decHasUnchecked f
  | .list f => decHasUnchecked f
  | .idOr _ f => decHasRef f
  | .seq f g => @instDecidableOr _ _ (decHasUnchecked f) (decHasUnchecked g)
  | .ent _ _ b _ => decHasUnchecked b
  | .real | .int | .int32 | .bool | .str | .guid | .time | .value | .enum _ | .vec2 | .vec3 | .optDim _ =>
    isFalse id

/-- the entity types with unchecked references -/
def uncheckedKinds : List Kind :=
  [.Wall, .WallType, .SlabType, .RoofType, .WindowType, .SpaceType, .DoorType, .ShadingDeviceType,
   .RelAggregates, .RelAssociatesMaterial, .RelContainedInSpatialStructure, .RelDeclares, .RelDefinesByType,
   .RelDefinesByProperties, .RelVoidsElement, .RelFillsElement, .MappedItem, .RepresentationMap,
   .ConversionBasedUnit, .SiUnit, .MaterialProperties, .PropertySet, .PropertySingleValue]

theorem order_complete (k : Kind) : k ∈ Schema.order := by cases k <;> decide +kernel

theorem refs_nil_of_not_hasRef (f : Fld) (h : ¬ f.HasRef) (v : f.Val) : f.refs v = [] := by
  induction f with
  | ref c => exact absurd trivial h
  | opt f ih => cases v <;> simp only [Fld.refs]; exact ih h _
  | list f ih =>
    simp only [Fld.refs, List.flatMap_eq_nil_iff]
    exact fun x _ => ih h x
  | idOr k f _ => exact absurd trivial h
  | seq f g ihf ihg =>
    simp only [Fld.HasRef, not_or] at h
    simp only [Fld.refs, ihf h.1, ihg h.2, List.append_nil]
  | ent kws sp b close ih => exact ih h v
  | _ => simp [Fld.refs]

theorem refs_checked (f : Fld) (h : ¬ f.HasUnchecked) (v : f.Val) (n : Nat) (hn : n ∈ f.refs v) :
    ∃ ks, CheckedRef f v n ks := by
  induction f with
  | ref c =>
    cases c with
    | none => exact absurd rfl h
    | some ks =>
      simp only [Fld.refs, List.mem_singleton] at hn
      subst hn
      exact ⟨ks, .ref _ _⟩
  | opt f ih =>
    cases v with
    | omitted => simp [Fld.refs] at hn
    | inherited => simp [Fld.refs] at hn
    | custom a => obtain ⟨ks, hk⟩ := ih h a hn; exact ⟨ks, .opt hk⟩
  | list f ih =>
    simp only [Fld.refs, List.mem_flatMap] at hn
    obtain ⟨a, h1, h2⟩ := hn
    obtain ⟨ks, hk⟩ := ih h a h2
    exact ⟨ks, .list h1 hk⟩
  | idOr k f _ =>
    cases v with
    | id m => simp only [Fld.refs, List.mem_singleton] at hn; subst hn; exact ⟨[k], .idOr _ _ _⟩
    | custom a => simp only [Fld.refs, refs_nil_of_not_hasRef f h, List.not_mem_nil] at hn
  | seq f g ihf ihg =>
    obtain ⟨a, b⟩ := v
    simp only [Fld.HasUnchecked, not_or] at h
    simp only [Fld.refs, List.mem_append] at hn
    rcases hn with hn | hn
    · obtain ⟨ks, hk⟩ := ihf h.1 a hn; exact ⟨ks, .left hk⟩
    · obtain ⟨ks, hk⟩ := ihg h.2 b hn; exact ⟨ks, .right hk⟩
  | ent kws sp b close ih => obtain ⟨ks, hk⟩ := ih h v hn; exact ⟨ks, .ent hk⟩
  | _ => simp [Fld.refs] at hn

/-- C36: outside the listed types every reference of an entity is a checked one. -/
theorem all_refs_checked (k : Kind) (hk : k ∉ uncheckedKinds) (v : (Schema.row k).Val) (n : Nat)
    (hn : n ∈ (Entity.known k v).refs) : ∃ ks, (Entity.known k v).HasCheckedRef n ks := by
  have : ∀ k ∈ Schema.order, k ∉ uncheckedKinds → ¬ (Schema.row k).HasUnchecked := by decide +kernel
  obtain ⟨ks, h⟩ := refs_checked (Schema.row k) (this k (order_complete k) hk) v n hn
  exact ⟨ks, .known h⟩

example : Kind.Application ∉ uncheckedKinds ∧
    (Entity.known .Application ((7 : Nat), (cs! "1", cs! "n", cs! "i"))).refs = [7] := by decide +kernel

/-- C36: so in a loaded model all references of entities of the other types resolve. -/
theorem load_all_refs_resolve (s : Str) (f : Ifc) (h : fromStr s = .ok f) (i : Nat) (k : Kind) (hk : k ∉ uncheckedKinds)
    (v : (Schema.row k).Val) (he : (i, .known k v) ∈ f.data) (n : Nat) (hn : n ∈ (Entity.known k v).refs) :
    ¬ Dangling f.data n := by
  obtain ⟨ks, hc⟩ := all_refs_checked k hk v n hn
  intro hd
  unfold Dangling at hd
  rcases load_refs_good s f h i _ he n ks hc with ⟨t, ht⟩ | ⟨k', v', _, hv⟩
  · rw [hd] at ht; cases ht
  · rw [hd] at hv; cases hv

/-- a value with every checked reference `a` and every unchecked one `b` -/
def demoVal (a b : Nat) : (f : Fld) → Bool → Option f.Val
  | .ref c, inl => if inl || c.isNone then some b else some a
  | .real, _ => some .nan
  | .int, _ => some (0 : Int)
  | .int32, _ => some (0 : Int)
  | .bool, _ => some .tt
  | .str, _ => some ([] : Str)
  | .guid, _ => some ⟨List.replicate 16 0, rfl⟩
  | .time, _ => some ⟨0, by decide, by decide⟩
  | .value, _ => some (.label [])
  | .enum t, _ => if h : 0 < t.length then some ⟨0, h⟩ else none
  | .vec2, _ => some (.nan, .nan)
  | .vec3, _ => some (.nan, .nan, .nan)
  | .opt f, inl => (demoVal a b f inl).map .custom
  | .optDim _, _ => some .omitted
  | .list f, inl => (demoVal a b f inl).map fun v => [v]
  | .idOr _ f, _ => (demoVal a b f true).map .custom
  | .seq f g, inl => (demoVal a b f inl).bind fun v => (demoVal a b g inl).map fun w => (v, w)
  | .ent _ _ bd _, inl => demoVal a b bd inl

/-- C36: the list is exact: each listed type has values with a dangling reference in a model that passes the check. -/
theorem unchecked_kinds_exact (k : Kind) (hk : k ∈ uncheckedKinds) :
    ∃ (v : (Schema.row k).Val) (m : DataMap), (2, .known k v) ∈ m ∧ verifyAll m = .good ∧
      999 ∈ (Entity.known k v).refs ∧ Dangling m 999 := by
  have h : ∀ k ∈ uncheckedKinds, (match demoVal 1 999 (Schema.row k) false with
      | some v => verifyAll [(1, .dummy []), (2, .known k v)] == .good && (Entity.known k v).refs.contains 999
      | none => false) = true := by decide +kernel
  have hk' := h k hk
  cases hd : demoVal 1 999 (Schema.row k) false with
  | none => rw [hd] at hk'; cases hk'
  | some v =>
    rw [hd] at hk'
    simp only [Bool.and_eq_true, beq_iff_eq, List.contains_iff_mem] at hk'
    exact ⟨v, [(1, .dummy []), (2, .known k v)], by simp, hk'.1, hk'.2, rfl⟩

/-- C36: such a file loads. -/
theorem load_with_dangling_unchecked : ∃ s f, fromStr s = .ok f ∧ ∃ e, (1, e) ∈ f.data ∧ 999 ∈ e.refs ∧ Dangling f.data 999 := by
  have h : loads (miniFile (cs! "#1=IFCRELDEFINESBYTYPE('0000000000000000000000',$,$,$,(#999),#998);"))
      (fun m => m.any (fun ie => ie.1 == 1 && ie.2.refs.contains 999) && (m.lookup 999).isNone) = true := by
    decide +kernel
  obtain ⟨f, h1, h2⟩ := loads_spec h
  simp only [Bool.and_eq_true, List.any_eq_true, List.contains_iff_mem, beq_iff_eq, Option.isNone_iff_eq_none] at h2
  obtain ⟨⟨⟨i, e⟩, h3, h4, h5⟩, h6⟩ := h2
  simp only at h4
  subst h4
  exact ⟨_, f, h1, e, h3, h5, h6⟩

end Verif
