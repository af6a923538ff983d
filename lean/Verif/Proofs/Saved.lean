import Verif.Proofs.Typed
import Verif.Spec.Saved
/-
Helper lemmas: what a call and a function making values put into a value, as far as writing it is concerned.
-/
namespace Verif.Setters
open Verif Schema DataMap

/-- the parts of a value that may be written wrongly -/
inductive Mark where
  | ref (n : Nat)
  | int (i : Int)
  | int32 (i : Int)
  | str (s : Str)
  | value (x : Value)
  | real (r : F64)

/-- all such parts of a value -/
def marks : (f : Fld) → f.Val → List Mark
  | .ref _, n => [.ref n]
  | .int, i => [.int i]
  | .int32, i => [.int32 i]
  | .str, s => [.str s]
  | .value, x => [.value x]
  | .real, r => [.real r]
  | .vec2, v => [.real v.1, .real v.2]
  | .vec3, v => [.real v.1, .real v.2.1, .real v.2.2]
  | .opt f, v => match v with
    | .custom a => marks f a
    | _ => []
  | .list f, v => v.flatMap (marks f)
  | .idOr _ f, v => match v with
    | .id n => [.ref n]
    | .custom a => marks f a
  | .seq f g, v => marks f v.1 ++ marks g v.2
  | .ent _ _ b _, v => marks b v
  | _, _ => []

def Mark.Writable : Mark → Prop
  | .ref n => n < 2 ^ 64
  | .int i => -(2 ^ 63) ≤ i ∧ i < 2 ^ 63
  | .int32 i => -(2 ^ 31) ≤ i ∧ i < 2 ^ 31
  | .str s => '\'' ∉ s
  | .value x => x.Writable
  | .real _ => True

def Mark.Exact : Mark → Prop
  | .str s => StrExact s
  | .value x => x.Exact
  | .real r => r.isScientific = false
  | _ => True

theorem one_mark {P : Mark → Prop} {a : Mark} {Q : Prop} (h : Q ↔ P a) : Q ↔ ∀ b ∈ [a], P b :=
  ⟨fun hq _ hb => by rw [List.mem_singleton.mp hb]; exact h.mp hq, fun hb => h.mpr (hb a (List.mem_singleton.mpr rfl))⟩

theorem no_mark {P : Mark → Prop} : True ↔ ∀ b ∈ ([] : List Mark), P b :=
  ⟨fun _ _ hb => (by cases hb), fun _ => trivial⟩

theorem writable_marks (f : Fld) (v : f.Val) : f.Writable v ↔ ∀ a ∈ marks f v, a.Writable := by
  induction f with
  | opt f ih =>
    cases v with
    | custom a => exact ih a
    | _ => exact no_mark
  | list f ih =>
    simp only [Fld.Writable, marks, List.mem_flatMap, ih]
    exact ⟨fun h a ⟨v, hv, ha⟩ => h v hv a ha, fun h v hv a ha => h a ⟨v, hv, ha⟩⟩
  | idOr k f ih =>
    cases v with
    | id n => exact one_mark Iff.rfl
    | custom a => exact ih a
  | seq f g ihf ihg =>
    simp only [Fld.Writable, marks, List.mem_append, ihf, ihg]
    exact ⟨fun h a ha => ha.elim (h.1 a) (h.2 a), fun h => ⟨fun a ha => h a (.inl ha), fun a ha => h a (.inr ha)⟩⟩
  | ent _ _ b _ ih => exact ih v
  | vec2 => exact ⟨fun _ a ha => by
      rcases List.mem_cons.mp ha with rfl | ha
      · trivial
      · rw [List.mem_singleton.mp ha]; trivial, fun _ => trivial⟩
  | vec3 => exact ⟨fun _ a ha => by
      rcases List.mem_cons.mp ha with rfl | ha
      · trivial
      · rcases List.mem_cons.mp ha with rfl | ha
        · trivial
        · rw [List.mem_singleton.mp ha]; trivial, fun _ => trivial⟩
  | _ => first | exact one_mark Iff.rfl | exact no_mark

theorem exact_marks (f : Fld) (v : f.Val) : f.Exact v ↔ ∀ a ∈ marks f v, a.Exact := by
  induction f with
  | opt f ih => cases v <;> simp [Fld.Exact, marks, ih]
  | list f ih =>
    simp only [Fld.Exact, marks, List.mem_flatMap, ih]
    exact ⟨fun h a ⟨v, hv, ha⟩ => h v hv a ha, fun h v hv a ha => h a ⟨v, hv, ha⟩⟩
  | idOr k f ih => cases v <;> simp [Fld.Exact, marks, ih, Mark.Exact]
  | seq f g ihf ihg =>
    simp only [Fld.Exact, marks, List.mem_append, ihf, ihg]
    exact ⟨fun h a ha => ha.elim (h.1 a) (h.2 a), fun h => ⟨fun a ha => h a (.inl ha), fun a ha => h a (.inr ha)⟩⟩
  | ent _ _ b _ ih => exact ih v
  | _ => simp [Fld.Exact, marks, Mark.Exact]

/-- the parts attribute by attribute -/
def leafMarks : (f : Fld) → f.Val → List (List Mark)
  | .seq f g, v => leafMarks f v.1 ++ leafMarks g v.2
  | .ent _ _ b _, v => leafMarks b v
  | .ref c, v => [marks (.ref c) v]
  | .real, v => [marks .real v]
  | .int, v => [marks .int v]
  | .int32, v => [marks .int32 v]
  | .bool, v => [marks .bool v]
  | .str, v => [marks .str v]
  | .guid, v => [marks .guid v]
  | .time, v => [marks .time v]
  | .value, v => [marks .value v]
  | .enum t, v => [marks (.enum t) v]
  | .vec2, v => [marks .vec2 v]
  | .vec3, v => [marks .vec3 v]
  | .opt f, v => [marks (.opt f) v]
  | .optDim t, v => [marks (.optDim t) v]
  | .list f, v => [marks (.list f) v]
  | .idOr k f, v => [marks (.idOr k f) v]

theorem marks_leaf (f : Fld) (v : f.Val) : marks f v = (leafMarks f v).flatten := by
  induction f with
  | seq f g ihf ihg =>
    show marks f v.1 ++ marks g v.2 = (leafMarks f v.1 ++ leafMarks g v.2).flatten
    rw [List.flatten_append, ihf, ihg]
  | ent _ _ b _ ih => exact ih v
  | _ => exact (List.append_nil _).symm

theorem leafMarks_length (f : Fld) (v : f.Val) : (leafMarks f v).length = width f := by
  induction f with
  | seq f g ihf ihg =>
    show (leafMarks f v.1 ++ leafMarks g v.2).length = width f + width g
    rw [List.length_append, ihf, ihg]
  | ent _ _ b _ ih => exact ih v
  | _ => rfl

/-- the parts of the value after the call are those it had and those of the argument -/
structure Carries (s : Setter) : Prop where
  carries : ∃ (put : s.arg.fld.Val → (row s.kind).Val → (row s.kind).Val),
    (∀ x m v, s.act x m v = (do let (m, y) ← s.arg.take m x; return (m, put y v))) ∧
    (∀ y v a, a ∈ marks (row s.kind) (put y v) → a ∈ marks (row s.kind) v ∨ a ∈ marks s.arg.fld y) ∧
    (∀ y v a, a ∈ marks s.arg.fld y → a ∈ marks (row s.kind) (put y v))

theorem mem_flatten_put {α : Type} {l : List (List α)} {i : Nat} {a : List α} {p : α} (h : p ∈ (l.set i a).flatten) :
    p ∈ l.flatten ∨ p ∈ a := by
  obtain ⟨b, hb, hp⟩ := List.mem_flatten.mp h
  rcases List.mem_or_eq_of_mem_set hb with hb | rfl
  · exact .inl (List.mem_flatten.mpr ⟨b, hb, hp⟩)
  · exact .inr hp

theorem mem_flatten_put_self {α : Type} {l : List (List α)} {i : Nat} (hi : i < l.length) {a : List α} {p : α} (h : p ∈ a) :
    p ∈ (l.set i a).flatten := by
  refine List.mem_flatten.mpr ⟨a, ?_, h⟩
  have : (l.set i a)[i]? = some a := List.getElem?_set_self hi
  exact List.mem_of_getElem? this

theorem marks_set {k : Kind} {name : Str} {a : ArgTy} {put : a.fld.Val → (row k).Val → (row k).Val} (i : Nat)
    (hi : i < width (row k))
    (h : ∀ y v, leafMarks (row k) (put y v) = (leafMarks (row k) v).set i (marks a.fld y)) :
    Carries (assign k name a put) := by
  suffices key : ∀ (y : a.fld.Val) (v : (row k).Val),
      (∀ p, p ∈ marks (row k) (put y v) → p ∈ marks (row k) v ∨ p ∈ marks a.fld y) ∧
      ∀ p, p ∈ marks a.fld y → p ∈ marks (row k) (put y v) by
    exact ⟨put, fun _ _ _ => rfl, fun y v => (key y v).1, fun y v => (key y v).2⟩
  intro y v
  rw [marks_leaf (row k), marks_leaf (row k), h]
  exact ⟨fun p hp => mem_flatten_put hp, fun p hp => mem_flatten_put_self (by rw [leafMarks_length]; exact hi) hp⟩

theorem marks_set2 {k : Kind} {name : Str} {a : ArgTy} {put : a.fld.Val → (row k).Val → (row k).Val} (i i' : Nat)
    (hi : i' < width (row k))
    (h : ∀ y v, leafMarks (row k) (put y v) = ((leafMarks (row k) v).set i (marks a.fld y)).set i' (marks a.fld y)) :
    Carries (assign k name a put) := by
  suffices key : ∀ (y : a.fld.Val) (v : (row k).Val),
      (∀ p, p ∈ marks (row k) (put y v) → p ∈ marks (row k) v ∨ p ∈ marks a.fld y) ∧
      ∀ p, p ∈ marks a.fld y → p ∈ marks (row k) (put y v) by
    exact ⟨put, fun _ _ _ => rfl, fun y v => (key y v).1, fun y v => (key y v).2⟩
  intro y v
  rw [marks_leaf (row k), marks_leaf (row k), h]
  refine ⟨fun p hp => ?_, fun p hp => mem_flatten_put_self (by rw [List.length_set, leafMarks_length]; exact hi) hp⟩
  rcases mem_flatten_put hp with hp | hp
  · exact mem_flatten_put hp
  · exact .inr hp

theorem marks_push {k : Kind} {name : Str} {a : ArgTy} {put : a.fld.Val → (row k).Val → (row k).Val} (i : Nat)
    (get : (row k).Val → List Nat) {id : a.fld.Val → Nat} (hi : i < width (row k))
    (hid : ∀ y, marks a.fld y = [.ref (id y)])
    (hg : ∀ v, (leafMarks (row k) v)[i]? = some (marks (.list (.ref none)) (get v)))
    (h : ∀ y v, leafMarks (row k) (put y v) = (leafMarks (row k) v).set i (marks (.list (.ref none)) (get v ++ [id y]))) :
    Carries (assign k name a put) := by
  suffices key : ∀ (y : a.fld.Val) (v : (row k).Val),
      (∀ p, p ∈ marks (row k) (put y v) → p ∈ marks (row k) v ∨ p ∈ marks a.fld y) ∧
      ∀ p, p ∈ marks a.fld y → p ∈ marks (row k) (put y v) by
    exact ⟨put, fun _ _ _ => rfl, fun y v => (key y v).1, fun y v => (key y v).2⟩
  intro y v
  have hn : marks (.list (.ref none)) (get v ++ [id y]) = marks (.list (.ref none)) (get v) ++ marks a.fld y := by
    show (get v ++ [id y]).flatMap _ = (get v).flatMap _ ++ _
    rw [List.flatMap_append, hid]
    rfl
  rw [marks_leaf (row k), marks_leaf (row k), h, hn]
  refine ⟨fun p hp => ?_, fun p hp =>
    mem_flatten_put_self (by rw [leafMarks_length]; exact hi) (List.mem_append_right _ hp)⟩
  rcases mem_flatten_put hp with hp | hp
  · exact .inl hp
  · rcases List.mem_append.mp hp with hp | hp
    · exact .inl (List.mem_flatten.mpr ⟨_, List.mem_of_getElem? (hg v), hp⟩)
    · exact .inr hp

/-- every call of the list -/
structure AllMark (l : List Setter) : Prop where
  all : ∀ s ∈ l, Carries s

theorem AllMark.nil : AllMark [] := ⟨fun _ h => by cases h⟩
theorem AllMark.cons {s : Setter} {l : List Setter} (h : Carries s) (hl : AllMark l) : AllMark (s :: l) :=
  ⟨fun _ hx => by
    rcases List.mem_cons.mp hx with rfl | hx
    · exact h
    · exact hl.all _ hx⟩
theorem AllMark.append {l l' : List Setter} (h : AllMark l) (h' : AllMark l') : AllMark (l ++ l') :=
  ⟨fun _ hx => (List.mem_append.mp hx).elim (h.all _) (h'.all _)⟩
theorem AllMark.map {ks : List Kind} {f : Kind → Setter} (h : ∀ k ∈ ks, Carries (f k)) : AllMark (ks.map f) :=
  ⟨fun _ hx => by
    obtain ⟨k, hk, rfl⟩ := List.mem_map.mp hx
    exact h k hk⟩

/-- one call -/
macro "mark " i:num : tactic => `(tactic| exact marks_set $i (by decide +kernel) fun _ _ => rfl)

/-- one call after the other: the positions of the attributes set -/
syntax "marks" "[" num,* "]" : tactic
macro_rules
  | `(tactic| marks []) => `(tactic| exact AllMark.nil)
  | `(tactic| marks [$i]) => `(tactic| (refine AllMark.cons ?_ AllMark.nil; mark $i))
  | `(tactic| marks [$i, $is,*]) => `(tactic| (refine AllMark.cons ?_ ?_; (· mark $i); (marks [$is,*])))

/-- one call that adds to the list at a position -/
macro "marksPush " i:num " by " g:term : tactic =>
  `(tactic| exact marks_push $i $g (by decide +kernel) (fun _ => rfl) (fun _ => rfl) fun _ _ => rfl)

theorem wall_marks : AllMark wallCalls := by marks [8, 7, 5, 6, 4, 1, 2, 3]
theorem slab_marks : AllMark slabCalls := by marks [8, 7, 5, 6, 4, 1, 2, 3]
theorem roof_marks : AllMark roofCalls := by marks [8, 7, 5, 6, 4, 1, 2, 3]
theorem opening_marks : AllMark openingCalls := by marks [8, 7, 5, 6, 4, 1, 2, 3]
theorem shade_marks : AllMark shadeCalls := by marks [8, 7, 5, 6, 4, 1, 2, 3]
theorem window_marks : AllMark windowCalls := by marks [8, 9, 10, 11, 7, 5, 6, 4, 1, 2, 3]
theorem door_marks : AllMark doorCalls := by marks [8, 9, 10, 11, 7, 5, 6, 4, 1, 2, 3]
theorem building_marks : AllMark buildingCalls := by marks [9, 10, 11, 8, 7, 5, 6, 4, 1, 2, 3]
theorem storey_marks : AllMark storeyCalls := by marks [8, 7, 5, 6, 4, 1, 2, 3]
theorem site_marks : AllMark siteCalls := by marks [9, 10, 11, 12, 13, 8, 7, 5, 6, 4, 1, 2, 3]
theorem space_marks : AllMark spaceCalls := by marks [9, 10, 8, 7, 5, 6, 4, 1, 2, 3]
theorem type_marks : AllMark typeCalls := by
  marks [8, 7, 1, 2, 3, 8, 7, 1, 2, 3, 8, 7, 1, 2, 3, 8, 7, 1, 2, 3, 8, 7, 1, 2, 3, 8, 7, 1, 2, 3, 8, 7, 1, 2, 3]
theorem project_marks : AllMark projectCalls := by
  refine .cons (by mark 4) (.cons (by mark 5)
    (.cons (by mark 6) (.cons ?_ ?_)))
  · marksPush 7 by fun v : ContextV => v.2.2.2.2.1
  · marks [8, 1, 2, 3]
theorem history_marks : AllMark historyCalls := by
  refine .cons ?_ (.cons ?_ ?_)
  · exact marks_set2 0 5 (by decide +kernel) fun _ _ => rfl
  · exact marks_set2 1 6 (by decide +kernel) fun _ _ => rfl
  · marks [2, 4, 5, 6]
theorem material_marks : AllMark materialCalls := by marks [1, 2]
theorem layer_marks : AllMark layerCalls := by marks [0, 3, 4, 5, 6]
theorem layerSet_marks : AllMark layerSetCalls := by
  refine .cons (by mark 1) (.cons (by mark 2)
    (.cons ?_ .nil))
  marksPush 0 by fun v : LayerSetV => v.1
theorem usage_marks : AllMark usageCalls := by marks [4]
theorem constituent_marks : AllMark constituentCalls := by marks [2, 0, 1, 4, 3]
theorem constituentSet_marks : AllMark constituentSetCalls := by
  refine .cons (by mark 0) (.cons (by mark 1)
    (.cons ?_ .nil))
  marksPush 2 by fun v : ConstituentSetV => v.2.2
theorem singleValue_marks : AllMark singleValueCalls := by marks [0, 1]
theorem materialProperties_marks : AllMark materialPropertiesCalls := by
  refine .cons (by mark 0) (.cons (by mark 1)
    (.cons ?_ .nil))
  marksPush 2 by fun v : MaterialPropertiesV => v.1.2.2
theorem propertySet_marks : AllMark propertySetCalls := by marks [1, 2, 3]
theorem aggregates_marks : AllMark aggregatesCalls := by marks [1, 2, 3]
theorem associates_marks : AllMark associatesCalls := by
  refine .append (.map fun k hk => ?_) ?_
  · marksPush 4 by fun v : (RootV × List Nat) × Nat => v.1.2
  · marks [1, 2, 3]
theorem contained_marks : AllMark containedCalls := by
  refine .append (.map fun k hk => ?_) ?_
  · marksPush 4 by fun v : ManyOneV => v.2.1
  · marks [1, 2, 3]
theorem declares_marks : AllMark declaresCalls := by
  refine .append (.map fun k hk => ?_) ?_
  · marksPush 5 by fun v : RootV × Nat × List Nat => v.2.2
  · marks [1, 2, 3]
theorem definesByType_marks : AllMark definesByTypeCalls := by
  refine .append (.map fun k hk => ?_) ?_
  · marksPush 4 by fun v : ManyOneV => v.2.1
  · marks [1, 2, 3]
theorem definesByProperties_marks : AllMark definesByPropertiesCalls := by
  refine .append (.map fun k hk => ?_) ?_
  · marksPush 4 by fun v : ManyOneV => v.2.1
  · marks [1, 2, 3]
theorem voids_marks : AllMark voidsCalls := by marks [1, 2, 3]
theorem fills_marks : AllMark fillsCalls := by marks [1, 2, 3]
theorem solid_marks : AllMark solidCalls := by marks [1]
theorem contextOf_marks : AllMark contextOfCalls := by
  refine .cons (by mark 3) (.map fun k hk => ?_)
  mark 5
theorem subContext_marks : AllMark subContextCalls := by marks [7, 9]
theorem placement_marks : AllMark placementCalls := by marks [0]
theorem profile_marks : AllMark profileCalls := by marks [1]
theorem rectangle_marks : AllMark rectangleCalls := by
  refine .cons (by mark 1) (.map fun k hk => ?_)
  mark 2
theorem shape_marks : AllMark shapeCalls := by
  refine .cons (by mark 0) (.cons (by mark 1)
    (.cons ?_ .nil))
  marksPush 2 by fun v : ShapeV => v.2.2
theorem representation_marks : AllMark representationCalls := by
  refine .map fun k hk => ?_
  marksPush 3 by fun v : Nat × Opt (Fin eRepresentationIdentifier.length) × Opt (Fin eRepresentationType.length) × List Nat =>
    v.2.2.2

theorem setters_mark : AllMark setters := by
  have h : ∀ l ∈ [wallCalls, slabCalls, roofCalls, openingCalls, shadeCalls, windowCalls, doorCalls, buildingCalls, storeyCalls,
   siteCalls, spaceCalls, typeCalls, projectCalls, historyCalls, materialCalls, layerCalls, layerSetCalls, usageCalls,
   constituentCalls, constituentSetCalls, singleValueCalls, materialPropertiesCalls, propertySetCalls, aggregatesCalls,
   associatesCalls, containedCalls, declaresCalls, definesByTypeCalls, definesByPropertiesCalls, voidsCalls, fillsCalls,
   solidCalls, contextOfCalls, subContextCalls, placementCalls, profileCalls, rectangleCalls, shapeCalls,
   representationCalls], AllMark l := by
    simp only [List.forall_mem_cons, List.not_mem_nil, false_imp_iff, implies_true, and_true]
    exact ⟨wall_marks, slab_marks, roof_marks, opening_marks, shade_marks, window_marks, door_marks, building_marks,
      storey_marks, site_marks, space_marks, type_marks, project_marks, history_marks, material_marks, layer_marks,
      layerSet_marks, usage_marks,
      constituent_marks, constituentSet_marks, singleValue_marks, materialProperties_marks, propertySet_marks,
      aggregates_marks, associates_marks, contained_marks, declares_marks, definesByType_marks, definesByProperties_marks,
      voids_marks, fills_marks, solid_marks, contextOf_marks, subContext_marks, placement_marks, profile_marks, rectangle_marks,
      shape_marks, representation_marks⟩
  refine ⟨fun s hs => ?_⟩
  obtain ⟨l, hl, hs⟩ := List.mem_flatten.mp hs
  exact (h l hl).all s hs


end Verif.Setters
