import Verif.Spec.Typed
import Verif.Proofs.Ctors
/-
Helper lemmas: what references the calls and the functions making values put into a value.
-/
namespace Verif.Setters
open Verif Schema DataMap

/-- a reference and what it has to lead to -/
abbrev Need := Option (List Kind) × Nat

/-- the references of a value -/
def needs : (f : Fld) → f.Val → List Need
  | .ref c, n => [(c, n)]
  | .opt f, v => match v with
    | .custom a => needs f a
    | _ => []
  | .list f, v => v.flatMap (needs f)
  | .idOr k f, v => match v with
    | .id n => [(some [k], n)]
    | .custom a => (f.refs a).map fun n => (none, n)
  | .seq f g, v => needs f v.1 ++ needs g v.2
  | .ent _ _ b _, v => needs b v
  | _, _ => []

theorem needs_checks (f : Fld) (v : f.Val) (n : Nat) (ks : List Kind) :
    (n, ks) ∈ f.checks v ↔ (some ks, n) ∈ needs f v := by
  induction f with
  | ref c => cases c <;> simp [Fld.checks, needs, and_comm]
  | opt f ih => cases v <;> simp [Fld.checks, needs, ih]
  | list f ih => simp [Fld.checks, needs, ih]
  | idOr k f => cases v <;> simp [Fld.checks, needs, and_comm]
  | seq f g ihf ihg => simp [Fld.checks, needs, ihf, ihg]
  | ent _ _ b _ ih => exact ih v
  | _ => simp [Fld.checks, needs]

theorem needs_refs (f : Fld) (v : f.Val) (n : Nat) : n ∈ f.refs v ↔ ∃ c, (c, n) ∈ needs f v := by
  induction f with
  | ref c => simp [Fld.refs, needs]
  | opt f ih => cases v <;> simp [Fld.refs, needs, ih]
  | list f ih =>
    simp only [Fld.refs, needs, List.mem_flatMap, ih]
    exact ⟨fun ⟨a, h, c, hc⟩ => ⟨c, a, h, hc⟩, fun ⟨c, a, h, hc⟩ => ⟨a, h, c, hc⟩⟩
  | idOr k f => cases v <;> simp [Fld.refs, needs]
  | seq f g ihf ihg => simp [Fld.refs, needs, ihf, ihg, exists_or]
  | ent _ _ b _ ih => exact ih v
  | _ => simp [Fld.refs, needs]

theorem GoodTarget.stored {m : DataMap} {n : Nat} {ks : List Kind} (h : GoodTarget m n ks) : m.lookup n ≠ none := by
  rcases h with ⟨s, h⟩ | ⟨k, v, -, h⟩ <;> rw [h] <;> intro hc <;> cases hc

theorem sound_iff {m : DataMap} {k : Kind} {v : (row k).Val} :
    Sound m (.known k v) ↔ ∀ p ∈ needs (row k) v, Leads m p.1 p.2 := by
  constructor
  · rintro ⟨h1, h2⟩ ⟨c, n⟩ hp
    cases c with
    | none => exact h2 n ((needs_refs _ _ _).mpr ⟨_, hp⟩)
    | some ks =>
      exact (verifyEntity_good m _).mp h1 n ks ((mem_entity_checks_iff _ n ks).mp ((needs_checks _ _ _ _).mpr hp))
  · intro h
    refine ⟨(verifyEntity_good m _).mpr fun n ks hc => ?_, fun n hn => ?_⟩
    · exact h _ ((needs_checks _ _ _ _).mp ((mem_entity_checks_iff _ n ks).mpr hc))
    · obtain ⟨c, hc⟩ := (needs_refs _ _ _).mp hn
      cases c with
      | none => exact h _ hc
      | some ks => exact GoodTarget.stored (h _ hc)

/-- the references attribute by attribute -/
def leafNeeds : (f : Fld) → f.Val → List (List Need)
  | .seq f g, v => leafNeeds f v.1 ++ leafNeeds g v.2
  | .ent _ _ b _, v => leafNeeds b v
  | .ref c, v => [needs (.ref c) v]
  | .real, v => [needs .real v]
  | .int, v => [needs .int v]
  | .int32, v => [needs .int32 v]
  | .bool, v => [needs .bool v]
  | .str, v => [needs .str v]
  | .guid, v => [needs .guid v]
  | .time, v => [needs .time v]
  | .value, v => [needs .value v]
  | .enum t, v => [needs (.enum t) v]
  | .vec2, v => [needs .vec2 v]
  | .vec3, v => [needs .vec3 v]
  | .opt f, v => [needs (.opt f) v]
  | .optDim t, v => [needs (.optDim t) v]
  | .list f, v => [needs (.list f) v]
  | .idOr k f, v => [needs (.idOr k f) v]

theorem needs_leaf (f : Fld) (v : f.Val) : needs f v = (leafNeeds f v).flatten := by
  induction f with
  | seq f g ihf ihg =>
    show needs f v.1 ++ needs g v.2 = (leafNeeds f v.1 ++ leafNeeds g v.2).flatten
    rw [List.flatten_append, ihf, ihg]
  | ent _ _ b _ ih => exact ih v
  | _ => exact (List.append_nil _).symm

theorem leafNeeds_length (f : Fld) (v : f.Val) : (leafNeeds f v).length = width f := by
  induction f with
  | seq f g ihf ihg =>
    show (leafNeeds f v.1 ++ leafNeeds g v.2).length = width f + width g
    rw [List.length_append, ihf, ihg]
  | ent _ _ b _ ih => exact ih v
  | _ => rfl

/-- the references of an argument, which have to lead to the same -/
def tagged (c : Option (List Kind)) (f : Fld) (y : f.Val) : List Need := (f.refs y).map fun n => (c, n)

/-- the argument type is allowed unless it is one of those that are not -/
def apt (k : Kind) (name : Str) (a : Option Kind) (c : Option (List Kind)) : Bool :=
  match a with
  | none => c = none
  | some j => mistyped k name j == match c with
    | none => false
    | some ks => !decide (j ∈ ks)

/-- the references of the value after the call are those it had and those of the argument -/
structure Points (s : Setter) : Prop where
  points : ∃ (put : s.arg.fld.Val → (row s.kind).Val → (row s.kind).Val) (c : Option (List Kind)),
    (∀ x m v, s.act x m v = (do let (m, y) ← s.arg.take m x; return (m, put y v))) ∧
    (∀ y v p, p ∈ needs (row s.kind) (put y v) → p ∈ needs (row s.kind) v ∨ p ∈ tagged c s.arg.fld y) ∧
    (∀ y v p, p ∈ tagged c s.arg.fld y → p ∈ needs (row s.kind) (put y v)) ∧ apt s.kind s.name s.arg.kind c = true

theorem mem_flatten_set {l : List (List Need)} {i : Nat} {a : List Need} {p : Need} (h : p ∈ (l.set i a).flatten) :
    p ∈ l.flatten ∨ p ∈ a := by
  obtain ⟨b, hb, hp⟩ := List.mem_flatten.mp h
  rcases List.mem_or_eq_of_mem_set hb with hb | rfl
  · exact .inl (List.mem_flatten.mpr ⟨b, hb, hp⟩)
  · exact .inr hp

theorem mem_flatten_set_self {l : List (List Need)} {i : Nat} (hi : i < l.length) {a : List Need} {p : Need} (h : p ∈ a) :
    p ∈ (l.set i a).flatten := by
  refine List.mem_flatten.mpr ⟨a, ?_, h⟩
  have : (l.set i a)[i]? = some a := List.getElem?_set_self hi
  exact List.mem_of_getElem? this

theorem points_set {k : Kind} {name : Str} {a : ArgTy} {put : a.fld.Val → (row k).Val → (row k).Val} (i : Nat)
    (c : Option (List Kind)) (hi : i < width (row k)) (ha : apt k name a.kind c = true)
    (h : ∀ y v, leafNeeds (row k) (put y v) = (leafNeeds (row k) v).set i (tagged c a.fld y)) :
    Points (assign k name a put) := by
  suffices key : ∀ (y : a.fld.Val) (v : (row k).Val),
      (∀ p, p ∈ needs (row k) (put y v) → p ∈ needs (row k) v ∨ p ∈ tagged c a.fld y) ∧
      ∀ p, p ∈ tagged c a.fld y → p ∈ needs (row k) (put y v) by
    exact ⟨put, c, fun _ _ _ => rfl, fun y v => (key y v).1, fun y v => (key y v).2, ha⟩
  intro y v
  rw [needs_leaf, needs_leaf, h]
  exact ⟨fun p hp => mem_flatten_set hp, fun p hp => mem_flatten_set_self (by rw [leafNeeds_length]; exact hi) hp⟩

theorem points_set2 {k : Kind} {name : Str} {a : ArgTy} {put : a.fld.Val → (row k).Val → (row k).Val} (i i' : Nat)
    (c : Option (List Kind)) (hi : i' < width (row k)) (ha : apt k name a.kind c = true)
    (h : ∀ y v, leafNeeds (row k) (put y v) = ((leafNeeds (row k) v).set i (tagged c a.fld y)).set i' (tagged c a.fld y)) :
    Points (assign k name a put) := by
  suffices key : ∀ (y : a.fld.Val) (v : (row k).Val),
      (∀ p, p ∈ needs (row k) (put y v) → p ∈ needs (row k) v ∨ p ∈ tagged c a.fld y) ∧
      ∀ p, p ∈ tagged c a.fld y → p ∈ needs (row k) (put y v) by
    exact ⟨put, c, fun _ _ _ => rfl, fun y v => (key y v).1, fun y v => (key y v).2, ha⟩
  intro y v
  rw [needs_leaf, needs_leaf, h]
  refine ⟨fun p hp => ?_, fun p hp => mem_flatten_set_self (by rw [List.length_set, leafNeeds_length]; exact hi) hp⟩
  rcases mem_flatten_set hp with hp | hp
  · exact mem_flatten_set hp
  · exact .inr hp

theorem points_push {k : Kind} {name : Str} {a : ArgTy} {put : a.fld.Val → (row k).Val → (row k).Val} (i : Nat)
    (c : Option (List Kind)) (get : (row k).Val → List Nat) {id : a.fld.Val → Nat} (hi : i < width (row k))
    (ha : apt k name a.kind c = true) (hid : ∀ y, a.fld.refs y = [id y])
    (hg : ∀ v, (leafNeeds (row k) v)[i]? = some (needs (.list (.ref c)) (get v)))
    (h : ∀ y v, leafNeeds (row k) (put y v) = (leafNeeds (row k) v).set i (needs (.list (.ref c)) (get v ++ [id y]))) :
    Points (assign k name a put) := by
  suffices key : ∀ (y : a.fld.Val) (v : (row k).Val),
      (∀ p, p ∈ needs (row k) (put y v) → p ∈ needs (row k) v ∨ p ∈ tagged c a.fld y) ∧
      ∀ p, p ∈ tagged c a.fld y → p ∈ needs (row k) (put y v) by
    exact ⟨put, c, fun _ _ _ => rfl, fun y v => (key y v).1, fun y v => (key y v).2, ha⟩
  intro y v
  have hn : needs (.list (.ref c)) (get v ++ [id y]) = needs (.list (.ref c)) (get v) ++ tagged c a.fld y := by
    show (get v ++ [id y]).flatMap _ = (get v).flatMap _ ++ _
    rw [List.flatMap_append, tagged, hid]
    rfl
  rw [needs_leaf, needs_leaf, h, hn]
  refine ⟨fun p hp => ?_, fun p hp =>
    mem_flatten_set_self (by rw [leafNeeds_length]; exact hi) (List.mem_append_right _ hp)⟩
  rcases mem_flatten_set hp with hp | hp
  · exact .inl hp
  · rcases List.mem_append.mp hp with hp | hp
    · exact .inl (List.mem_flatten.mpr ⟨_, List.mem_of_getElem? (hg v), hp⟩)
    · exact .inr hp

/-- every call of the list -/
structure AllPoint (l : List Setter) : Prop where
  all : ∀ s ∈ l, Points s

theorem AllPoint.nil : AllPoint [] := ⟨fun _ h => by cases h⟩
theorem AllPoint.cons {s : Setter} {l : List Setter} (h : Points s) (hl : AllPoint l) : AllPoint (s :: l) :=
  ⟨fun _ hx => by
    rcases List.mem_cons.mp hx with rfl | hx
    · exact h
    · exact hl.all _ hx⟩
theorem AllPoint.append {l l' : List Setter} (h : AllPoint l) (h' : AllPoint l') : AllPoint (l ++ l') :=
  ⟨fun _ hx => (List.mem_append.mp hx).elim (h.all _) (h'.all _)⟩
theorem AllPoint.map {ks : List Kind} {f : Kind → Setter} (h : ∀ k ∈ ks, Points (f k)) : AllPoint (ks.map f) :=
  ⟨fun _ hx => by
    obtain ⟨k, hk, rfl⟩ := List.mem_map.mp hx
    exact h k hk⟩

/-- one call -/
macro "point " i:num : tactic =>
  `(tactic| first
    | exact points_set $i none (by decide +kernel) (by decide +kernel +revert) fun _ _ => rfl
    | exact points_set $i (some _) (by decide +kernel) (by decide +kernel +revert) fun _ _ => rfl)

/-- one call after the other: the positions of the attributes set -/
syntax "points" "[" num,* "]" : tactic
macro_rules
  | `(tactic| points []) => `(tactic| exact AllPoint.nil)
  | `(tactic| points [$i]) => `(tactic| (refine AllPoint.cons ?_ AllPoint.nil; point $i))
  | `(tactic| points [$i, $is,*]) => `(tactic| (refine AllPoint.cons ?_ ?_; (· point $i); (points [$is,*])))

/-- one call that adds to the list at a position -/
macro "pointsPush " i:num " by " g:term : tactic =>
  `(tactic| first
    | exact points_push $i none $g (by decide +kernel) (by decide +kernel +revert) (fun _ => rfl) (fun _ => rfl) fun _ _ => rfl
    | exact points_push $i (some _) $g (by decide +kernel) (by decide +kernel +revert) (fun _ => rfl) (fun _ => rfl)
        fun _ _ => rfl)

theorem wall_points : AllPoint wallCalls := by points [8, 7, 5, 6, 4, 1, 2, 3]
theorem slab_points : AllPoint slabCalls := by points [8, 7, 5, 6, 4, 1, 2, 3]
theorem roof_points : AllPoint roofCalls := by points [8, 7, 5, 6, 4, 1, 2, 3]
theorem opening_points : AllPoint openingCalls := by points [8, 7, 5, 6, 4, 1, 2, 3]
theorem shade_points : AllPoint shadeCalls := by points [8, 7, 5, 6, 4, 1, 2, 3]
theorem window_points : AllPoint windowCalls := by points [8, 9, 10, 11, 7, 5, 6, 4, 1, 2, 3]
theorem door_points : AllPoint doorCalls := by points [8, 9, 10, 11, 7, 5, 6, 4, 1, 2, 3]
theorem building_points : AllPoint buildingCalls := by points [9, 10, 11, 8, 7, 5, 6, 4, 1, 2, 3]
theorem storey_points : AllPoint storeyCalls := by points [8, 7, 5, 6, 4, 1, 2, 3]
theorem tagged_ints (y : List Int) : tagged none (.list .int) y = y.flatMap (needs .int) := by
  induction y with
  | nil => rfl
  | cons _ _ ih => exact ih
theorem site_points : AllPoint siteCalls := by
  refine .cons (points_set 9 none (by decide +kernel) (by decide +kernel) fun y v => ?_) (.cons
    (points_set 10 none (by decide +kernel) (by decide +kernel) fun y v => ?_) ?_)
  · rw [tagged_ints]; rfl
  · rw [tagged_ints]; rfl
  · points [11, 12, 13, 8, 7, 5, 6, 4, 1, 2, 3]
theorem space_points : AllPoint spaceCalls := by points [9, 10, 8, 7, 5, 6, 4, 1, 2, 3]
theorem type_points : AllPoint typeCalls := by
  points [8, 7, 1, 2, 3, 8, 7, 1, 2, 3, 8, 7, 1, 2, 3, 8, 7, 1, 2, 3, 8, 7, 1, 2, 3, 8, 7, 1, 2, 3, 8, 7, 1, 2, 3]
theorem project_points : AllPoint projectCalls := by
  refine .cons (by point 4) (.cons (by point 5)
    (.cons (by point 6) (.cons ?_ ?_)))
  · pointsPush 7 by fun v : ContextV => v.2.2.2.2.1
  · points [8, 1, 2, 3]
theorem history_points : AllPoint historyCalls := by
  refine .cons ?_ (.cons ?_ ?_)
  · exact points_set2 0 5 (some _) (by decide +kernel) (by decide +kernel) fun _ _ => rfl
  · exact points_set2 1 6 (some _) (by decide +kernel) (by decide +kernel) fun _ _ => rfl
  · points [2, 4, 5, 6]
theorem material_points : AllPoint materialCalls := by points [1, 2]
theorem layer_points : AllPoint layerCalls := by points [0, 3, 4, 5, 6]
theorem layerSet_points : AllPoint layerSetCalls := by
  refine .cons (by point 1) (.cons (by point 2)
    (.cons ?_ .nil))
  pointsPush 0 by fun v : LayerSetV => v.1
theorem usage_points : AllPoint usageCalls := by points [4]
theorem constituent_points : AllPoint constituentCalls := by points [2, 0, 1, 4, 3]
theorem constituentSet_points : AllPoint constituentSetCalls := by
  refine .cons (by point 0) (.cons (by point 1)
    (.cons ?_ .nil))
  pointsPush 2 by fun v : ConstituentSetV => v.2.2
theorem singleValue_points : AllPoint singleValueCalls := by points [0, 1]
theorem materialProperties_points : AllPoint materialPropertiesCalls := by
  refine .cons (by point 0) (.cons (by point 1)
    (.cons ?_ .nil))
  pointsPush 2 by fun v : MaterialPropertiesV => v.1.2.2
theorem propertySet_points : AllPoint propertySetCalls := by points [1, 2, 3]
theorem aggregates_points : AllPoint aggregatesCalls := by points [1, 2, 3]
theorem associates_points : AllPoint associatesCalls := by
  refine .append (.map fun k hk => ?_) ?_
  · pointsPush 4 by fun v : (RootV × List Nat) × Nat => v.1.2
  · points [1, 2, 3]
theorem contained_points : AllPoint containedCalls := by
  refine .append (.map fun k hk => ?_) ?_
  · pointsPush 4 by fun v : ManyOneV => v.2.1
  · points [1, 2, 3]
theorem declares_points : AllPoint declaresCalls := by
  refine .append (.map fun k hk => ?_) ?_
  · pointsPush 5 by fun v : RootV × Nat × List Nat => v.2.2
  · points [1, 2, 3]
theorem definesByType_points : AllPoint definesByTypeCalls := by
  refine .append (.map fun k hk => ?_) ?_
  · pointsPush 4 by fun v : ManyOneV => v.2.1
  · points [1, 2, 3]
theorem definesByProperties_points : AllPoint definesByPropertiesCalls := by
  refine .append (.map fun k hk => ?_) ?_
  · pointsPush 4 by fun v : ManyOneV => v.2.1
  · points [1, 2, 3]
theorem voids_points : AllPoint voidsCalls := by points [1, 2, 3]
theorem fills_points : AllPoint fillsCalls := by points [1, 2, 3]
theorem solid_points : AllPoint solidCalls := by points [1]
theorem contextOf_points : AllPoint contextOfCalls := by
  refine .cons (by point 3) (.map fun k hk => ?_)
  point 5
theorem subContext_points : AllPoint subContextCalls := by points [7, 9]
theorem placement_points : AllPoint placementCalls := by points [0]
theorem profile_points : AllPoint profileCalls := by points [1]
theorem rectangle_points : AllPoint rectangleCalls := by
  refine .cons (by point 1) (.map fun k hk => ?_)
  point 2
theorem shape_points : AllPoint shapeCalls := by
  refine .cons (by point 0) (.cons (by point 1)
    (.cons ?_ .nil))
  pointsPush 2 by fun v : ShapeV => v.2.2
theorem representation_points : AllPoint representationCalls := by
  refine .map fun k hk => ?_
  pointsPush 3 by fun v : Nat × Opt (Fin eRepresentationIdentifier.length) × Opt (Fin eRepresentationType.length) × List Nat =>
    v.2.2.2

theorem setters_point : AllPoint setters := by
  have h : ∀ l ∈ [wallCalls, slabCalls, roofCalls, openingCalls, shadeCalls, windowCalls, doorCalls, buildingCalls, storeyCalls,
   siteCalls, spaceCalls, typeCalls, projectCalls, historyCalls, materialCalls, layerCalls, layerSetCalls, usageCalls,
   constituentCalls, constituentSetCalls, singleValueCalls, materialPropertiesCalls, propertySetCalls, aggregatesCalls,
   associatesCalls, containedCalls, declaresCalls, definesByTypeCalls, definesByPropertiesCalls, voidsCalls, fillsCalls,
   solidCalls, contextOfCalls, subContextCalls, placementCalls, profileCalls, rectangleCalls, shapeCalls,
   representationCalls], AllPoint l := by
    simp only [List.forall_mem_cons, List.not_mem_nil, false_imp_iff, implies_true, and_true]
    exact ⟨wall_points, slab_points, roof_points, opening_points, shade_points, window_points, door_points, building_points,
      storey_points, site_points, space_points, type_points, project_points, history_points, material_points, layer_points,
      layerSet_points, usage_points,
      constituent_points, constituentSet_points, singleValue_points, materialProperties_points, propertySet_points,
      aggregates_points, associates_points, contained_points, declares_points, definesByType_points, definesByProperties_points,
      voids_points, fills_points, solid_points, contextOf_points, subContext_points, placement_points, profile_points, rectangle_points,
      shape_points, representation_points⟩
  refine ⟨fun s hs => ?_⟩
  obtain ⟨l, hl, hs⟩ := List.mem_flatten.mp hs
  exact (h l hl).all s hs


end Verif.Setters
