import Verif.Proofs.Typed
/-
Helper lemmas: what references a value just made has.
-/
namespace Verif.Setters
open Verif Schema DataMap

/-- the references of the arguments, each with what it has to lead to -/
def pairUp : (ps : Pars) → List (Option (List Kind)) → Took ps → List Need
  | [], _, _ => []
  | p :: ps, cs, y => tagged (cs.headD none) p.2.fld y.1 ++ pairUp ps cs.tail y.2

/-- arguments of the parameter are allowed unless they are some of those that are not -/
def aptPar (k : Kind) (p : Str × Par) (c : Option (List Kind)) : Bool :=
  match p.2.kind with
  | none => c = wanted k p.1
  | some j => mistyped k p.1 j == match c with
    | none => false
    | some ks => !decide (j ∈ ks)

def aptAll (k : Kind) : Pars → List (Option (List Kind)) → Bool
  | [], _ => true
  | p :: ps, cs => aptPar k p (cs.headD none) && aptAll k ps cs.tail

/-- the references of a value made are those of the arguments -/
structure Refers (c : Ctor) : Prop where
  refers : ∃ cs, (∀ g y, needs (row c.kind) (c.make g y) = pairUp c.pars cs y) ∧ aptAll c.kind c.pars cs = true

theorem refers {k : Kind} {name : Str} {ps : Pars} {make : Guid → Took ps → (row k).Val} (cs : List (Option (List Kind)))
    (h : ∀ g y, needs (row k) (make g y) = pairUp ps cs y) (ha : aptAll k ps cs = true) : Refers ⟨k, name, ps, make⟩ :=
  ⟨cs, h, ha⟩

theorem tagged_list (c d : Option (List Kind)) (l : List Nat) :
    tagged c (.list (.ref d)) l = needs (.list (.ref c)) l := by
  induction l with
  | nil => rfl
  | cons n l ih => exact congrArg ((c, n) :: ·) ih

theorem tagged_list_nil (c d : Option (List Kind)) (l : List Nat) :
    needs (.list (.ref c)) l = tagged c (.list (.ref d)) l ++ [] := by rw [tagged_list, List.append_nil]

structure AllRefer (l : List Ctor) : Prop where
  all : ∀ c ∈ l, Refers c

theorem AllRefer.nil : AllRefer [] := ⟨fun _ h => by cases h⟩
theorem AllRefer.cons {c : Ctor} {l : List Ctor} (h : Refers c) (hl : AllRefer l) : AllRefer (c :: l) :=
  ⟨fun _ hx => by
    rcases List.mem_cons.mp hx with rfl | hx
    · exact h
    · exact hl.all _ hx⟩
theorem AllRefer.map {ks : List Kind} {f : Kind → Ctor} (h : ∀ k ∈ ks, Refers (f k)) : AllRefer (ks.map f) :=
  ⟨fun _ hx => by
    obtain ⟨k, hk, rfl⟩ := List.mem_map.mp hx
    exact h k hk⟩

theorem element_refers : AllRefer elementCtors := by
  refine .cons (refers [] (fun _ _ => rfl) (by decide +kernel)) ?_
  refine .cons (refers [] (fun _ _ => rfl) (by decide +kernel)) ?_
  refine .cons (refers [] (fun _ _ => rfl) (by decide +kernel)) ?_
  refine .cons (refers [] (fun _ _ => rfl) (by decide +kernel)) ?_
  refine .cons (refers [] (fun _ _ => rfl) (by decide +kernel)) ?_
  refine .cons (refers [] (fun _ _ => rfl) (by decide +kernel)) ?_
  refine .cons (refers [] (fun _ _ => rfl) (by decide +kernel)) ?_
  exact .nil
theorem structure_refers : AllRefer structureCtors := by
  refine .cons (refers [] (fun _ _ => rfl) (by decide +kernel)) ?_
  refine .cons (refers [] (fun _ _ => rfl) (by decide +kernel)) ?_
  refine .cons (refers [] (fun _ _ => rfl) (by decide +kernel)) ?_
  refine .cons (refers [] (fun _ _ => rfl) (by decide +kernel)) ?_
  exact .nil
theorem type_refers : AllRefer typeCtors := by
  refine .cons (refers [] (fun _ _ => rfl) (by decide +kernel)) ?_
  refine .cons (refers [] (fun _ _ => rfl) (by decide +kernel)) ?_
  refine .cons (refers [] (fun _ _ => rfl) (by decide +kernel)) ?_
  refine .cons (refers [] (fun _ _ => rfl) (by decide +kernel)) ?_
  refine .cons (refers [] (fun _ _ => rfl) (by decide +kernel)) ?_
  refine .cons (refers [] (fun _ _ => rfl) (by decide +kernel)) ?_
  refine .cons (refers [] (fun _ _ => rfl) (by decide +kernel)) ?_
  exact .nil
theorem other_refers : AllRefer otherObjectCtors := by
  refine .cons (refers [] (fun _ _ => rfl) (by decide +kernel)) ?_
  refine .cons (refers [] (fun _ _ => rfl) (by decide +kernel)) ?_
  refine .cons (refers [some _] (fun _ _ => rfl) (by decide +kernel)) ?_
  refine .cons (refers [] (fun _ y => ?_) (by decide +kernel)) ?_
  · obtain ⟨a, b, c, -⟩ := y
    cases a <;> cases c <;> rfl
  refine .cons (refers [some _, some _] (fun _ _ => rfl) (by decide +kernel)) ?_
  refine .cons (refers [] (fun _ _ => rfl) (by decide +kernel)) ?_
  exact .nil
theorem material_refers : AllRefer materialCtors := by
  refine .cons (refers [] (fun _ _ => rfl) (by decide +kernel)) ?_
  refine .cons (refers [] (fun _ _ => rfl) (by decide +kernel)) ?_
  refine .cons (refers [] (fun _ _ => rfl) (by decide +kernel)) ?_
  refine .cons (refers [some _] (fun _ _ => rfl) (by decide +kernel)) ?_
  refine .cons (refers [some _] (fun _ _ => rfl) (by decide +kernel)) ?_
  refine .cons (refers [] (fun _ _ => rfl) (by decide +kernel)) ?_
  exact .nil
theorem property_refers : AllRefer propertyCtors := by
  refine .cons (refers [none, some [.PropertySingleValue]] (fun _ y => ?_) (by decide +kernel)) ?_
  · show _ = tagged (some [.PropertySingleValue]) (.list (.ref none)) y.2.1 ++ []
    rw [tagged_list, List.append_nil]
    rfl
  refine .cons (refers [none, none, none] (fun _ y => ?_) (by decide +kernel)) ?_
  · obtain ⟨a, b, c, -⟩ := y
    cases c <;> rfl
  refine .cons (refers [none, none, some [.Material]] (fun _ y => ?_) (by decide +kernel)) ?_
  · exact congrArg (· ++ [(some [.Material], y.2.2.1)]) (tagged_list none none y.2.1).symm
  exact .nil
theorem unit_refers : AllRefer unitCtors := by
  refine .cons (refers [] (fun _ y => ?_) (by decide +kernel)) ?_
  · obtain ⟨a, b, c, -⟩ := y
    cases a <;> cases b <;> rfl
  refine .cons (refers [some _] (fun _ y => tagged_list_nil _ none y.1) (by decide +kernel)) ?_
  exact .nil
theorem aggregates_refers : Refers aggregatesCtor := by
  refine refers [none, some [.Project, .Site, .Building, .Storey], some [.Site, .Building, .Storey, .Space]]
    (fun g y => ?_) (by decide +kernel)
  exact congrArg ((some [.Project, .Site, .Building, .Storey], y.2.1) :: ·) (tagged_list_nil _ none y.2.2.1)
theorem declares_refers : Refers declaresCtor := refers [none, some _] (fun _ _ => rfl) (by decide +kernel)
theorem map_refers : Refers mapCtor := refers [some _, some _] (fun _ _ => rfl) (by decide +kernel)
theorem associates_refers (k : Kind) (hk : k ∈ relatableMaterials) : Refers (associatesCtor k) :=
  refers [none, some _] (fun _ _ => rfl) (by decide +kernel +revert)
theorem contained_refers (k : Kind) (hk : k ∈ structures) : Refers (containedCtor k) :=
  refers [none, some _] (fun _ _ => rfl) (by decide +kernel +revert)
theorem definesByType_refers (k : Kind) (hk : k ∈ Schema.order) : Refers (definesByTypeCtor k) :=
  refers [none, none] (fun _ _ => rfl) (by decide +kernel +revert)
theorem definesByProperties_refers (k : Kind) (hk : k ∈ Schema.order) : Refers (definesByPropertiesCtor k) :=
  refers [none, none] (fun _ _ => rfl) (by decide +kernel +revert)
theorem voids_refers (k : Kind) (hk : k ∈ structures) : Refers (voidsCtor k) :=
  refers [none, some _, some _] (fun _ _ => rfl) (by decide +kernel +revert)
theorem fills_refers (k : Kind) (hk : k ∈ structures) : Refers (fillsCtor k) :=
  refers [none, some _, some _] (fun _ _ => rfl) (by decide +kernel +revert)
theorem mapped_refers (k : Kind) (hk : k ∈ transforms) : Refers (mappedCtor k) :=
  refers [some _, some _] (fun _ _ => rfl) (by decide +kernel +revert)
theorem tagged_vec2 (y : List Fld.vec2.Val) : tagged none (.list .vec2) y = needs (.list .vec2) y := by
  induction y with
  | nil => rfl
  | cons _ _ ih => exact ih
theorem tagged_vec3 (y : List Fld.vec3.Val) : tagged none (.list .vec3) y = needs (.list .vec3) y := by
  induction y with
  | nil => rfl
  | cons _ _ ih => exact ih
theorem vector_refers : AllRefer vectorCtors := by
  refine .cons (refers [] (fun _ _ => rfl) (by decide +kernel)) ?_
  refine .cons (refers [] (fun _ _ => rfl) (by decide +kernel)) ?_
  refine .cons (refers [] (fun _ _ => rfl) (by decide +kernel)) ?_
  refine .cons (refers [] (fun _ _ => rfl) (by decide +kernel)) ?_
  refine .cons (refers [] (fun _ y => ?_) (by decide +kernel)) ?_
  · show _ = tagged none (.list .vec2) y.1 ++ []
    rw [tagged_vec2]
    rfl
  refine .cons (refers [] (fun _ y => ?_) (by decide +kernel)) ?_
  · show _ = tagged none (.list .vec3) y.1 ++ []
    rw [tagged_vec3]
    rfl
  exact .nil
theorem axis_refers : AllRefer axisCtors := by
  refine .cons (refers [some _] (fun _ _ => rfl) (by decide +kernel)) ?_
  refine .cons (refers [some _] (fun _ _ => rfl) (by decide +kernel)) ?_
  exact .nil
theorem context_refers (k : Kind) (hk : k ∈ axisPlacements) : Refers (contextCtor k) :=
  refers [some _] (fun _ _ => rfl) (by decide +kernel +revert)
theorem subContext_refers : Refers subContextCtor := refers [some _] (fun _ _ => rfl) (by decide +kernel)
theorem placement_refers (k : Kind) (hk : k ∈ axisPlacements) : Refers (placementCtor k) :=
  refers [some _] (fun _ _ => rfl) (by decide +kernel +revert)
theorem polyline_refers (k : Kind) (hk : k ∈ cartesianPoints) : Refers (polylineCtor k) := by
  refine refers [some [.Point2D, .Point3D]] (fun _ y => ?_) (by decide +kernel +revert)
  show _ = tagged (some [.Point2D, .Point3D]) (.list (.ref none)) y.1 ++ []
  rw [tagged_list, List.append_nil]
  rfl
theorem indexed_refers (k : Kind) (hk : k ∈ pointLists) : Refers (indexedCtor k) :=
  refers [some _] (fun _ _ => rfl) (by decide +kernel +revert)
theorem uniform_refers : Refers uniformCtor :=
  refers [some _, some _, some _, none, some _] (fun _ _ => rfl) (by decide +kernel)
theorem nonUniform_refers : Refers nonUniformCtor :=
  refers [some _, some _, some _, none, some _] (fun _ _ => rfl) (by decide +kernel)
theorem profile_refers (k : Kind) (hk : k ∈ curves) : Refers (profileCtor k) :=
  refers [none, some _] (fun _ _ => rfl) (by decide +kernel +revert)
theorem rectangle_refers : Refers rectangleCtor := refers [] (fun _ _ => rfl) (by decide +kernel)
theorem solid_refers (k : Kind) (hk : k ∈ profileDefs) : Refers (solidCtor k) :=
  refers [some _, some _] (fun _ _ => rfl) (by decide +kernel +revert)
theorem shape_refers : Refers shapeCtor := refers [] (fun _ _ => rfl) (by decide +kernel)
theorem representation_refers : Refers representationCtor := refers [some _] (fun _ _ => rfl) (by decide +kernel)

theorem ctors_refer : AllRefer ctors := by
  have h : ∀ l ∈ [elementCtors, structureCtors, typeCtors, otherObjectCtors, materialCtors, propertyCtors, unitCtors,
   [aggregatesCtor, declaresCtor, mapCtor], relatableMaterials.map associatesCtor, structures.map containedCtor,
   Schema.order.map definesByTypeCtor, Schema.order.map definesByPropertiesCtor, structures.map voidsCtor,
   structures.map fillsCtor, transforms.map mappedCtor,
   vectorCtors, axisCtors, axisPlacements.map contextCtor, [subContextCtor], axisPlacements.map placementCtor,
   cartesianPoints.map polylineCtor, pointLists.map indexedCtor, [uniformCtor, nonUniformCtor], curves.map profileCtor,
   [rectangleCtor], profileDefs.map solidCtor, [shapeCtor, representationCtor]], AllRefer l := by
    simp only [List.forall_mem_cons, List.not_mem_nil, false_imp_iff, implies_true, and_true]
    exact ⟨element_refers, structure_refers, type_refers, other_refers, material_refers, property_refers, unit_refers,
      .cons aggregates_refers (.cons declares_refers (.cons map_refers .nil)), .map associates_refers, .map contained_refers,
      .map definesByType_refers, .map definesByProperties_refers, .map voids_refers, .map fills_refers, .map mapped_refers,
      vector_refers, axis_refers, .map context_refers, .cons subContext_refers .nil, .map placement_refers,
      .map polyline_refers, .map indexed_refers, .cons uniform_refers (.cons nonUniform_refers .nil), .map profile_refers,
      .cons rectangle_refers .nil, .map solid_refers, .cons shape_refers (.cons representation_refers .nil)⟩
  refine ⟨fun c hc => ?_⟩
  obtain ⟨l, hl, hc⟩ := List.mem_flatten.mp hc
  exact (h l hl).all c hc

end Verif.Setters
