import Verif.Proofs.Saved
/-
Helper lemmas: what a function making values puts into the value, as far as writing it is concerned.
-/
namespace Verif.Setters
open Verif Schema DataMap

/-- the parts of the arguments -/
def gathered : (ps : Pars) → Took ps → List Mark
  | [], _ => []
  | p :: ps, y => marks p.2.fld y.1 ++ gathered ps y.2

/-- the parts of a value made are those of the arguments and some that come back as they are -/
structure Gathers (c : Ctor) : Prop where
  gathers : ∃ own : List Mark, (∀ g y, marks (row c.kind) (c.make g y) = own ++ gathered c.pars y) ∧
    ∀ a ∈ own, a.Writable ∧ a.Exact

theorem gathers {k : Kind} {name : Str} {ps : Pars} {make : Guid → Took ps → (row k).Val} (own : List Mark)
    (h : ∀ g y, marks (row k) (make g y) = own ++ gathered ps y) (ha : ∀ a ∈ own, a.Writable ∧ a.Exact) :
    Gathers ⟨k, name, ps, make⟩ := ⟨own, h, ha⟩

theorem fine_model : ∀ a ∈ [Mark.str (cs! "Model")], a.Writable ∧ a.Exact := by
  intro a ha
  rw [List.mem_singleton.mp ha]
  exact ⟨show '\'' ∉ cs! "Model" by decide, show ∀ c ∈ umlauts, ¬ escapeBody c <:+: cs! "Model" by decide +kernel⟩

structure AllGather (l : List Ctor) : Prop where
  all : ∀ c ∈ l, Gathers c

theorem AllGather.nil : AllGather [] := ⟨fun _ h => by cases h⟩
theorem AllGather.cons {c : Ctor} {l : List Ctor} (h : Gathers c) (hl : AllGather l) : AllGather (c :: l) :=
  ⟨fun _ hx => by
    rcases List.mem_cons.mp hx with rfl | hx
    · exact h
    · exact hl.all _ hx⟩
theorem AllGather.map {ks : List Kind} {f : Kind → Ctor} (h : ∀ k ∈ ks, Gathers (f k)) : AllGather (ks.map f) :=
  ⟨fun _ hx => by
    obtain ⟨k, hk, rfl⟩ := List.mem_map.mp hx
    exact h k hk⟩

theorem element_gathers : AllGather elementCtors := by
  refine .cons (gathers [] (fun _ _ => rfl) (by simp)) ?_
  refine .cons (gathers [] (fun _ _ => rfl) (by simp)) ?_
  refine .cons (gathers [] (fun _ _ => rfl) (by simp)) ?_
  refine .cons (gathers [] (fun _ _ => rfl) (by simp)) ?_
  refine .cons (gathers [] (fun _ _ => rfl) (by simp)) ?_
  refine .cons (gathers [] (fun _ _ => rfl) (by simp)) ?_
  refine .cons (gathers [] (fun _ _ => rfl) (by simp)) ?_
  exact .nil
theorem structure_gathers : AllGather structureCtors := by
  refine .cons (gathers [] (fun _ _ => rfl) (by simp)) ?_
  refine .cons (gathers [] (fun _ _ => rfl) (by simp)) ?_
  refine .cons (gathers [] (fun _ _ => rfl) (by simp)) ?_
  refine .cons (gathers [] (fun _ _ => rfl) (by simp)) ?_
  exact .nil
theorem type_gathers : AllGather typeCtors := by
  refine .cons (gathers [] (fun _ _ => rfl) (by simp)) ?_
  refine .cons (gathers [] (fun _ _ => rfl) (by simp)) ?_
  refine .cons (gathers [] (fun _ _ => rfl) (by simp)) ?_
  refine .cons (gathers [] (fun _ _ => rfl) (by simp)) ?_
  refine .cons (gathers [] (fun _ _ => rfl) (by simp)) ?_
  refine .cons (gathers [] (fun _ _ => rfl) (by simp)) ?_
  refine .cons (gathers [] (fun _ _ => rfl) (by simp)) ?_
  exact .nil
theorem other_gathers : AllGather otherObjectCtors := by
  refine .cons (gathers [] (fun _ _ => rfl) (by simp)) ?_
  refine .cons (gathers [] (fun _ _ => rfl) (by simp)) ?_
  refine .cons (gathers [] (fun _ _ => rfl) (by simp)) ?_
  refine .cons (gathers [] (fun _ y => ?_) (by simp)) ?_
  · obtain ⟨a, b, c, -⟩ := y
    cases a <;> cases c <;> rfl
  refine .cons (gathers [] (fun _ _ => rfl) (by simp)) ?_
  refine .cons (gathers [] (fun _ _ => rfl) (by simp)) ?_
  exact .nil
theorem material_gathers : AllGather materialCtors := by
  refine .cons (gathers [] (fun _ _ => rfl) (by simp)) ?_
  refine .cons (gathers [] (fun _ _ => rfl) (by simp)) ?_
  refine .cons (gathers [] (fun _ _ => rfl) (by simp)) ?_
  refine .cons (gathers [] (fun _ _ => rfl) (by simp)) ?_
  refine .cons (gathers [] (fun _ _ => rfl) (by simp)) ?_
  refine .cons (gathers [] (fun _ _ => rfl) (by simp)) ?_
  exact .nil
theorem property_gathers : AllGather propertyCtors := by
  refine .cons (gathers [] (fun _ y => ?_) (by simp)) ?_
  · exact congrArg ([Mark.str y.1] ++ ·) (List.append_nil _).symm
  refine .cons (gathers [] (fun _ y => ?_) (by simp)) ?_
  · obtain ⟨a, b, c, -⟩ := y
    cases c <;> rfl
  refine .cons (gathers [] (fun _ y => rfl) (by simp)) ?_
  exact .nil
theorem unit_gathers : AllGather unitCtors := by
  refine .cons (gathers [] (fun _ y => ?_) (by simp)) ?_
  · obtain ⟨a, b, c, -⟩ := y
    cases a <;> cases b <;> rfl
  refine .cons (gathers [] (fun _ y => (List.append_nil _).symm) (by simp)) ?_
  exact .nil
theorem aggregates_gathers : Gathers aggregatesCtor :=
  gathers [] (fun _ y => congrArg ([Mark.str y.1, Mark.ref y.2.1] ++ ·) (List.append_nil _).symm) (by simp)
theorem declares_gathers : Gathers declaresCtor := gathers [] (fun _ _ => rfl) (by simp)
theorem map_gathers : Gathers mapCtor := gathers [] (fun _ _ => rfl) (by simp)
theorem associates_gathers (k : Kind) (hk : k ∈ relatableMaterials) : Gathers (associatesCtor k) :=
  gathers [] (fun _ _ => rfl) (by simp)
theorem contained_gathers (k : Kind) (hk : k ∈ structures) : Gathers (containedCtor k) :=
  gathers [] (fun _ _ => rfl) (by simp)
theorem definesByType_gathers (k : Kind) (hk : k ∈ Schema.order) : Gathers (definesByTypeCtor k) :=
  gathers [] (fun _ _ => rfl) (by simp)
theorem definesByProperties_gathers (k : Kind) (hk : k ∈ Schema.order) : Gathers (definesByPropertiesCtor k) :=
  gathers [] (fun _ _ => rfl) (by simp)
theorem voids_gathers (k : Kind) (hk : k ∈ structures) : Gathers (voidsCtor k) :=
  gathers [] (fun _ _ => rfl) (by simp)
theorem fills_gathers (k : Kind) (hk : k ∈ structures) : Gathers (fillsCtor k) :=
  gathers [] (fun _ _ => rfl) (by simp)
theorem mapped_gathers (k : Kind) (hk : k ∈ transforms) : Gathers (mappedCtor k) :=
  gathers [] (fun _ _ => rfl) (by simp)
theorem vector_gathers : AllGather vectorCtors := by
  refine .cons (gathers [] (fun _ _ => rfl) (by simp)) ?_
  refine .cons (gathers [] (fun _ _ => rfl) (by simp)) ?_
  refine .cons (gathers [] (fun _ _ => rfl) (by simp)) ?_
  refine .cons (gathers [] (fun _ _ => rfl) (by simp)) ?_
  refine .cons (gathers [] (fun _ y => ?_) (by simp)) ?_
  · rfl
  refine .cons (gathers [] (fun _ y => ?_) (by simp)) ?_
  · rfl
  exact .nil
theorem axis_gathers : AllGather axisCtors := by
  refine .cons (gathers [] (fun _ _ => rfl) (by simp)) ?_
  refine .cons (gathers [] (fun _ _ => rfl) (by simp)) ?_
  exact .nil
theorem context_gathers (k : Kind) (hk : k ∈ axisPlacements) : Gathers (contextCtor k) :=
  gathers [.str (cs! "Model")] (fun _ _ => rfl) fine_model
theorem subContext_gathers : Gathers subContextCtor := gathers [.str (cs! "Model")] (fun _ _ => rfl) fine_model
theorem placement_gathers (k : Kind) (hk : k ∈ axisPlacements) : Gathers (placementCtor k) :=
  gathers [] (fun _ _ => rfl) (by simp)
theorem polyline_gathers (k : Kind) (hk : k ∈ cartesianPoints) : Gathers (polylineCtor k) :=
  gathers [] (fun _ _ => (List.append_nil _).symm) (by simp)
theorem indexed_gathers (k : Kind) (hk : k ∈ pointLists) : Gathers (indexedCtor k) :=
  gathers [] (fun _ _ => rfl) (by simp)
theorem uniform_gathers : Gathers uniformCtor :=
  gathers [] (fun _ _ => rfl) (by simp)
theorem nonUniform_gathers : Gathers nonUniformCtor :=
  gathers [] (fun _ _ => rfl) (by simp)
theorem profile_gathers (k : Kind) (hk : k ∈ curves) : Gathers (profileCtor k) :=
  gathers [] (fun _ _ => rfl) (by simp)
theorem rectangle_gathers : Gathers rectangleCtor := gathers [] (fun _ _ => rfl) (by simp)
theorem solid_gathers (k : Kind) (hk : k ∈ profileDefs) : Gathers (solidCtor k) :=
  gathers [] (fun _ _ => rfl) (by simp)
theorem shape_gathers : Gathers shapeCtor := gathers [] (fun _ _ => rfl) (by simp)
theorem representation_gathers : Gathers representationCtor := gathers [] (fun _ _ => rfl) (by simp)

theorem ctors_gather : AllGather ctors := by
  have h : ∀ l ∈ [elementCtors, structureCtors, typeCtors, otherObjectCtors, materialCtors, propertyCtors, unitCtors,
   [aggregatesCtor, declaresCtor, mapCtor], relatableMaterials.map associatesCtor, structures.map containedCtor,
   Schema.order.map definesByTypeCtor, Schema.order.map definesByPropertiesCtor, structures.map voidsCtor,
   structures.map fillsCtor, transforms.map mappedCtor,
   vectorCtors, axisCtors, axisPlacements.map contextCtor, [subContextCtor], axisPlacements.map placementCtor,
   cartesianPoints.map polylineCtor, pointLists.map indexedCtor, [uniformCtor, nonUniformCtor], curves.map profileCtor,
   [rectangleCtor], profileDefs.map solidCtor, [shapeCtor, representationCtor]], AllGather l := by
    simp only [List.forall_mem_cons, List.not_mem_nil, false_imp_iff, implies_true, and_true]
    exact ⟨element_gathers, structure_gathers, type_gathers, other_gathers, material_gathers, property_gathers, unit_gathers,
      .cons aggregates_gathers (.cons declares_gathers (.cons map_gathers .nil)), .map associates_gathers, .map contained_gathers,
      .map definesByType_gathers, .map definesByProperties_gathers, .map voids_gathers, .map fills_gathers, .map mapped_gathers,
      vector_gathers, axis_gathers, .map context_gathers, .cons subContext_gathers .nil, .map placement_gathers,
      .map polyline_gathers, .map indexed_gathers, .cons uniform_gathers (.cons nonUniform_gathers .nil), .map profile_gathers,
      .cons rectangle_gathers .nil, .map solid_gathers, .cons shape_gathers (.cons representation_gathers .nil)⟩
  refine ⟨fun c hc => ?_⟩
  obtain ⟨l, hl, hc⟩ := List.mem_flatten.mp hc
  exact (h l hl).all c hc

end Verif.Setters
