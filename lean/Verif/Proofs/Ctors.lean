import Verif.Spec.Ctors
import Verif.Proofs.Setters
/-
Helper lemmas: where the attribute texts of a value just made come from.
-/
namespace Verif.Setters
open Verif Schema

/-- the texts of the arguments as taken -/
def tookTexts : (ps : Pars) → Took ps → List Str
  | [], _ => []
  | p :: ps, y => p.2.fld.print y.1 :: tookTexts ps y.2

def pick (g : Guid) (ts : List Str) : Src → Str
  | .drawn => Fld.guid.print g
  | .par i => ts.getD i []
  | .fixed s => s

/-- the positions have the sources of the attributes; every parameter has an attribute of its own -/
def sourced (k : Kind) (ns : List Str) (src : List Src) : Bool :=
  decide (src.take (names k).length = (names k).map (source k ns)) && decide (∀ p ∈ ns, attrFor k p ∈ names k) &&
    decide (ns.map (attrFor k)).Nodup

/-- the texts of a value made come from these sources -/
structure Makes (c : Ctor) : Prop where
  makes : ∃ (ns : List Str) (src : List Src), c.pars.map (·.1) = ns ∧ sourced c.kind ns src = true ∧
    ∀ g y, texts (row c.kind) (c.make g y) = src.map (pick g (tookTexts c.pars y))

theorem makes {k : Kind} {name : Str} {ps : Pars} {make : Guid → Took ps → (row k).Val} (ns : List Str) (src : List Src)
    (hn : ps.map (·.1) = ns) (hs : sourced k ns src = true)
    (ht : ∀ g y, texts (row k) (make g y) = src.map (pick g (tookTexts ps y))) : Makes ⟨k, name, ps, make⟩ :=
  ⟨⟨ns, src, hn, hs, ht⟩⟩

/-- every one of the list makes its values so -/
structure AllMake (l : List Ctor) : Prop where
  all : ∀ c ∈ l, Makes c

theorem AllMake.nil : AllMake [] := ⟨fun _ h => by cases h⟩
theorem AllMake.cons {c : Ctor} {l : List Ctor} (h : Makes c) (hl : AllMake l) : AllMake (c :: l) :=
  ⟨fun _ hx => by
    rcases List.mem_cons.mp hx with rfl | hx
    · exact h
    · exact hl.all _ hx⟩
theorem AllMake.map {ks : List Kind} {f : Kind → Ctor} (h : ∀ k, Makes (f k)) : AllMake (ks.map f) :=
  ⟨fun _ hx => by
    obtain ⟨k, -, rfl⟩ := List.mem_map.mp hx
    exact h k⟩

def dollar : Src := .fixed (cs! "$")
def empty : Src := .fixed (cs! "()")
def star : Src := .fixed (cs! "*")

theorem element_makes : AllMake elementCtors := by
  refine .cons (makes [cs! "name"] [.drawn, dollar, .par 0, dollar, dollar, dollar, dollar, dollar, dollar] rfl (by
      decide +kernel) fun _ _ => rfl) ?_
  refine .cons (makes [cs! "name"] [.drawn, dollar, .par 0, dollar, dollar, dollar, dollar, dollar, dollar] rfl (by
      decide +kernel) fun _ _ => rfl) ?_
  refine .cons (makes [cs! "name"] [.drawn, dollar, .par 0, dollar, dollar, dollar, dollar, dollar, dollar] rfl (by
      decide +kernel) fun _ _ => rfl) ?_
  refine .cons (makes [cs! "name"] [.drawn, dollar, .par 0, dollar, dollar, dollar, dollar, dollar, dollar] rfl (by
      decide +kernel) fun _ _ => rfl) ?_
  refine .cons (makes [cs! "name"] [.drawn, dollar, .par 0, dollar, dollar, dollar, dollar, dollar, dollar] rfl (by
      decide +kernel) fun _ _ => rfl) ?_
  refine .cons (makes [cs! "name"] [.drawn, dollar, .par 0, dollar, dollar, dollar, dollar, dollar, dollar, dollar, dollar,
      dollar, dollar] rfl (by decide +kernel) fun _ _ => rfl) ?_
  refine .cons (makes [cs! "name"] [.drawn, dollar, .par 0, dollar, dollar, dollar, dollar, dollar, dollar, dollar, dollar,
      dollar, dollar] rfl (by decide +kernel) fun _ _ => rfl) ?_
  exact .nil
theorem structure_makes : AllMake structureCtors := by
  refine .cons (makes [cs! "name"] [.drawn, dollar, .par 0, dollar, dollar, dollar, dollar, dollar, dollar, dollar, dollar,
      dollar] rfl (by decide +kernel) fun _ _ => rfl) ?_
  refine .cons (makes [cs! "name"] [.drawn, dollar, .par 0, dollar, dollar, dollar, dollar, dollar, dollar, dollar] rfl (by
      decide +kernel) fun _ _ => rfl) ?_
  refine .cons (makes [cs! "name"] [.drawn, dollar, .par 0, dollar, dollar, dollar, dollar, dollar, dollar, dollar, dollar,
      dollar, dollar, dollar] rfl (by decide +kernel) fun _ _ => rfl) ?_
  refine .cons (makes [cs! "name"] [.drawn, dollar, .par 0, dollar, dollar, dollar, dollar, dollar, dollar, dollar, dollar] rfl
      (by decide +kernel) fun _ _ => rfl) ?_
  exact .nil
theorem type_makes : AllMake typeCtors := by
  refine .cons (makes [cs! "name", cs! "predefined_type"] [.drawn, dollar, .par 0, dollar, dollar, dollar, dollar, dollar, dollar,
      .par 1] rfl (by decide +kernel) fun _ _ => rfl) ?_
  refine .cons (makes [cs! "name", cs! "predefined_type"] [.drawn, dollar, .par 0, dollar, dollar, dollar, dollar, dollar, dollar,
      .par 1] rfl (by decide +kernel) fun _ _ => rfl) ?_
  refine .cons (makes [cs! "name", cs! "predefined_type"] [.drawn, dollar, .par 0, dollar, dollar, dollar, dollar, dollar, dollar,
      .par 1] rfl (by decide +kernel) fun _ _ => rfl) ?_
  refine .cons (makes [cs! "name", cs! "predefined_type", cs! "partitioning_type"] [.drawn, dollar, .par 0, dollar, dollar,
      dollar, dollar, dollar, dollar, .par 1, .par 2, dollar, dollar] rfl (by decide +kernel) fun _ _ => rfl) ?_
  refine .cons (makes [cs! "name", cs! "predefined_type", cs! "operation_type"] [.drawn, dollar, .par 0, dollar, dollar, dollar,
      dollar, dollar, dollar, .par 1, .par 2, dollar, dollar] rfl (by decide +kernel) fun _ _ => rfl) ?_
  refine .cons (makes [cs! "name", cs! "predefined_type"] [.drawn, dollar, .par 0, dollar, dollar, dollar, dollar, dollar, dollar,
      .par 1, dollar] rfl (by decide +kernel) fun _ _ => rfl) ?_
  refine .cons (makes [cs! "name", cs! "predefined_type"] [.drawn, dollar, .par 0, dollar, dollar, dollar, dollar, dollar, dollar,
      .par 1] rfl (by decide +kernel) fun _ _ => rfl) ?_
  exact .nil
theorem other_makes : AllMake otherObjectCtors := by
  refine .cons (makes [cs! "name"] [.drawn, dollar, .par 0, dollar, dollar, dollar, dollar, empty, dollar] rfl (by decide +kernel)
      fun _ _ => rfl) ?_
  refine .cons (makes [cs! "change_action", cs! "creation_date"] [dollar, dollar, dollar, .par 0, dollar, dollar, dollar, .par 1]
      rfl (by decide +kernel) fun _ _ => rfl) ?_
  refine .cons (makes [cs! "application_developer", cs! "version", cs! "application_full_name", cs! "application_identifier"]
      [.par 0, .par 1, .par 2, .par 3] rfl (by decide +kernel) fun _ _ => rfl) ?_
  refine .cons (makes [cs! "id", cs! "name", cs! "description"] [.par 0, .par 1, .par 2, dollar, dollar] rfl (by decide +kernel)
      fun _ _ => rfl) ?_
  refine .cons (makes [cs! "the_person", cs! "the_organization"] [.par 0, .par 1, dollar] rfl (by decide +kernel) fun _ _ => rfl) ?_
  refine .cons (makes [] [dollar, dollar, dollar, dollar, dollar, dollar, dollar, dollar] rfl (by decide +kernel) fun _ _ => rfl) ?_
  exact .nil
theorem material_makes : AllMake materialCtors := by
  refine .cons (makes [cs! "name"] [.par 0, dollar, dollar] rfl (by decide +kernel) fun _ _ => rfl) ?_
  refine .cons (makes [cs! "layer_thickness", cs! "is_ventilated"] [dollar, .par 0, .par 1, dollar, dollar, dollar, dollar] rfl
      (by decide +kernel) fun _ _ => rfl) ?_
  refine .cons (makes [] [empty, dollar, dollar] rfl (by decide +kernel) fun _ _ => rfl) ?_
  refine .cons (makes [cs! "spatial_element_structure", cs! "layer_set_direction", cs! "direction_sense", cs!
      "offset_from_reference_line"] [.par 0, .par 1, .par 2, .par 3, dollar] rfl (by decide +kernel) fun _ _ => rfl) ?_
  refine .cons (makes [cs! "material"] [dollar, dollar, .par 0, dollar, dollar] rfl (by decide +kernel) fun _ _ => rfl) ?_
  refine .cons (makes [] [dollar, dollar, empty] rfl (by decide +kernel) fun _ _ => rfl) ?_
  exact .nil
theorem property_makes : AllMake propertyCtors := by
  refine .cons (makes [cs! "name", cs! "properties"] [.drawn, dollar, .par 0, dollar, .par 1] rfl (by decide +kernel) fun _ _ =>
      rfl) ?_
  refine .cons (makes [cs! "name", cs! "value", cs! "unit"] [.par 0, dollar, .par 1, .par 2] rfl (by decide +kernel) fun _ _ =>
      rfl) ?_
  refine .cons (makes [cs! "name", cs! "properties", cs! "material"] [.par 0, dollar, .par 1, .par 2] rfl (by decide +kernel) fun
      _ _ => rfl) ?_
  exact .nil
theorem unit_makes : AllMake unitCtors := by
  refine .cons (makes [cs! "unit_type", cs! "prefix", cs! "name"] [star, .par 0, .par 1, .par 2] rfl (by decide +kernel) fun _ _
      => rfl) ?_
  refine .cons (makes [cs! "units"] [.par 0] rfl (by decide +kernel) fun _ _ => rfl) ?_
  exact .nil
theorem aggregates_makes : Makes aggregatesCtor :=
  makes [cs! "name", cs! "parent", cs! "children"] [.drawn, dollar, .par 0, dollar, .par 1, .par 2] rfl (by
    decide +kernel) fun _ _ => rfl
theorem declares_makes : Makes declaresCtor :=
  makes [cs! "name", cs! "project"] [.drawn, dollar, .par 0, dollar, .par 1, empty] rfl (by decide +kernel) fun _ _ =>
    rfl
theorem map_makes : Makes mapCtor :=
  makes [cs! "origin", cs! "representation"] [.par 0, .par 1] rfl (by decide +kernel) fun _ _ => rfl
theorem associates_makes (k : Kind) : Makes (associatesCtor k) :=
  makes [cs! "name", cs! "material_layer_set"] [.drawn, dollar, .par 0, dollar, empty, .par 1] rfl (by decide +kernel)
    fun _ _ => rfl
theorem contained_makes (k : Kind) : Makes (containedCtor k) :=
  makes [cs! "name", cs! "relating_structure"] [.drawn, dollar, .par 0, dollar, empty, .par 1] rfl (by decide +kernel)
    fun _ _ => rfl
theorem definesByType_makes (k : Kind) : Makes (definesByTypeCtor k) :=
  makes [cs! "name", cs! "relating_type"] [.drawn, dollar, .par 0, dollar, empty, .par 1] rfl (by decide +kernel) fun
    _ _ => rfl
theorem definesByProperties_makes (k : Kind) : Makes (definesByPropertiesCtor k) :=
  makes [cs! "name", cs! "relating_propert_definition"] [.drawn, dollar, .par 0, dollar, empty, .par 1] rfl (by
    decide +kernel) fun _ _ => rfl
theorem voids_makes (k : Kind) : Makes (voidsCtor k) :=
  makes [cs! "name", cs! "relating_building_element", cs! "relating_opening_element"] [.drawn, dollar, .par 0, dollar,
    .par 1, .par 2] rfl (by decide +kernel) fun _ _ => rfl
theorem fills_makes (k : Kind) : Makes (fillsCtor k) :=
  makes [cs! "name", cs! "relating_opening_element", cs! "relating_building_element"] [.drawn, dollar, .par 0, dollar,
    .par 1, .par 2] rfl (by decide +kernel) fun _ _ => rfl
theorem mapped_makes (k : Kind) : Makes (mappedCtor k) :=
  makes [cs! "source", cs! "target"] [.par 0, .par 1] rfl (by decide +kernel) fun _ _ => rfl
theorem vector_makes : AllMake vectorCtors := by
  refine .cons (makes [cs! "value"] [.par 0] rfl (by decide +kernel) fun _ _ => rfl) ?_
  refine .cons (makes [cs! "value"] [.par 0] rfl (by decide +kernel) fun _ _ => rfl) ?_
  refine .cons (makes [cs! "value"] [.par 0] rfl (by decide +kernel) fun _ _ => rfl) ?_
  refine .cons (makes [cs! "value"] [.par 0] rfl (by decide +kernel) fun _ _ => rfl) ?_
  refine .cons (makes [cs! "coord_list"] [.par 0, dollar] rfl (by decide +kernel) fun _ _ => rfl) ?_
  refine .cons (makes [cs! "coord_list"] [.par 0, dollar] rfl (by decide +kernel) fun _ _ => rfl) ?_
  exact .nil
theorem axis_makes : AllMake axisCtors := by
  refine .cons (makes [cs! "point"] [.par 0, dollar] rfl (by decide +kernel) fun _ _ => rfl) ?_
  refine .cons (makes [cs! "point"] [.par 0, dollar, dollar] rfl (by decide +kernel) fun _ _ => rfl) ?_
  exact .nil
theorem context_makes (k : Kind) : Makes (contextCtor k) :=
  makes [cs! "world_coord_system", cs! "coord_space_dimension"] [.fixed (cs! "'Body'"), .fixed (cs! "'Model'"), .par
    1, dollar, .par 0, dollar] rfl (by decide +kernel) fun _ _ => rfl
theorem subContext_makes : Makes subContextCtor :=
  makes [cs! "context", cs! "target_view"] [.fixed (cs! "'Body'"), .fixed (cs! "'Model'"), star, star, star, star,
    .par 0, dollar, .par 1, dollar] rfl (by decide +kernel) fun _ _ => rfl
theorem placement_makes (k : Kind) : Makes (placementCtor k) :=
  makes [cs! "relative_placement"] [dollar, .par 0] rfl (by decide +kernel) fun _ _ => rfl
theorem polyline_makes (k : Kind) : Makes (polylineCtor k) :=
  makes [cs! "points"] [.par 0] rfl (by decide +kernel) fun _ _ => rfl
theorem indexed_makes (k : Kind) : Makes (indexedCtor k) :=
  makes [cs! "point_list"] [.par 0, dollar, dollar] rfl (by decide +kernel) fun _ _ => rfl
theorem uniform_makes : Makes uniformCtor :=
  makes [cs! "axis_x", cs! "axis_y", cs! "local_origin", cs! "scale", cs! "axis_z"] [.par 0, .par 1, .par 2, .par 3,
    .par 4] rfl (by decide +kernel) fun _ _ => rfl
theorem nonUniform_makes : Makes nonUniformCtor :=
  makes [cs! "axis_x", cs! "axis_y", cs! "local_origin", cs! "scale", cs! "axis_z", cs! "scale_y", cs! "scale_z"]
    [.par 0, .par 1, .par 2, .par 3, .par 4, .par 5, .par 6] rfl (by decide +kernel) fun _ _ => rfl
theorem profile_makes (k : Kind) : Makes (profileCtor k) :=
  makes [cs! "profile_type", cs! "outer_curve"] [.par 0, dollar, .par 1] rfl (by decide +kernel) fun _ _ => rfl
theorem rectangle_makes : Makes rectangleCtor :=
  makes [cs! "profile_type", cs! "x_dim", cs! "y_dim"] [.par 0, dollar, dollar, .par 1, .par 2] rfl (by
    decide +kernel) fun _ _ => rfl
theorem solid_makes (k : Kind) : Makes (solidCtor k) :=
  makes [cs! "swept_area", cs! "extruded_direction", cs! "depth"] [.par 0, dollar, .par 1, .par 2] rfl (by
    decide +kernel) fun _ _ => rfl
theorem shape_makes : Makes shapeCtor :=
  makes [] [dollar, dollar, empty] rfl (by decide +kernel) fun _ _ => rfl
theorem representation_makes : Makes representationCtor :=
  makes [cs! "context", cs! "identifier", cs! "repr_type"] [.par 0, .par 1, .par 2, empty] rfl (by decide +kernel) fun
    _ _ => rfl

theorem ctors_make : AllMake ctors := by
  have h : ∀ l ∈ [elementCtors, structureCtors, typeCtors, otherObjectCtors, materialCtors, propertyCtors, unitCtors,
   [aggregatesCtor, declaresCtor, mapCtor], relatableMaterials.map associatesCtor, structures.map containedCtor,
   Schema.order.map definesByTypeCtor, Schema.order.map definesByPropertiesCtor, structures.map voidsCtor,
   structures.map fillsCtor, transforms.map mappedCtor,
   vectorCtors, axisCtors, axisPlacements.map contextCtor, [subContextCtor], axisPlacements.map placementCtor,
   cartesianPoints.map polylineCtor, pointLists.map indexedCtor, [uniformCtor, nonUniformCtor], curves.map profileCtor,
   [rectangleCtor], profileDefs.map solidCtor, [shapeCtor, representationCtor]], AllMake l := by
    simp only [List.forall_mem_cons, List.not_mem_nil, false_imp_iff, implies_true, and_true]
    exact ⟨element_makes, structure_makes, type_makes, other_makes, material_makes, property_makes, unit_makes,
      .cons aggregates_makes (.cons declares_makes (.cons map_makes .nil)), .map associates_makes, .map contained_makes,
      .map definesByType_makes, .map definesByProperties_makes, .map voids_makes, .map fills_makes, .map mapped_makes,
      vector_makes, axis_makes, .map context_makes, .cons subContext_makes .nil, .map placement_makes,
      .map polyline_makes, .map indexed_makes, .cons uniform_makes (.cons nonUniform_makes .nil), .map profile_makes,
      .cons rectangle_makes .nil, .map solid_makes, .cons shape_makes (.cons representation_makes .nil)⟩
  refine ⟨fun c hc => ?_⟩
  obtain ⟨l, hl, hc⟩ := List.mem_flatten.mp hc
  exact (h l hl).all c hc

end Verif.Setters
