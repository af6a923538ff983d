import Verif.Proofs.FollowReport
import Verif.Props.Report
/-
C59: the reading functions on any model whatever.  C60: the report of the example on any model whatever.
-/
namespace Verif.Follow
open Verif Schema Mapping Report Extract

variable {m : DataMap}

/-! ### C59: geometry -/

/-- `mappings` of a spatial axis placement gives its location and the directions it names. -/
theorem axis_found {a : (row .Axis3D).Val} {r : Axis3} : axis3 m a = .val r ↔ IsAxis3 m a r := axis3_iff

/-- `mappings` of a rectangle gives its sides and its position, in the plane or in space. -/
theorem rectangle_found {kind : Fin eProfileType.length} {name : Opt Str} {a : Opt Nat} {x y : F64} {r : Option Axis × F64 × F64} :
    rectangle m (kind, name, a, x, y) = .val r ↔ Maybe (AxisAt m) a r.1 ∧ r.2 = (x, y) := rectangle_iff

/-- `mappings` of any other outline gives its kind and the points of its curve, in order. -/
theorem outline_found {kind : Fin eProfileType.length} {name : Opt Str} {c : Nat} {r : Fin eProfileType.length × Points} :
    arbitrary m (kind, name, c) = .val r ↔ r.1 = kind ∧ CurveAt m c r.2 := arbitrary_iff

/-- `mappings` of an extruded solid gives its outline, position, direction and depth. -/
theorem solid_found {v : (row .ExtrudedAreaSolid).Val} {r : Mapping.Solid} : solid m v = .val r ↔ IsSolid m v r := solid_iff

/-- the operator of a mapped item, uniform or not -/
theorem transform_found {i : Nat} {t : Mapping.Transform} : Mapping.transform m i = .val t ↔ TransformAt m i t := transform_iff

/-- `mappings` of a mapped item gives the origin of the map, the representation mapped and the operator. -/
theorem mapped_found {v : (row .MappedItem).Val} {o : Axis3} {rep : (row .ShapeRepresentation).Val} {t : Mapping.Transform} :
    mapped m v = .val ((o, rep), t) ↔ IsMapped m v o rep t := mapped_iff

/-! ### C59: products -/

theorem context_found {v : (row .ShapeRepresentation).Val} {r : (row .GeometricRepresentationContext).Val} :
    parentContext m v = .val r ↔ ContextOf m v r := parentContext_iff

theorem shapes_found {p : Product} {l : List (row .ShapeRepresentation).Val} : shapes m p = .val l ↔ ShapesOf m p l := shapes_iff

theorem place_found {p : Product} {r : Option V3} : localPlacement m p = .val r ↔ PlaceOf m p r := localPlacement_iff

/-- `direction` gives the direction of the first solid there is among the items, or right inside a mapped one. -/
theorem direction_found {p : Product} {r : Option V3} : direction m p = .val r ↔ DirectionOf m p r := direction_iff

/-- A function that returns exactly what is found panics exactly if nothing can be found. -/
theorem panics_iff {α : Type} {x : Ret α} {R : α → Prop} (h : ∀ a, x = .val a ↔ R a) : x = .panic ↔ ∀ a, ¬ R a := by
  constructor
  · rintro rfl a ha
    cases (h a).mpr ha
  · intro hn
    cases x with
    | val a => exact absurd ((h a).mp rfl) (hn a)
    | panic => rfl

theorem solid_panics {v : (row .ExtrudedAreaSolid).Val} : solid m v = .panic ↔ ∀ r, ¬ IsSolid m v r := panics_iff fun _ => solid_found

theorem mapped_panics {v : (row .MappedItem).Val} : mapped m v = .panic ↔ ∀ o rep t, ¬ IsMapped m v o rep t :=
  (panics_iff fun r => mapped_found (o := r.1.1) (rep := r.1.2) (t := r.2)).trans ⟨fun h o rep t => h ((o, rep), t), fun h _ => h _ _ _⟩

theorem direction_panics {p : Product} : direction m p = .panic ↔ ∀ r, ¬ DirectionOf m p r := panics_iff fun _ => direction_found

theorem place_panics {p : Product} : localPlacement m p = .panic ↔ ∀ r, ¬ PlaceOf m p r := panics_iff fun _ => place_found

theorem axis_panics {a : (row .Axis3D).Val} : axis3 m a = .panic ↔ ∀ r, ¬ IsAxis3 m a r := panics_iff fun _ => axis_found

theorem rectangle_panics {kind : Fin eProfileType.length} {name : Opt Str} {a : Opt Nat} {x y : F64} :
    rectangle m (kind, name, a, x, y) = .panic ↔ ∀ r, ¬ Maybe (AxisAt m) a r :=
  (panics_iff fun _ => rectangle_found).trans ⟨fun h r hr => h (r, x, y) ⟨hr, rfl⟩, fun h r hr => h r.1 hr.1⟩

theorem outline_panics {kind : Fin eProfileType.length} {name : Opt Str} {c : Nat} :
    arbitrary m (kind, name, c) = .panic ↔ ∀ r, ¬ CurveAt m c r :=
  (panics_iff fun _ => outline_found).trans ⟨fun h r hr => h (kind, r) ⟨rfl, hr⟩, fun h r hr => h r.2 hr.2⟩

theorem transform_panics {i : Nat} : Mapping.transform m i = .panic ↔ ∀ t, ¬ TransformAt m i t := panics_iff fun _ => transform_found

theorem context_panics {v : (row .ShapeRepresentation).Val} : parentContext m v = .panic ↔ ∀ r, ¬ ContextOf m v r :=
  panics_iff fun _ => context_found

theorem shapes_panics {p : Product} : shapes m p = .panic ↔ ∀ l, ¬ ShapesOf m p l := panics_iff fun _ => shapes_found

/-! ### C60: the report -/

/-- What is printed about items: they come to an end with these paragraphs exactly if the paragraphs are what the items
say.  The number only bounds the depth of the calls. -/
theorem items_said {level : Nat} {ids : List Nat} {l : List Line} :
    (∃ n, printItems m n level ids = .val l) ↔ Says m level 0 ids l := items_iff

/-- what is printed about one object -/
theorem object_said {i : Nat} {e : Entity} {a : About} : (∃ n, printStructure m n i e = .val a) ↔ Tells m i e a := structure_iff

/-- what is printed about one storey -/
theorem storey_said {st : Nat} {x : OfStorey} : (∃ n, printStorey m n st = .val x) ↔ StoreyAt m st x := storey_iff

/-- The example comes to an end without a panic exactly if there is such a report, and it prints this report. -/
theorem model_reported {x : Printed} : (∃ n, printHierarchy m n = .val x) ↔ Reported m x := report_iff

/-- There is at most one report. -/
theorem report_once {x y : Printed} (hx : Reported m x) (hy : Reported m y) : x = y := by
  obtain ⟨n, hn⟩ := model_reported.mpr hx
  obtain ⟨n', hn'⟩ := model_reported.mpr hy
  have hs : Steady fun n => printHierarchy m n :=
    steady_bind (steady_const _) fun _ => steady_bind (steady_const _) fun _ => steady_bind (steady_const _) fun _ =>
      steady_bind (steady_mapL (F := fun n (x : Nat × (row .Storey).Val) => printStorey m n x.1) (fun x => steady_storey x.1) _) fun _ => steady_const _
  injection (hs _ _ _ (Nat.le_max_left n n') hn).symm.trans (hs _ _ _ (Nat.le_max_right n n') hn')

/-! ### A case -/

/-- A slab with two representations.  The first has only something unknown; the second a mapped item with a uniform
operator whose origin is written in place, and a solid with a position and a rectangle placed in space. -/
def sampleFile : Str := treeFile (cs! "#5=IFCSLAB('0000000000000000000000',$,$,$,$,#30,#10,$,$);#10=IFCPRODUCTDEFINITIONSHAPE($,$,(#11,#16));#11=IFCSHAPEREPRESENTATION(#12,$,$,(#17));#16=IFCSHAPEREPRESENTATION(#12,$,$,(#17,#40,#20));#12=IFCGEOMETRICREPRESENTATIONCONTEXT($,$,3,$,#13,$);#13=IFCAXIS2PLACEMENT3D(#14,$,#18);#14=IFCCARTESIANPOINT((0.,0.5,1.));#15=IFCDIRECTION((0.,0.,1.));#17=IFCUNKNOWN(1);#18=IFCDIRECTION((1.,0.,0.));#20=IFCEXTRUDEDAREASOLID(#21,#13,#18,0.5);#21=IFCRECTANGLEPROFILEDEF(.CURVE.,$,#13,1.,0.5);#30=IFCLOCALPLACEMENT($,#13);#40=IFCMAPPEDITEM(#41,#42);#41=IFCREPRESENTATIONMAP(#13,#43);#42=IFCCARTESIANTRANSFORMATIONOPERATOR3D(#18,$,#14,0.5,#15);#43=IFCSHAPEREPRESENTATION(#12,$,$,(#17,#44));#44=IFCEXTRUDEDAREASOLID(#45,$,#15,1.);#45=IFCARBITRARYCLOSEDPROFILEDEF(.AREA.,$,#46);#46=IFCPOLYLINE((#14,#47,#14));#47=IFCCARTESIANPOINT((1.,0.,0.));")

deriving instance DecidableEq for Mapping.Profile, Mapping.Solid, Report.Shape, Report.Line, Report.About, Report.OfStorey,
  Report.Printed

/-- the axis placement #13 -/
def axis13 : Axis3 := ⟨(F64.zero, F64.oneHalf, F64.one), none, some (F64.one, F64.zero, F64.zero)⟩

/-- The report on it: the mapped item, in it the solid as item 1 after something unknown, and the solid.  The numbers of
the items run on from one representation to the next, so the two are items 2 and 3. -/
def sampleReport : Printed := ⟨1, 1, 1, [⟨0, [(some .Slab, .element [
  ⟨5, 2, .mapped axis13 ⟨some (F64.zero, F64.oneHalf, F64.one), some (F64.one, F64.zero, F64.zero), none,
    some (F64.zero, F64.zero, F64.one), some F64.oneHalf, none⟩⟩,
  ⟨8, 1, .solid ⟨.arbitrary (⟨1, by decide⟩, .d3 [(F64.zero, F64.oneHalf, F64.one), (F64.one, F64.zero, F64.zero),
    (F64.zero, F64.oneHalf, F64.one)]), none, (F64.zero, F64.zero, F64.one), F64.one⟩⟩,
  ⟨5, 3, .solid ⟨.rectangle (some (.d3 axis13), F64.one, F64.oneHalf), some axis13, (F64.one, F64.zero, F64.zero),
    F64.oneHalf⟩⟩])], []⟩]⟩

/-- the report, and where the slab is and points to -/
def sampleSaid (m : DataMap) : Bool :=
  (match printHierarchy m 4 with
    | .val x => decide (x = sampleReport)
    | _ => false) &&
  match (m.lookup 5).bind productOf with
  | some p => decide (localPlacement m p = .val (some (F64.zero, F64.oneHalf, F64.one))) &&
    decide (direction m p = .val (some (F64.zero, F64.zero, F64.one)))
  | none => false

theorem sample_said : loads sampleFile sampleSaid = true := by decide +kernel

/-- so there is a report, a place and a direction in the sense of the specification -/
example : ∃ f p, fromStr sampleFile = .ok f ∧ Reported f.data sampleReport ∧ (f.data.lookup 5).bind productOf = some p ∧
    PlaceOf f.data p (some (F64.zero, F64.oneHalf, F64.one)) ∧ DirectionOf f.data p (some (F64.zero, F64.zero, F64.one)) := by
  obtain ⟨f, hf, h⟩ := loads_spec sample_said
  unfold sampleSaid at h
  rw [Bool.and_eq_true] at h
  cases hp : (f.data.lookup 5).bind productOf with
  | none => rw [hp] at h; cases h.2
  | some p =>
    rw [hp] at h
    obtain ⟨h1, h2⟩ := h
    obtain ⟨h2, h3⟩ := Bool.and_eq_true _ _ ▸ h2
    refine ⟨f, p, hf, model_reported.mp ⟨4, ?_⟩, hp, place_found.mp (of_decide_eq_true h2), direction_found.mp (of_decide_eq_true h3)⟩
    cases hx : printHierarchy f.data 4 with
    | val x => rw [hx] at h1; rw [of_decide_eq_true h1]
    | panic => rw [hx] at h1; cases h1
    | more => rw [hx] at h1; cases h1

end Verif.Follow
