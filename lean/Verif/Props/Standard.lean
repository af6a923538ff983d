import Verif.Proofs.Standard
/-
C42, C43, C44: the attributes, enumeration constants and reference targets of the entity types, compared with IFC4.
-/
namespace Verif.Standard
open Verif

/-! ### C42: which types can be read from lines written as the standard has it -/

/-- the types for which some line of the standard is not recognised -/
def deviating : List Kind :=
  [.ActorRole, .PostalAddress, .TelecomAddress, .OwnerHistory, .Wall, .WallType, .SlabType, .Roof, .RoofType,
   .WindowType, .Project, .SpaceType, .DoorType, .ShadingDeviceType, .IndexedPolyCurve, .PointList2D, .PointList3D,
   .GeometricRepresentationContext, .GeometricRepresentationSubContext, .ShapeRepresentation, .ConversionBasedUnit,
   .SiUnit, .MeasureWithUnit, .DerivedUnit, .MaterialLayer, .MaterialConstituentSet, .PropertySingleValue]

theorem conforms_iff (k : Kind) : conforms k = true ↔ k ∉ deviating := by
  have h : ∀ k ∈ Schema.order, (conforms k = true ↔ k ∉ deviating) := by decide +kernel
  exact h k (mem_order k)

/-- Every line of the standard for a type not in the list, whatever its attributes, is read as that type. -/
theorem standard_line_read {k : Kind} (hk : k ∉ deviating) (hp : k ≠ .PlaneAngleMeasure) {s : Str} (h : StdLine k s) :
    ∃ v, ∀ rest, ReadsAs pEntity s rest (.known k v) := by
  obtain ⟨w, hw, ts, h1, rfl⟩ := h
  have hc := (conforms_iff k).2 hk
  simp only [conforms, Bool.and_eq_true, decide_eq_true_eq] at hc
  obtain ⟨-, v, hv⟩ := flat_lay _ ts (forall₂_of_zip _ _ _ hc.1 hc.2 h1)
  have hkw := keywords_standard k
  have hcl : ∀ k ∈ Schema.order, k ≠ .PlaneAngleMeasure →
      closing (Schema.row k) = cs! ");" := by decide +kernel
  have hcl := hcl k (mem_order k) hp
  have key : ∃ v, Lay (Schema.row k) v (w ++ (commas ts ++ cs! ");")) := by
    generalize Schema.row k = f at *
    cases f with
    | ent kws sp b c =>
      have hcl : c = cs! ");" := hcl
      subst hcl
      have hkw : kws = keywordTexts k := hkw
      subst hkw
      refine ⟨v, w, w, commas ts, cs! ");", hw, hv, rfl, ?_⟩
      cases sp
      · exact ⟨rfl, rfl⟩
      · exact ⟨padded_self _, padded_self _⟩
    | _ => exact absurd hcl (by simp [closing])
  obtain ⟨v, hv⟩ := key
  exact ⟨v, fun rest => entity_readsAs (readsAs_of_lay (row_wf k) hv (by rw [row_isEnt]; simp))⟩

/-- a simple test for texts of an attribute -/
def check : Std → Str → Bool
  | .guid, s => s == cs! "'0000000000000000000000'"
  | .text, s => s == cs! "'x'"
  | .real, s => s == cs! "1."
  | .int, s => s == cs! "1"
  | .truth, s => s == cs! ".T."
  | .time, s => s == cs! "1"
  | .value, s => s == cs! "IFCINTEGER(1)"
  | .segment, s => s == cs! "IFCLINEINDEX((1,2))"
  | .dim, s => s == cs! "3"
  | .word ws, s => ws.any fun w => s == '.' :: (w ++ ['.'])
  | .ref _, s => s == cs! "#1"
  | .coords n, s => n == 2 && s == cs! "(1.,1.)" || n == 3 && s == cs! "(1.,1.,1.)"
  | .list a, s => match s with
    | '(' :: r => check a r.dropLast && s == '(' :: (r.dropLast ++ [')'])
    | _ => false
  | .opt a, s => s == ['$'] || check a s
  | .derived, s => s == ['*']

theorem step_one : StepReal (cs! "1.") :=
  ⟨[], ['1'], [], [], .inl rfl, by intro c hc; simp at hc; subst hc; decide, by simp, by intro c hc; simp at hc, .inl rfl, rfl⟩

theorem step_int1 : Exchange.StepInteger ['1'] :=
  ⟨[], ['1'], .inl rfl, by simp, by intro c hc; simp at hc; subst hc; decide, rfl⟩

theorem check_sound : ∀ (a : Std) (s : Str), check a s = true → StdText a s := by
  intro a
  induction a with
  | guid => intro s h; obtain rfl := eq_of_beq h; exact ⟨cs! "0000000000000000000000", rfl, by decide, by decide⟩
  | text => intro s h; obtain rfl := eq_of_beq h; exact ⟨['x'], rfl, by decide⟩
  | real => intro s h; obtain rfl := eq_of_beq h; exact step_one
  | int => intro s h; obtain rfl := eq_of_beq h; exact ⟨1, by decide, by decide, by decide⟩
  | truth => intro s h; obtain rfl := eq_of_beq h; exact .inl rfl
  | time => intro s h; obtain rfl := eq_of_beq h; exact ⟨1, by decide, by decide, by decide⟩
  | value =>
    intro s h
    obtain rfl := eq_of_beq h
    exact ⟨(cs! "IFCINTEGER", .int), by simp [valueTypes, simpleValues], ['1'], step_int1, rfl⟩
  | segment =>
    intro s h
    obtain rfl := eq_of_beq h
    refine .inl ⟨cs! "(1,2)", ⟨[['1'], ['2']], by decide, ?_, rfl⟩, rfl⟩
    intro e he
    simp only [List.mem_cons, List.not_mem_nil, or_false] at he
    rcases he with rfl | rfl
    · exact step_int1
    · exact ⟨[], ['2'], .inl rfl, by simp, by intro c hc; simp at hc; subst hc; decide, rfl⟩
  | dim => intro s h; obtain rfl := eq_of_beq h; exact .inr (.inr rfl)
  | word ws =>
    intro s h
    obtain ⟨w, hw, h⟩ := List.any_eq_true.1 h
    exact ⟨w, hw, eq_of_beq h⟩
  | ref _ => intro s h; obtain rfl := eq_of_beq h; exact ⟨1, by decide, by decide⟩
  | coords n =>
    intro s h
    simp only [check, Bool.or_eq_true, Bool.and_eq_true, beq_iff_eq] at h
    rcases h with ⟨rfl, rfl⟩ | ⟨rfl, rfl⟩
    · exact ⟨[cs! "1.", cs! "1."], rfl, by intro r hr; simp at hr; subst hr; exact step_one, rfl⟩
    · exact ⟨[cs! "1.", cs! "1.", cs! "1."], rfl, by intro r hr; simp at hr; subst hr; exact step_one, rfl⟩
  | list a ih =>
    intro s h
    unfold check at h
    split at h
    · rename_i r
      simp only [Bool.and_eq_true, beq_iff_eq] at h
      refine ⟨[r.dropLast], ?_, h.2⟩
      intro e he
      simp at he
      subst he
      exact ih _ h.1
    · cases h
  | opt a ih =>
    intro s h
    simp only [check, Bool.or_eq_true, beq_iff_eq] at h
    exact h.imp id (ih s)
  | derived => intro s h; exact eq_of_beq h

/-- attribute texts one by one -/
def checkAll : List (Str × Std) → List Str → Bool
  | [], [] => true
  | a :: as, t :: ts => check a.2 t && checkAll as ts
  | _, _ => false

theorem checkAll_sound : ∀ (as : List (Str × Std)) (ts : List Str), checkAll as ts = true → AttrTexts as ts := by
  intro as
  induction as with
  | nil => intro ts h; cases ts with
    | nil => exact .nil
    | cons _ _ => cases h
  | cons a as ih =>
    intro ts h
    cases ts with
    | nil => cases h
    | cons t ts =>
      simp only [checkAll, Bool.and_eq_true] at h
      exact .cons (check_sound _ _ h.1) (ih ts h.2)

private def g : Str := cs! "'0000000000000000000000'"
private def n : Str := ['$']
private def r : Str := cs! "#1"
private def t : Str := cs! "'x'"
private def d : Str := ['*']

/-- for each type of the list the attribute texts of a line that is lost -/
def lostTexts : Kind → List Str
  | .ActorRole => [cs! ".COMMISSIONINGENGINEER.", n, n]
  | .PostalAddress => [cs! ".OFFICE.", n, n, n, n, n, n, n, n, n]
  | .TelecomAddress => [n, n, n, n, n, n, n, n, n]
  | .OwnerHistory => [r, r, n, cs! ".NOTDEFINED.", n, n, n, cs! "1"]
  | .Wall => [g, n, n, n, n, n, n, n, cs! ".STANDARD."]
  | .WallType => [g, n, n, n, t, n, n, n, n, cs! ".STANDARD."]
  | .SlabType => [g, n, n, n, t, n, n, n, n, cs! ".FLOOR."]
  | .Roof => [g, n, n, n, n, n, n, n, cs! ".FREEFORM."]
  | .RoofType => [g, n, n, n, n, n, n, n, n, cs! ".FREEFORM."]
  | .WindowType => [g, n, n, n, t, n, n, n, n, cs! ".WINDOW.", cs! ".SINGLE_PANEL.", n, n]
  | .Project => [g, n, n, n, n, n, n, n, n]
  | .SpaceType => [g, n, n, n, t, n, n, n, n, cs! ".SPACE.", n]
  | .DoorType => [g, n, n, n, t, n, n, n, n, cs! ".DOOR.", cs! ".REVOLVING.", n, n]
  | .ShadingDeviceType => [g, n, n, n, t, n, n, n, n, cs! ".AWNING."]
  | .IndexedPolyCurve => [r, cs! "(IFCLINEINDEX((1,2)))", n]
  | .PointList2D => [cs! "((1.,1.))"]
  | .PointList3D => [cs! "((1.,1.,1.))"]
  | .GeometricRepresentationContext => [t, n, cs! "3", n, r, n]
  | .GeometricRepresentationSubContext => [t, n, d, d, d, d, r, n, cs! ".MODEL_VIEW.", n]
  | .ShapeRepresentation => [r, t, n, cs! "(#1)"]
  | .ConversionBasedUnit => [r, cs! ".FREQUENCYUNIT.", t, r]
  | .SiUnit => [d, cs! ".LENGTHUNIT.", cs! ".HECTO.", cs! ".METRE."]
  | .MeasureWithUnit => [cs! "IFCINTEGER(1)", r]
  | .DerivedUnit => [cs! "(#1)", cs! ".HEATINGVALUEUNIT.", n]
  | .MaterialLayer => [n, cs! "1.", n, n, n, n, n]
  | .MaterialConstituentSet => [n, n, n]
  | .PropertySingleValue => [t, n, n, n]
  | _ => []

/-- the line made of the texts -/
def lostLine (k : Kind) : Str := (keywordTexts k).headD [] ++ (commas (lostTexts k) ++ cs! ");")

/-- … while each type of the list has a line of the standard that is kept only as the text of an unknown entity. -/
theorem standard_line_lost {k : Kind} (hk : k ∈ deviating) :
    ∃ s, StdLine k s ∧ ∃ t, pEntity s = .ok (.dummy t) [] := by
  have h : ∀ k ∈ deviating, (keywordTexts k).headD [] ∈ keywordTexts k ∧ checkAll (attributes k) (lostTexts k) = true ∧
      pEntity (lostLine k) = .ok (.dummy (lostLine k).dropLast) [] := by decide +kernel
  obtain ⟨h1, h2, h3⟩ := h k hk
  exact ⟨lostLine k, ⟨_, h1, _, checkAll_sound _ _ h2, rfl⟩, _, h3⟩

/-- C42: a type can be read from all lines of the standard exactly if it is none of 27. -/
theorem standard_lines_iff {k : Kind} (hp : k ≠ .PlaneAngleMeasure) :
    (∀ s, StdLine k s → ∃ v, ∀ rest, ReadsAs pEntity s rest (.known k v)) ↔ k ∉ deviating := by
  constructor
  · intro h hk
    obtain ⟨s, h1, t, h2⟩ := standard_line_lost hk
    obtain ⟨v, hv⟩ := h s h1
    obtain ⟨g, r, -, -, h3⟩ := hv []
    rw [List.append_nil, h2] at h3
    cases h3
  · intro hk s h
    exact standard_line_read hk hp h

/-- a slab as other programs write it: the theorem applies -/
example : StdLine .Slab (cs! "IFCSLAB('0000000000000000000000',#1,'x',$,$,#1,#1,'x',.BASESLAB.);") :=
  ⟨cs! "IFCSLAB(", by decide, [cs! "'0000000000000000000000'", cs! "#1", cs! "'x'", cs! "$", cs! "$", cs! "#1",
    cs! "#1", cs! "'x'", cs! ".BASESLAB."], checkAll_sound _ _ (by decide +kernel), by decide⟩
example : Kind.Slab ∉ deviating := by decide

/-- the attributes whose form or constants the readers do not cover, one by one -/
theorem deviating_attributes :
    collect (fun a f => if fits a f then none else some ()) =
      [(.ActorRole, cs! "Role", ()), (.PostalAddress, cs! "Purpose", ()), (.PostalAddress, cs! "Town", ()),
       (.TelecomAddress, cs! "Purpose", ()), (.OwnerHistory, cs! "ChangeAction", ()), (.Wall, cs! "PredefinedType", ()),
       (.WallType, cs! "ApplicableOccurrence", ()), (.SlabType, cs! "ApplicableOccurrence", ()),
       (.Roof, cs! "PredefinedType", ()), (.RoofType, cs! "ApplicableOccurrence", ()),
       (.RoofType, cs! "PredefinedType", ()), (.WindowType, cs! "ApplicableOccurrence", ()),
       (.Project, cs! "RepresentationContexts", ()), (.SpaceType, cs! "ApplicableOccurrence", ()),
       (.DoorType, cs! "ApplicableOccurrence", ()), (.ShadingDeviceType, cs! "ApplicableOccurrence", ()),
       (.IndexedPolyCurve, cs! "Segments", ()), (.GeometricRepresentationContext, cs! "ContextIdentifier", ()),
       (.GeometricRepresentationSubContext, cs! "ContextIdentifier", ()),
       (.ShapeRepresentation, cs! "RepresentationIdentifier", ()), (.ShapeRepresentation, cs! "RepresentationType", ()),
       (.ConversionBasedUnit, cs! "UnitType", ()), (.ConversionBasedUnit, cs! "Name", ()), (.SiUnit, cs! "UnitType", ()),
       (.SiUnit, cs! "Prefix", ()), (.SiUnit, cs! "Name", ()), (.MeasureWithUnit, cs! "ValueComponent", ()),
       (.DerivedUnit, cs! "UnitType", ()), (.MaterialLayer, cs! "IsVentilated", ()),
       (.MaterialConstituentSet, cs! "MaterialConstituents", ()), (.PropertySingleValue, cs! "NominalValue", ())] := by
  decide +kernel

/-- is a mandatory attribute optional for the reader? -/
def lenient : Std → Fld → Option Unit
  | .opt _, _ => none
  | .derived, _ => none
  | _, .opt _ => some ()
  | _, _ => none

/-- the mandatory attributes the readers accept as missing -/
theorem lenient_attributes :
    collect lenient =
      [(.OwnerHistory, cs! "OwningUser", ()), (.OwnerHistory, cs! "OwningApplication", ()),
       (.NonUniformTransform, cs! "LocalOrigin", ()), (.UniformTransform, cs! "LocalOrigin", ()),
       (.ConversionBasedUnit, cs! "Dimensions", ()), (.ConversionBasedUnit, cs! "UnitType", ()),
       (.ConversionBasedUnit, cs! "Name", ()), (.ConversionBasedUnit, cs! "ConversionFactor", ()),
       (.SiUnit, cs! "UnitType", ()), (.Material, cs! "Name", ()), (.PropertySingleValue, cs! "Name", ())] := by
  decide +kernel

/-! ### C43: enumeration constants -/

/-- constants of the standard a reader does not know, and names it knows instead or in addition -/
def wordDiff (a : Std) (f : Fld) : Option (List Str × List Str) :=
  let ws := stdWords a
  let t := fldWords f
  if ws = [] ∨ t = [] then none
  else
    let missing := ws.filter fun w => !t.contains w
    let extra := t.filter fun w => !ws.contains w
    if missing = [] ∧ extra = [] then none else some (missing, extra)

/-- the unit constants with the misspelt ones -/
def electric (s : String) : List Str :=
  ["CAPACITANCE", "CHARGE", "CONDUCTANCE", "CURRENT", "RESISTANCE", "VOLTAGE"].map fun x =>
    '.' :: (s.toList ++ (x.toList ++ cs! "UNIT."))

/-- C43: in all other enumeration attributes the constants are those of the standard. -/
theorem enum_constants :
    collect wordDiff =
      [(.ActorRole, cs! "Role", [cs! ".COMMISSIONINGENGINEER."], [cs! ".COMISSIONENGINEER."]),
       (.OwnerHistory, cs! "ChangeAction", [cs! ".NOTDEFINED."], [cs! ".MODIFIEDADDED.", cs! ".MODIFIEDDELETED."]),
       (.WallType, cs! "PredefinedType", [], [cs! ".RETAININGWALL."]),
       (.Roof, cs! "PredefinedType", [cs! ".FREEFORM."], []),
       (.RoofType, cs! "PredefinedType", [cs! ".FREEFORM."], []),
       (.ConversionBasedUnit, cs! "UnitType", electric "ELECTRIC" ++ [cs! ".FREQUENCYUNIT."], electric "ELCTRIC"),
       (.SiUnit, cs! "UnitType", electric "ELECTRIC" ++ [cs! ".FREQUENCYUNIT."], electric "ELCTRIC"),
       (.SiUnit, cs! "Prefix", [cs! ".HECTO."], []),
       (.SiUnit, cs! "Name", [cs! ".COULOMB."], [cs! ".COULOUMB."]),
       (.DerivedUnit, cs! "UnitType", [cs! ".HEATINGVALUEUNIT."], [])] := by
  decide +kernel

/-- what is written for an electric current unit is not a constant of the standard -/
example : ∃ (i : Fin Schema.eIfcUnitEnum.length), Schema.eIfcUnitEnum.get i = cs! ".ELCTRICCURRENTUNIT." := ⟨⟨7, by decide⟩, by decide⟩

/-! ### C44: targets of checked references -/

/-- types the standard allows and the check refuses, and the other way round -/
def targetDiff (a : Std) (f : Fld) : Option (List Kind × List Kind) :=
  match fldTargets f with
  | none => none
  | some ks =>
    let refused := (stdTargets a).filter fun k => !ks.contains k
    let wrong := ks.filter fun k => !(stdTargets a).contains k
    if refused = [] ∧ wrong = [] then none else some (refused, wrong)

/-- C44: all other checked references have exactly the targets of the standard (among the types of the library). -/
theorem reference_targets :
    collect targetDiff =
      [Kind.Wall, .Slab, .Roof, .Building, .Storey, .Site, .OpeningElement, .Window, .Space, .Door,
       .ShadingDevice].flatMap (fun k =>
        (k, cs! "ObjectPlacement", [], [.Axis3D, .Point3D]) ::
          (if k = .Wall then [(k, cs! "PredefinedType", [], [.WallType])] else []) ++
          (if k = .Window then
            [(.Project, cs! "RepresentationContexts", [.GeometricRepresentationSubContext], [])] else [])) ++
      [(.RectangleProfileDef, cs! "Position", [], [.Axis3D]),
       (.GeometricRepresentationContext, cs! "TrueNorth", [], [.Direction3D]),
       (.GeometricRepresentationSubContext, cs! "WorldCoordinateSystem", [], [.Axis2D, .Axis3D]),
       (.GeometricRepresentationSubContext, cs! "TrueNorth", [], [.Axis2D, .Axis3D]),
       (.ShapeRepresentation, cs! "Items",
         [.IndexedPolyCurve, .Axis2D, .Axis3D, .Direction2D, .Direction3D, .Point2D, .Point3D, .PointList2D, .PointList3D,
          .NonUniformTransform, .UniformTransform], []),
       (.RelAggregates, cs! "RelatingObject", elements ++ [.Space] ++ types, []),
       (.RelAggregates, cs! "RelatedObjects", elements ++ types ++ [.Project], []),
       (.RelAssociatesMaterial, cs! "RelatingMaterial", [.MaterialLayer, .MaterialConstituent], []),
       (.RelContainedInSpatialStructure, cs! "RelatedElements", [.ShadingDevice], [.Site, .Building, .Storey]),
       (.RelContainedInSpatialStructure, cs! "RelatingStructure", [.Space],
         [.OpeningElement, .Slab, .Roof, .Wall, .Window, .Door]),
       (.RelVoidsElement, cs! "RelatingBuildingElement", [.Roof, .Door, .ShadingDevice], [.Building]),
       (.RelFillsElement, cs! "RelatedBuildingElement", [.Roof, .ShadingDevice], [.Building]),
       (.RepresentationMap, cs! "MappingOrigin", [.Axis2D], []),
       (.MeasureWithUnit, cs! "ValueComponent", [], [.PlaneAngleMeasure]),
       (.MeasureWithUnit, cs! "UnitComponent", [.ConversionBasedUnit, .DerivedUnit, .MonetaryUnit], []),
       (.DerivedUnitElement, cs! "Unit", [.ConversionBasedUnit], []),
       (.MaterialProperties, cs! "Material",
         [.MaterialLayer, .MaterialLayerSet, .MaterialConstituent, .MaterialConstituentSet], [])] := by
  decide +kernel

/-- the references that are not checked at all -/
theorem unchecked_references :
    collect (fun _ f => if fldTargets f = none then some () else none) =
      [Kind.WallType, .SlabType, .RoofType, .WindowType, .SpaceType, .DoorType, .ShadingDeviceType].flatMap (fun k =>
        [(k, cs! "ApplicableOccurrence", ()), (k, cs! "HasPropertySets", ())]) ++
      [(.RelAggregates, cs! "OwnerHistory", ()), (.RelAssociatesMaterial, cs! "OwnerHistory", ()),
       (.RelAssociatesMaterial, cs! "RelatedObjects", ()), (.RelContainedInSpatialStructure, cs! "OwnerHistory", ()),
       (.RelDeclares, cs! "OwnerHistory", ()), (.RelDeclares, cs! "RelatedDefinitions", ()),
       (.RelDefinesByType, cs! "OwnerHistory", ()), (.RelDefinesByType, cs! "RelatedObjects", ()),
       (.RelDefinesByType, cs! "RelatingType", ()), (.RelDefinesByProperties, cs! "OwnerHistory", ()),
       (.RelDefinesByProperties, cs! "RelatedObjects", ()),
       (.RelDefinesByProperties, cs! "RelatingPropertyDefinition", ()), (.RelVoidsElement, cs! "OwnerHistory", ()),
       (.RelFillsElement, cs! "OwnerHistory", ()), (.ConversionBasedUnit, cs! "Dimensions", ()),
       (.SiUnit, cs! "Dimensions", ()), (.MaterialProperties, cs! "Properties", ()), (.PropertySet, cs! "OwnerHistory", ()),
       (.PropertySingleValue, cs! "Unit", ())] := by
  decide +kernel

/-- does loading end with a type error? (for witnesses) -/
def isTypeError (s : Str) : Bool :=
  match fromStr s with
  | .verifyError => true
  | _ => false

theorem isTypeError_spec {s : Str} (h : isTypeError s = true) : fromStr s = .verifyError := by
  unfold isTypeError at h
  cases hf : fromStr s with
  | verifyError => rfl
  | _ => rw [hf] at h; cases h

/-- C44, what it means: a roof made of slabs, an axis given as an indexed curve, a roof with an opening, a material
with a layer and things in a space make the whole file unreadable. -/
theorem standard_refs_refused :
    fromStr (miniFile (cs! "#1=IFCROOF('0000000000000000000000',$,$,$,$,$,$,$,$);#2=IFCSLAB('0000000000000000000000',$,$,$,$,$,$,$,.ROOF.);#3=IFCRELAGGREGATES('0000000000000000000000',$,$,$,#1,(#2));")) = .verifyError ∧
    fromStr (miniFile (cs! "#1=IFCCARTESIANPOINTLIST2D(((0.,0.),(1.,0.)),$);#2=IFCINDEXEDPOLYCURVE(#1,$,$);#3=IFCCARTESIANPOINT((0.,0.,0.));#4=IFCAXIS2PLACEMENT3D(#3,$,$);#5=IFCGEOMETRICREPRESENTATIONCONTEXT($,'Model',3,$,#4,$);#6=IFCSHAPEREPRESENTATION(#5,'Axis','Curve2D',(#2));")) = .verifyError ∧
    fromStr (miniFile (cs! "#1=IFCROOF('0000000000000000000000',$,$,$,$,$,$,$,$);#2=IFCOPENINGELEMENT('0000000000000000000000',$,$,$,$,$,$,$,.OPENING.);#3=IFCRELVOIDSELEMENT('0000000000000000000000',$,$,$,#1,#2);")) = .verifyError ∧
    fromStr (miniFile (cs! "#1=IFCMATERIALLAYER($,1.,.F.,$,$,$,$);#2=IFCRELASSOCIATESMATERIAL('0000000000000000000000',$,$,$,(#1),#1);")) = .verifyError ∧
    fromStr (miniFile (cs! "#1=IFCDOOR('0000000000000000000000',$,$,$,$,$,$,$,$,$,$,$,$);#2=IFCSPACE('0000000000000000000000',$,$,$,$,$,$,$,$,$,$);#3=IFCRELCONTAINEDINSPATIALSTRUCTURE('0000000000000000000000',$,$,$,(#1),#2);")) = .verifyError :=
  ⟨isTypeError_spec (by decide +kernel), isTypeError_spec (by decide +kernel), isTypeError_spec (by decide +kernel),
    isTypeError_spec (by decide +kernel), isTypeError_spec (by decide +kernel)⟩

/-- … while a building inside a door and a wall placed by a bare point load without complaint. -/
theorem wrong_refs_accepted :
    loads (miniFile (cs! "#1=IFCDOOR('0000000000000000000000',$,$,$,$,$,$,$,$,$,$,$,$);#2=IFCBUILDING('0000000000000000000000',$,$,$,$,$,$,$,$,$,$,$);#3=IFCRELCONTAINEDINSPATIALSTRUCTURE('0000000000000000000000',$,$,$,(#2),#1);"))
      (fun m => m.idOf .RelContainedInSpatialStructure == [3] && m.idOf .Door == [1] && m.idOf .Building == [2]) = true ∧
    loads (miniFile (cs! "#1=IFCCARTESIANPOINT((0.,0.,0.));#2=IFCWALL('0000000000000000000000',$,$,$,$,#1,$,$,$);"))
      (fun m => m.idOf .Wall == [2] && m.idOf .Point3D == [1]) = true := by
  decide +kernel

end Verif.Standard
