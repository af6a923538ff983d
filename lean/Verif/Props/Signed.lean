import Verif.Props.Plan
import Verif.Proofs.Signed
/-
C72: which kinds of entry a built model has, who signs them and what the relations are called.
-/
namespace Verif.Build
open Verif Schema

variable {W : World} {sc : ProjectScript} {f : Ifc} {log : List Ev}

/-- C72: There is one owner history in a built model.  Every other entry is a resource or a root of one of the kinds listed; a root has
no description, it has that owner history unless it is an aggregation, a property set or a relation of one, and a relation has the
name that belongs to its kind. -/
theorem built_signed (h : run W sc = .val (f, log)) :
    ∃ o, (∃ v, f.data.lookup o = some (.known .OwnerHistory v)) ∧ ∀ i e, f.data.lookup i = some e → i ≠ o →
      ∃ k v, e = .known k v ∧ k ≠ .OwnerHistory ∧ (Signed o k v ∨ k ∈ builtResources) := by
  obtain ⟨o, -, h1, h2⟩ := Sign.ok_run h
  refine ⟨o, h1, fun i e he hi => ?_⟩
  rcases h2 i e he with ⟨k, v, e, hm⟩ | h
  · refine ⟨k, v, e, ?_, hm.imp id And.left⟩
    rcases hm with hm | hm
    · rintro rfl
      exact absurd hm.kind (by decide)
    · exact hm.2
  · exact absurd h hi

/-- C72: A built model has nothing uninterpreted in it. -/
theorem built_interpreted (h : run W sc = .val (f, log)) {i : Nat} {s : Str} : f.data.lookup i ≠ some (.dummy s) := by
  intro he
  obtain ⟨o, ⟨v, ho⟩, hk⟩ := built_signed h
  by_cases hi : i = o
  · rw [hi, ho] at he
    cases he
  · obtain ⟨k, v, e, -⟩ := hk i _ he hi
    cases e

/-- a program that makes an entry of every kind it can -/
def fullScript : ProjectScript := sampleProject
  [⟨cs! "site", zero3, [⟨cs! "house", zero3, [⟨cs! "ground floor", F64.zero, [
      .layer (cs! "brick") (.omitted, F64.one, .ff, .omitted, .omitted, .omitted, .omitted),
      .layerSet [31], .usage 32 ⟨0, by decide⟩ ⟨0, by decide⟩ F64.zero,
      .wallType 32 (cs! "wt") ⟨0, by decide⟩, .windowType (cs! "wit") ⟨0, by decide⟩ ⟨0, by decide⟩,
      .constituent (cs! "glass") (cs! "pane"), .constituentSet [37],
      .slabType 32 (cs! "st") ⟨0, by decide⟩, .roofType 32 (cs! "rt") ⟨0, by decide⟩, .shadeType 32 (cs! "sht") ⟨0, by decide⟩,
      .spaceType (cs! "spt") ⟨0, by decide⟩,
      .verticalWall 33 34 (cs! "w") F64.one F64.one zero3
        [.window 38 35 (cs! "win") F64.one F64.one zero3 zero3, .properties (cs! "ps") [], .transform upOne],
      .horizontalArbitrarySlab 33 39 (cs! "slab") [] zero3 [.rectOpening (cs! "o") F64.one F64.one zero3],
      .arbitrarySlab 33 39 (cs! "slab") [] zero3 zero3 [],
      .roof 33 40 (cs! "roof") [] zero3, .shade 33 41 (cs! "shade") F64.one F64.one zero3,
      .space 42 (cs! "s") [] F64.one zero3]⟩]⟩]⟩]

/-- the kind of an entry -/
def kindOf : Entity → Option Kind
  | .known k _ => some k
  | .dummy _ => none

/-- owner history and name of the roots of a model -/
def signatures (m : DataMap) : List (Opt Nat × Opt Str) :=
  m.filterMap fun ie => match ie.2 with
    | .known k v => ((row k).root v).map fun r => (r.2.1, r.2.2.1)
    | .dummy _ => none

theorem full_kinds : ∃ f log, run sampleWorld fullScript = .val (f, log) ∧
    ∀ k ∈ builtRoots ++ builtResources, some k ∈ f.data.map fun ie => kindOf ie.2 := by
  have h : endsIn (run sampleWorld fullScript) (fun f _ => decide (
      ∀ k ∈ builtRoots ++ builtResources, some k ∈ f.data.map fun ie => kindOf ie.2)) = true := by decide +kernel
  obtain ⟨f, log, hr, hp⟩ := endsIn_spec h
  exact ⟨f, log, hr, of_decide_eq_true hp⟩

/-- C72: Sixteen of the 75 kinds can be in no built model, all others can. -/
theorem built_kinds (k : Kind) : (∃ W sc f log i v, run W sc = .val (f, log) ∧ f.data.lookup i = some (.known k v)) ↔
    k ∉ [Kind.ActorRole, .PostalAddress, .TelecomAddress, .Door, .DoorType, .Direction2D, .UniformTransform, .RelDeclares,
      .ConversionBasedUnit, .DimensionalExponents, .MeasureWithUnit, .PlaneAngleMeasure, .DerivedUnit, .DerivedUnitElement, .MonetaryUnit,
      .MaterialProperties] := by
  constructor
  · rintro ⟨W, sc, f, log, i, v, h, he⟩
    have hk : k ∈ builtRoots ∨ k ∈ builtResources := by
      obtain ⟨o, ⟨w, ho⟩, hk⟩ := built_signed h
      by_cases hi : i = o
      · rw [hi, ho] at he
        cases he
        decide
      · obtain ⟨k', v', e, -, hm⟩ := hk i _ he hi
        cases e
        exact hm.imp Signed.kind id
    revert hk
    cases k <;> decide
  · intro hk
    obtain ⟨f, log, hr, hall⟩ := full_kinds
    have hm : k ∈ builtRoots ++ builtResources := by
      revert hk
      cases k <;> decide
    obtain ⟨⟨i, e⟩, he, hk⟩ := List.mem_map.1 (hall k hm)
    cases e with
    | dummy s => cases hk
    | known k' v =>
      cases hk
      obtain ⟨-, hs, -, -⟩ := Sign.ok_run hr
      exact ⟨_, _, f, log, i, v, hr, DataMap.lookup_of_mem hs he⟩

/-- the roots of that program's model: their owner history and their name -/
def fullSignatures : List (Opt Nat × Opt Str) :=
  [(.custom 6, .custom (cs! "proj")), (.custom 6, .custom (cs! "site")), (.custom 6, .custom (cs! "house")),
    (.custom 6, .custom (cs! "ground floor")), (.omitted, .custom (cs! "StoreyProperties")), (.custom 6, .custom (cs! "wt")),
    (.custom 6, .custom (cs! "wit")), (.custom 6, .custom (cs! "st")), (.custom 6, .custom (cs! "rt")), (.custom 6, .custom (cs! "sht")),
    (.custom 6, .custom (cs! "spt")), (.custom 6, .custom (cs! "w")), (.custom 6, .custom (cs! "OpeningElementOfWindowwin")),
    (.custom 6, .custom (cs! "win")), (.omitted, .custom (cs! "ps")), (.omitted, .custom (cs! "PropertiesLink")),
    (.custom 6, .custom (cs! "slab")), (.custom 6, .custom (cs! "o")), (.custom 6, .custom (cs! "slab")),
    (.custom 6, .custom (cs! "roof")), (.custom 6, .custom (cs! "shade")), (.custom 6, .custom (cs! "s")),
    (.custom 6, .custom (cs! "WallTypeToWall0")), (.custom 6, .custom (cs! "SlabTypeToSlab0")),
    (.custom 6, .custom (cs! "RoofTypeToRoof0")), (.custom 6, .custom (cs! "OpeningElementToWall0")),
    (.custom 6, .custom (cs! "OpeningElementToSlab0")), (.custom 6, .custom (cs! "WindowTypeToWindow0")),
    (.custom 6, .custom (cs! "OpeningElementToWindow0")), (.custom 6, .custom (cs! "ShadingDeviceTypeToShadingDevice0")),
    (.custom 6, .custom (cs! "StoreyToStructureElements")), (.omitted, .custom (cs! "StoreySpacesLink")),
    (.omitted, .custom (cs! "BuildingStoreysLink")), (.omitted, .custom (cs! "SiteBuildingsLink")),
    (.custom 6, .custom (cs! "Material33ToWalls")), (.custom 6, .custom (cs! "Material33ToSlab")),
    (.custom 6, .custom (cs! "Material33ToRoof")), (.custom 6, .custom (cs! "Material38ToWindows")),
    (.custom 6, .custom (cs! "Material32ToWallType")), (.custom 6, .custom (cs! "Material32ToSlabType")),
    (.custom 6, .custom (cs! "Material32ToRoofType")), (.custom 6, .custom (cs! "Material33ToShadingDevices")),
    (.custom 6, .custom (cs! "Material32ToShadingDeviceType")), (.omitted, .custom (cs! "ProjectSitesLink"))]

example : ∃ f log, run sampleWorld fullScript = .val (f, log) ∧ signatures f.data = fullSignatures := by
  have h : endsIn (run sampleWorld fullScript) (fun f _ => decide (signatures f.data = fullSignatures)) = true := by decide +kernel
  obtain ⟨f, log, hr, hp⟩ := endsIn_spec h
  exact ⟨f, log, hr, of_decide_eq_true hp⟩

/-- digits of a number -/
example : Decimal (cs! "105") 105 ∧ Decimal (cs! "0") 0 ∧ ¬ Decimal (cs! "007") 7 ∧ ¬ Decimal (cs! "7") 8 ∧ ¬ Decimal [] 0 := by
  unfold Decimal
  decide

end Verif.Build
