import Lean.Elab.Tactic.Basic
import Verif.Spec.BuildingExample
import Verif.Proofs.Saved
import Verif.Props.Report
import Verif.Props.Accepted
/-
C63: what the example program `building.rs` makes.
-/
namespace Verif.Setters
open Verif Schema Report
open Verif.Build (numeral)

/-- `Eq.refl` for both sides of an equation, left to the kernel to check -/
elab "by_kernel" : tactic => do
  let g ← Lean.Elab.Tactic.getMainGoal
  match (← Lean.instantiateMVars (← g.getType)).eq? with
  | some (α, a, _) => g.assign (Lean.mkApp2 (Lean.mkConst ``Eq.refl [← Lean.Meta.getLevel α]) α a)
  | none => throwError "not an equation"

variable (g : Nat → Guid) (t₀ t₁ : Stamp)

/-! ### Texts -/

def markFine : Mark → Bool
  | .ref n => decide (n < 2 ^ 64)
  | .str s => decide ('\'' ∉ s)
  | .real _ => true
  | _ => false

def entityFine : Entity → Bool
  | .known k v => (marks (row k) v).all markFine
  | .dummy _ => false

theorem entityFine_writable {e : Entity} (h : entityFine e = true) : e.Writable := by
  cases e with
  | dummy w => cases h
  | known k v =>
    refine (writable_marks (row k) v).mpr fun a ha => ?_
    have := List.all_eq_true.mp h a ha
    cases a with
    | ref n => exact (of_decide_eq_true this : n < 2 ^ 64)
    | str s => exact (of_decide_eq_true this : '\'' ∉ s)
    | real r => trivial
    | _ => cases this

theorem building_fine : (buildingData rootHalf g t₀ t₁).all (fun ie => entityFine ie.2) = true := by by_kernel

theorem building_ids : (buildingData rootHalf g t₀ t₁).map (·.1) = List.range' 1 44 := by by_kernel

theorem building_verified : verifyAll (buildingData rootHalf g t₀ t₁) = .good := by by_kernel

theorem building_reread : (buildingData rootHalf g t₀ t₁).map (fun ie => (ie.1, ie.2.reread)) =
    buildingData rootHalfRead g t₀ t₁ := by by_kernel

/-! ### The program -/

/-- `building.rs` ends, and makes the 44 entities of the specification. -/
theorem building_example : buildingExample g t₀ t₁ = .val (buildingData rootHalf g t₀ t₁) := by by_kernel

/-- Its file is read back as the model it was written from, but for the fraction of the second in the header and the last
digit of the root of one half in the two directions by which the wall is turned. -/
theorem building_loads {W : Build.World} (hc : W.GoodClock) :
    fromStr (showIfc ⟨Build.defaultHeader W, buildingData rootHalf g t₀ t₁⟩) =
      .ok ⟨{ Build.defaultHeader W with time := { W.clock with nanos := 0 } }, buildingData rootHalfRead g t₀ t₁⟩ := by
  have hids := building_ids g t₀ t₁
  have hs : DataMap.Sorted (buildingData rootHalf g t₀ t₁) := by
    have h : ((buildingData rootHalf g t₀ t₁).map (·.1)).Pairwise (· < ·) := hids ▸ List.pairwise_lt_range'
    exact List.pairwise_map.mp h
  rw [saved_verdict (Build.default_writable hc) hs ?_ ?_]
  · rw [building_verified]
    exact congrArg (fun d => Load.ok ⟨{ Build.defaultHeader W with time := { W.clock with nanos := 0 } }, d⟩) (building_reread g t₀ t₁)
  · intro i e hm
    have : i ∈ (buildingData rootHalf g t₀ t₁).map (·.1) := List.mem_map.mpr ⟨_, hm, rfl⟩
    rw [hids] at this
    obtain ⟨-, h⟩ := List.mem_range'_1.mp this
    exact lt_trans h (by decide)
  · intro i e hm
    exact entityFine_writable (List.all_eq_true.mp (building_fine g t₀ t₁) _ hm)

/-- That digit is lost. -/
theorem building_rounded : rootHalfRead ≠ rootHalf := by decide +kernel

/-- The extractor example, run on that file, prints one project and no site: the building hangs on the project, and sites
are all that is looked for there.  The wall is not shown. -/
theorem building_not_shown (n : Nat) : printHierarchy (buildingData rootHalfRead g t₀ t₁) n = .val ⟨1, 0, 0, []⟩ := by by_kernel

/-- the body of the wall: four by 0.02, two high -/
def wallBody : Mapping.Solid :=
  ⟨.rectangle (some (.d2 ⟨(numeral 2, numeral 1 (-2)), none⟩), numeral 4, numeral 2 (-2)), none, (F64.zero, F64.zero, numeral 1), numeral 2⟩

/-- The functions that read a model find the wall: it is what the building holds, its type is there, it has one layer and
no opening, and its body is there twice, once as it is and once turned by 45 degrees. -/
theorem building_wall : Extract.containedStructures (buildingData rootHalfRead g t₀ t₁) 14 = [35] ∧
    ∀ n, (do let e ← Out.of ((buildingData rootHalfRead g t₀ t₁).getUntyped 35); printStructure (buildingData rootHalfRead g t₀ t₁) (n + 2) 35 e) =
      .val (.wall ⟨11, by decide⟩ 1
        [⟨5, 0, .solid wallBody⟩,
         ⟨5, 1, .mapped ⟨zeroPoint, none, none⟩ ⟨some zeroPoint, some (rootHalfRead, rootHalfRead, F64.zero),
            some (rootHalfRead.neg, rootHalfRead, F64.zero), some (F64.zero, F64.zero, numeral 1), some (numeral 1),
            some (some (numeral 1), some (numeral 1))⟩⟩,
         ⟨8, 0, .solid wallBody⟩] []) :=
  ⟨by by_kernel, fun n => by by_kernel⟩

/-! ### A file -/

/-- global ids 0, 1, 2, … -/
def counted (n : Nat) : Guid := ⟨List.replicate 15 0#8 ++ [BitVec.ofNat 8 n], rfl⟩

/-- the lines written with these global ids and the times 7 and 8 -/
example : (buildingData rootHalf counted ⟨7, by decide, by decide⟩ ⟨8, by decide, by decide⟩).map (fun ie => ie.2.print) =
  [cs! "IFCPERSON('Max',$,'Max',$,$,$,$,$);",
   cs! "IFCORGANIZATION($,'ExampleOrganization',$,$,$);",
   cs! "IFCPERSONANDORGANIZATION(#1,#2,$);",
   cs! "IFCAPPLICATION(#2,'0.0.1','BuildingExample','BuildingExample');",
   cs! "IFCOWNERHISTORY(#3,#4,$,.ADDED.,8,#3,#4,7);",
   cs! "IFCSIUNIT(*,.LENGTHUNIT.,$,.METRE.);",
   cs! "IFCSIUNIT(*,.PLANEANGLEUNIT.,$,.RADIAN.);",
   cs! "IFCSIUNIT(*,.TIMEUNIT.,$,.SECOND.);",
   cs! "IFCCARTESIANPOINT((0.,0.,0.));",
   cs! "IFCAXIS2PLACEMENT3D(#9,$,$);",
   cs! "IFCGEOMETRICREPRESENTATIONCONTEXT('Body','Model',3,$,#10,$);",
   cs! "IFCUNITASSIGNMENT((#6,#7,#8));",
   cs! "IFCPROJECT('0000000000000000000000',#5,'ExampleProject',$,$,$,$,(#11),#12);",
   cs! "IFCBUILDING('0000000000000000000001',#5,'ExampleBuilding',$,$,$,$,$,$,$,$,$);",
   cs! "IFCRELAGGREGATES('0000000000000000000002',$,'ProjectBuildingLink',$,#13,(#14));",
   cs! "IFCGEOMETRICREPRESENTATIONSUBCONTEXT('Body','Model',*,*,*,*,#11,$,.MODEL_VIEW.,$);",
   cs! "IFCCARTESIANPOINT((2.,0.01));",
   cs! "IFCAXIS2PLACEMENT2D(#17,$);",
   cs! "IFCRECTANGLEPROFILEDEF(.AREA.,$,#18,4.,0.02);",
   cs! "IFCDIRECTION((0.,0.,1.));",
   cs! "IFCEXTRUDEDAREASOLID(#19,$,#20,2.);",
   cs! "IFCSHAPEREPRESENTATION(#16,'Body','SweptSolid',(#21));",
   cs! "IFCDIRECTION((7.07106781186547E-1,7.07106781186547E-1,0.));",
   cs! "IFCDIRECTION((-7.07106781186547E-1,7.07106781186547E-1,0.));",
   cs! "IFCCARTESIANPOINT((0.,0.,0.));",
   cs! "IFCDIRECTION((0.,0.,1.));",
   cs! "IFCCARTESIANPOINT((0.,0.,0.));",
   cs! "IFCAXIS2PLACEMENT3D(#27,$,$);",
   cs! "IFCREPRESENTATIONMAP(#28,#22);",
   cs! "IFCCARTESIANTRANSFORMATIONOPERATOR3DNONUNIFORM(#23,#24,#25,1.,#26,1.,1.);",
   cs! "IFCMAPPEDITEM(#29,#30);",
   cs! "IFCSHAPEREPRESENTATION(#16,'Body','MappedRepresentation',(#31));",
   cs! "IFCLOCALPLACEMENT($,#10);",
   cs! "IFCPRODUCTDEFINITIONSHAPE($,$,(#22,#32));",
   cs! "IFCWALL('0000000000000000000003',#5,'ExampleWall',$,$,#33,#34,$,$);",
   cs! "IFCWALLTYPE('0000000000000000000004',#5,'ExampleWallTypeName',$,$,$,$,$,$,.NOTDEFINED.);",
   cs! "IFCRELDEFINESBYTYPE('0000000000000000000005',$,'WallToWallType',$,(#35),#36);",
   cs! "IFCMATERIAL('ExampleMaterial',$,$);",
   cs! "IFCMATERIALLAYER(#38,0.02,.FALSE.,'ExampleMaterialLayer',$,$,$);",
   cs! "IFCMATERIALLAYERSET((#39),'ExampleMaterialLayerSet',$);",
   cs! "IFCMATERIALLAYERSETUSAGE(#40,.AXIS2.,.POSITIVE.,0.,$);",
   cs! "IFCRELASSOCIATESMATERIAL('0000000000000000000006',#5,'MaterialWallAssociation',$,(#35),#41);",
   cs! "IFCRELASSOCIATESMATERIAL('0000000000000000000007',#5,'MaterialWallTypeAssociation',$,(#36),#40);",
   cs! "IFCRELCONTAINEDINSPATIALSTRUCTURE('0000000000000000000008',#5,'BuildingWallLink',$,(#35),#14);"] := by by_kernel

end Verif.Setters
