import Verif.Model.Script
import Verif.Model.Turn
import Verif.Model.Normal
/-
The example programs `/repo/ifc_rs/examples/builder.rs` and `roof.rs`, call by call.  Paths in comments are relative to
/repo/ifc_rs.

A call passes on what earlier calls returned.  These ids are counted from `n`, the number of entities there are when the
first call on the storey builder begins; that every id is the one returned by the call it should come from is proved
(`Props/Examples.lean`).  Numbers in the source are read as decimals and rounded (`F64.ofDec`).  `Direction3D::from` normalises (`Model/Normal.lean`).
`DQuat` is a type `Q` with
the four rotations the programs make of it and the product of a rotation and a vector.
-/
namespace Verif.Build
open Verif Schema Mapping

/-- a decimal in the source: `numeral D x` is `D · 10 ^ x` -/
def numeral (D : Nat) (x : Int := 0) : F64 := .mk false (F64.ofDec D x)

/-- rotations, as the crate `glam` has them -/
structure Rotations where
  Q : Type
  /-- `DQuat * DVec3` -/
  spin : Q → V3 → V3
  /-- `DQuat * DQuat` -/
  mul : Q → Q → Q
  /-- `DQuat::from_rotation_x` -/
  aboutX : F64 → Q
  /-- `DQuat::from_rotation_z` -/
  aboutZ : F64 → Q

/-- `std::f64::consts::PI` -/
def pi : F64 := numeral 314159265358979323846264338327950288 (-35)

/-- examples/builder.rs:7, examples/roof.rs:7: `Organization::new(None, "ExampleOrganization", None)`
(src/objects/organization/mod.rs:31-43) -/
def exampleDeveloper : (row .Organization).Val :=
  ((.omitted, strFrom (cs! "ExampleOrganization"), .omitted, .omitted, .omitted) :
    Opt Str × Str × Opt Str × Opt (List Nat) × Opt (List Nat))

/-- examples/builder.rs:13, examples/roof.rs:13: `Person::empty().given_name("Luigi")` (src/objects/person/mod.rs:41-67) -/
def exampleOwner : (row .Person).Val :=
  ((.omitted, .omitted, .custom (strFrom (cs! "Luigi")), .omitted, .omitted, .omitted, .omitted, .omitted) :
    Opt Str × Opt Str × Opt Str × Opt (List Str) × Opt (List Str) × Opt (List Str) × Opt (List Nat) × Opt (List Nat))

/-- examples/builder.rs:29, examples/roof.rs:27: `MaterialLayer::new(0.02, false).name("ExampleMaterialLayer")`
(src/materials/material_layer.rs:73-83, 91-94) -/
def exampleLayer : LayerVal :=
  (.omitted, numeral 2 (-2), .ff, .custom (strFrom (cs! "ExampleMaterialLayer")), .omitted, .omitted, .omitted)

/-- examples/builder.rs:39-46, examples/roof.rs:37-44 -/
def footprint : List V2 :=
  [(F64.zero, F64.zero), (F64.zero, numeral 4), (numeral 2, numeral 6), (numeral 4, numeral 4), (numeral 4, F64.zero), (F64.zero, F64.zero)]

/-- examples/builder.rs:158-163, examples/roof.rs:105-110 and 137-142 -/
def fourSquare : List V2 := [(F64.zero, F64.zero), (numeral 4, F64.zero), (numeral 4, numeral 4), (F64.zero, numeral 4)]

/-- The calls with which the storeys of both programs begin (examples/builder.rs:27-73, examples/roof.rs:25-73), with wall
height 2.  They return: material layer `n + 2`, layer set `n + 3`, usage `n + 4`, space type `n + 5`, space `n + 16`, wall
type `n + 17`, window type `n + 18`, constituent `n + 20`, constituent set `n + 21`. -/
def storeyBegin (n : Nat) : List StoreyCmd :=
  [.layer (cs! "ExampleMaterial") exampleLayer,
   .layerSet [n + 2],
   .usage (n + 3) ⟨1, by decide⟩ ⟨0, by decide⟩ F64.zero,
   .spaceType (cs! "ExampleWallType") ⟨0, by decide⟩,
   .space (n + 5) (cs! "ExampleSpaceDefault") footprint (numeral 2) zero3,
   .wallType (n + 3) (cs! "ExampleWallType") ⟨11, by decide⟩,
   .windowType (cs! "ExampleWindowType") ⟨0, by decide⟩ ⟨0, by decide⟩,
   .constituent (cs! "Wood") (cs! "Framing"),
   .constituentSet [n + 20]]

example : eLayerSetDirectionEnum.get ⟨1, by decide⟩ = cs! ".AXIS2." ∧ eDirectionSenseEnum.get ⟨0, by decide⟩ = cs! ".POSITIVE." ∧
    eSpaceTypeEnum.get ⟨0, by decide⟩ = cs! ".SPACE." ∧ eWallTypeEnum.get ⟨11, by decide⟩ = cs! ".NOTDEFINED." ∧
    eWindowTypeEnum.get ⟨0, by decide⟩ = cs! ".WINDOW." ∧
    eWindowPartitioningTypeEnum.get ⟨0, by decide⟩ = cs! ".SINGLE_PANEL." := by decide

/-- examples/builder.rs:79, 101: `IfcValue::ThermalTransmittance(0.24.into())` -/
def uValue : Prop' := ⟨cs! "U-Value", .thermal (numeral 24 (-2)), none⟩

/-- examples/builder.rs:24-203, the calls on one storey builder up to the roof.  After `storeyBegin`: the property set of the windows
`n + 23`, the wall `n + 38`, its window `n + 63`, the slab type `n + 100`, the slab `n + 111`, the second slab type `n + 112`,
the second slab `n + 123`, the roof type `n + 176`. -/
def roofedStorey (R : Rotations) (n : Nat) : List StoreyCmd := storeyBegin n ++
  [.properties (cs! "ExampleWindowProperties") [uValue] true,
   .verticalWall (n + 4) (n + 17) (cs! "ExampleWallDefault") (numeral 2) (numeral 4) zero3
     [.properties (cs! "ExampleWallProperties") [uValue],
      .transform (makeTurn R.spin [.translation (numeral 1, F64.zero, F64.zero)]),
      .window (n + 21) (n + 18) (cs! "ExampleWindow") (numeral 5 (-1)) (numeral 5 (-1)) (numeral 2, F64.zero, numeral 5 (-1)) (normalize3 axisZ)],
   .relate .Window (n + 23) (n + 63),
   .slabType (n + 3) (cs! "ExampleSlabType") ⟨5, by decide⟩,
   .horizontalArbitrarySlab (n + 4) (n + 100) (cs! "ExampleSlab") footprint zero3 [],
   .slabType (n + 3) (cs! "ExampleShadingSurfaceType") ⟨5, by decide⟩,
   .horizontalArbitrarySlab (n + 4) (n + 112) (cs! "ExampleVerticalShadingSurface") fourSquare zero3
     [.window (n + 21) (n + 18) (cs! "ExampleSlabBuilderWindow") (numeral 1) (numeral 1) (numeral 2, F64.zero, numeral 1),
      .transform (makeTurn R.spin [.translation (numeral 8, numeral 8, F64.zero),
        .rotation (R.mul (R.aboutZ (pi.mul (numeral 25 (-2)))) (R.aboutX (pi.mul (numeral 25 (-2)))))])],
   .roofType (n + 3) (cs! "ExampleRoofType") ⟨0, by decide⟩,
   .roof (n + 4) (n + 176) (cs! "ExampleRoof") footprint (F64.zero, F64.zero, numeral 2)]

/-- examples/builder.rs:205-226, the last calls on a storey builder.  They return the shading device type `n + 188` and the
shading device `n + 199`. -/
def shadeCalls (R : Rotations) (n : Nat) : List StoreyCmd :=
  [.shadeType (n + 3) (cs! "ExampleShadingDeviceType") ⟨4, by decide⟩,
   .shade (n + 4) (n + 188) (cs! "ExampleShadingDevice") (numeral 3) (numeral 5) zero3,
   .transform .ShadingDevice (n + 199) (makeTurn R.spin [.rotation (R.aboutX (pi.mul (numeral 25 (-2))))])]

/-- examples/builder.rs:24-227 -/
def builderStorey (R : Rotations) (n : Nat) : List StoreyCmd := roofedStorey R n ++ shadeCalls R n

/-- the project both programs make (examples/builder.rs:5-23, examples/roof.rs:5-21) with the given storeys -/
def exampleProject (storeys : List StoreyScript) : ProjectScript :=
  ⟨exampleDeveloper, cs! "0.0.1", cs! "IfcBuilderApplication", cs! "builder", exampleOwner, cs! "Metabuild",
    cs! "IfcBuider Example Project", [⟨cs! "ExampleSite", zero3, [⟨cs! "ExampleBuilding", zero3, storeys⟩]⟩]⟩

/-- examples/builder.rs:4-233.  The first storey builder begins after 29 entities, the second after 256. -/
def builderExample (R : Rotations) : ProjectScript := exampleProject
  [⟨cs! "ExampleStorey", F64.zero, builderStorey R 29⟩, ⟨cs! "ExampleStorey", numeral 2, builderStorey R 256⟩]

/-- examples/roof.rs:23-217.  After `storeyBegin`: the wall `n + 36`, the roof type `n + 59`, the slabs `n + 70`, `n + 133`
and `n + 226`. -/
def roofStorey (R : Rotations) (n : Nat) : List StoreyCmd := storeyBegin n ++
  [.verticalWall (n + 4) (n + 17) (cs! "ExampleWallDefault") (numeral 2) (numeral 4) zero3
     [.window (n + 21) (n + 18) (cs! "ExampleWindow") (numeral 5 (-1)) (numeral 5 (-1)) (numeral 2, F64.zero, numeral 5 (-1)) (normalize3 axisZ)],
   .slabType (n + 3) (cs! "ExampleShadingSurfaceType") ⟨1, by decide⟩,
   .horizontalArbitrarySlab (n + 4) (n + 59) (cs! "SlabRoof1") fourSquare zero3
     [.window (n + 21) (n + 18) (cs! "SlabRoofWindow1") (numeral 1) (numeral 1) (numeral 2, numeral 1, F64.zero),
      .transform (makeTurn R.spin [.translation (F64.zero, F64.zero, numeral 2), .rotation (R.aboutX (pi.mul (numeral 25 (-2))))])],
   .horizontalArbitrarySlab (n + 4) (n + 59) (cs! "SlabRoof2") fourSquare zero3
     [.horizontalWindow (n + 21) (n + 18) (cs! "SlabRoofWindow2")
        [(numeral 1, numeral 1), (numeral 2, numeral 1), (numeral 15 (-1), numeral 2)],
      .transform (makeTurn R.spin [.translation (numeral 4, numeral 4, numeral 2),
        .rotation (R.mul (R.aboutZ (pi.mul (numeral 5 (-1)))) (R.aboutX (pi.mul (numeral 25 (-2)))))])],
   .verticalArbitraryWall (n + 4) (n + 17) (cs! "ExampleGableWall")
     [(F64.zero, F64.zero), (numeral 4, F64.zero), (numeral 2, numeral 2)] zero3
     [.transform (makeTurn R.spin [.translation (F64.zero, F64.zero, numeral 2)])],
   .arbitrarySlab (n + 4) (n + 59) (cs! "ExampleArbitraryRoof")
     [zero3, (numeral 2, F64.zero, numeral 2), (numeral 2, numeral 4, numeral 2), (F64.zero, numeral 4, F64.zero)]
     ((numeral 1).neg, F64.zero, numeral 1) (F64.zero, F64.zero, numeral 2)
     [.arbitraryWindow (n + 21) (n + 18) (cs! "ArbitraryRoofWindow")
        [(numeral 5 (-1), numeral 1, numeral 5 (-1)), (numeral 15 (-1), numeral 1, numeral 15 (-1)), (numeral 15 (-1), numeral 3, numeral 15 (-1)),
         (numeral 5 (-1), numeral 3, numeral 5 (-1))]]]

/-- examples/roof.rs:4-223 -/
def roofExample (R : Rotations) : ProjectScript := exampleProject [⟨cs! "ExampleStorey", F64.zero, roofStorey R 29⟩]

example : eSlabTypeEnum.get ⟨5, by decide⟩ = cs! ".NOTDEFINED." ∧ eSlabTypeEnum.get ⟨1, by decide⟩ = cs! ".ROOF." ∧
    eRoofTypeEnum.get ⟨0, by decide⟩ = cs! ".FLAT_ROOF." ∧ eShadingDeviceTypeEnum.get ⟨4, by decide⟩ = cs! ".NOTDEFINED." := by
  decide

end Verif.Build
