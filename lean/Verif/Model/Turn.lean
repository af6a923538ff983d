import Verif.Model.Normal
/-
The functions that make a `TransformParameter` (`/repo/ifc_rs/src/ifc_builder/transforms.rs`).  Paths are relative to
/repo/ifc_rs/src.
-/
namespace Verif.Build
open Verif Mapping

/-- `x == 0.0` -/
def eqZero : F64 → Bool
  | .fin _ k _ => k = 0
  | _ => false

/-- `v == DVec3::ZERO` -/
def isZero3 (v : V3) : Bool := eqZero v.1 && eqZero v.2.1 && eqZero v.2.2

namespace Transform

/-- ifc_builder/transforms.rs:55-64 -/
def initial : Transform := ⟨zero3, axisX, axisY, axisZ⟩

/-- ifc_builder/transforms.rs:16-19 -/
def withTranslation (t : Transform) (v : V3) : Transform := { t with translation := v }

/-- ifc_builder/transforms.rs:28-34 -/
def withX (t : Transform) (v : V3) : Transform := if isZero3 v then t else { t with x := v }

/-- ifc_builder/transforms.rs:37-43 -/
def withY (t : Transform) (v : V3) : Transform := if isZero3 v then t else { t with y := v }

/-- ifc_builder/transforms.rs:46-52 -/
def withZ (t : Transform) (v : V3) : Transform := if isZero3 v then t else { t with z := v }

/-- ifc_builder/transforms.rs:22-25; `spin` is `DQuat * DVec3` (crate `glam`) -/
def withRotation {Q : Type} (spin : Q → V3 → V3) (t : Transform) (q : Q) : Transform :=
  ((t.withX (spin q axisX)).withY (spin q axisY)).withZ (spin q axisZ)

end Transform

/-- a call on a `TransformParameter` (ifc_builder/transforms.rs:14-53) -/
inductive TurnCall (Q : Type) where
  | translation (v : V3)
  | rotation (q : Q)
  | xRotation (v : V3)
  | yRotation (v : V3)
  | zRotation (v : V3)

/-- ifc_builder/transforms.rs:14-53 -/
def TurnCall.apply {Q : Type} (spin : Q → V3 → V3) (t : Transform) : TurnCall Q → Transform
  | .translation v => t.withTranslation v
  | .rotation q => t.withRotation spin q
  | .xRotation v => t.withX v
  | .yRotation v => t.withY v
  | .zRotation v => t.withZ v

/-- `TransformParameter::default()` followed by calls -/
def makeTurn {Q : Type} (spin : Q → V3 → V3) (l : List (TurnCall Q)) : Transform := l.foldl (TurnCall.apply spin) Transform.initial

end Verif.Build
