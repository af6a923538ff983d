import Verif.Model.Examples
/-
The rotations of the vector crate `glam` (re-exported by `bevy_math`, not part of /repo) that `TransformParameter::rotation`
(/repo/ifc_rs/src/ifc_builder/transforms.rs:22-25) and the examples use, operation by operation as `glam` writes them.
The assertion that a quaternion is normalised is a debugging feature of that crate that is off by default; it is left out.
-/
namespace Verif.Build
open Verif Mapping

/-- `DQuat` -/
structure Quat where
  x : F64
  y : F64
  z : F64
  w : F64
  deriving DecidableEq

/-- 2.0 -/
def two : F64 := F64.mk false (1024 * 2 ^ 52)

/-- `DVec3::dot` -/
def vdot (a b : V3) : F64 := ((a.1.mul b.1).add (a.2.1.mul b.2.1)).add (a.2.2.mul b.2.2)

/-- `DQuat * DVec3`, used at ifc_builder/transforms.rs:23: `v * (w * w - b.dot(b)) + b * (v.dot(b) * 2.0) + b.cross(v) * (w * 2.0)`
where `b` is the vector part -/
def Quat.spin (q : Quat) (v : V3) : V3 :=
  let b : V3 := (q.x, q.y, q.z)
  vadd (vadd (vscale v ((q.w.mul q.w).sub (vdot b b))) (vscale b ((vdot v b).mul two))) (vscale (vcross b v) (q.w.mul two))

/-- `DQuat * DQuat`, used at examples/roof.rs:173-174 and examples/builder.rs:183-184 -/
def Quat.mul (p q : Quat) : Quat where
  x := (((p.w.mul q.x).add (p.x.mul q.w)).add (p.y.mul q.z)).sub (p.z.mul q.y)
  y := (((p.w.mul q.y).sub (p.x.mul q.z)).add (p.y.mul q.w)).add (p.z.mul q.x)
  z := (((p.w.mul q.z).add (p.x.mul q.y)).sub (p.y.mul q.x)).add (p.z.mul q.w)
  w := (((p.w.mul q.w).sub (p.x.mul q.x)).sub (p.y.mul q.y)).sub (p.z.mul q.z)

/-- `DQuat::from_rotation_x`; `sinCos` is `f64::sin_cos` (examples/roof.rs:136) -/
def Quat.aboutX (sinCos : F64 → F64 × F64) (angle : F64) : Quat :=
  let sc := sinCos (angle.mul F64.oneHalf)
  ⟨sc.1, F64.zero, F64.zero, sc.2⟩

/-- `DQuat::from_rotation_z` (examples/roof.rs:173) -/
def Quat.aboutZ (sinCos : F64 → F64 × F64) (angle : F64) : Quat :=
  let sc := sinCos (angle.mul F64.oneHalf)
  ⟨F64.zero, F64.zero, sc.1, sc.2⟩

/-- the rotations the examples use, all but the sine and cosine -/
def glam (sinCos : F64 → F64 × F64) : Rotations := ⟨Quat, Quat.spin, Quat.mul, Quat.aboutX sinCos, Quat.aboutZ sinCos⟩

/-- half a turn about z -/
example : Quat.spin ⟨F64.zero, F64.zero, F64.one, F64.zero⟩ axisX = (F64.one.neg, F64.zero, F64.zero) := by decide +kernel

end Verif.Build
