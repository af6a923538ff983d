import Verif.Spec.Spin
import Verif.Spec.Transform
/-
What a stored transformation operator does to the points of space.
-/
namespace Verif.Build
open Verif Ieee Schema

/-- the vectors of doubles `u`, `v`, `w` take the point `p` to `p.x u + p.y v + p.z w`; that is the image of `p` under `f`, but for `ε`
times the sum of the coordinates' absolute values -/
def Carries (u v w : V3) (f : Vec → Vec) (ε : ℝ) : Prop :=
  ∃ u1 u2 u3 v1 v2 v3 w1 w2 w3 : ℚ, Reads u u1 u2 u3 ∧ Reads v v1 v2 v3 ∧ Reads w w1 w2 w3 ∧ ∀ p : Vec,
    |p.x * u1 + p.y * v1 + p.z * w1 - (f p).x| ≤ ε * (|p.x| + |p.y| + |p.z|) ∧
    |p.x * u2 + p.y * v2 + p.z * w2 - (f p).y| ≤ ε * (|p.x| + |p.y| + |p.z|) ∧
    |p.x * u3 + p.y * v3 + p.z * w3 - (f p).z| ≤ ε * (|p.x| + |p.y| + |p.z|)

/-- The entity `op` is an IfcCartesianTransformationOperator3DnonUniform with all scales 1, local origin `o`, and axes that move points by `f`
but for `ε`. -/
def StoredMotion (m : DataMap) (op : Nat) (o : V3) (f : Vec → Vec) (ε : ℝ) : Prop :=
  ∃ x y p z u v w, Holds m op .NonUniformTransform (((.custom (.id x), .custom (.id y), .custom (.id p), .custom F64.one,
      .custom (.id z)), .custom F64.one, .custom F64.one) :
      (Opt (IdOr V3) × Opt (IdOr V3) × Opt (IdOr V3) × Opt F64 × Opt (IdOr V3)) × Opt F64 × Opt F64) ∧
    Holds m p .Point3D o ∧ Holds m x .Direction3D u ∧ Holds m y .Direction3D v ∧ Holds m z .Direction3D w ∧ Carries u v w f ε

end Verif.Build
