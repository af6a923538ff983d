import Verif.Spec.Turn
import Verif.Model.Spin
import Mathlib.Analysis.SpecialFunctions.Trigonometric.Basic
/-
Rotations of space: the vector that results when a vector is turned about an axis by an angle, and what it means that a
quaternion and a vector of doubles stand for such a rotation and vector.
-/
namespace Verif.Build
open Verif Ieee

/-- vectors of space -/
structure Vec where
  x : ℝ
  y : ℝ
  z : ℝ

namespace Vec

def dot (u v : Vec) : ℝ := u.x * v.x + u.y * v.y + u.z * v.z
def cross (u v : Vec) : Vec := ⟨u.y * v.z - u.z * v.y, u.z * v.x - u.x * v.z, u.x * v.y - u.y * v.x⟩

/-- `v` turned by the angle `θ` about the unit vector `n`, counterclockwise as seen from the tip of `n` -/
noncomputable def turned (n : Vec) (θ : ℝ) (v : Vec) : Vec where
  x := v.x * Real.cos θ + (cross n v).x * Real.sin θ + n.x * (n.dot v) * (1 - Real.cos θ)
  y := v.y * Real.cos θ + (cross n v).y * Real.sin θ + n.y * (n.dot v) * (1 - Real.cos θ)
  z := v.z * Real.cos θ + (cross n v).z * Real.sin θ + n.z * (n.dot v) * (1 - Real.cos θ)

def ex : Vec := ⟨1, 0, 0⟩
def ey : Vec := ⟨0, 1, 0⟩
def ez : Vec := ⟨0, 0, 1⟩

end Vec

/-- the components of `v` are numbers that differ from those of `u` by at most `ε` -/
def Close (v : V3) (u : Vec) (ε : ℝ) : Prop :=
  ∃ a b c : ℚ, Reads v a b c ∧ |(a : ℝ) - u.x| ≤ ε ∧ |(b : ℝ) - u.y| ≤ ε ∧ |(c : ℝ) - u.z| ≤ ε

/-- the components of the quaternion differ by at most `δ` from those that stand for the turn by `θ` about `n`: the sine of half the
angle times `n`, and the cosine of half the angle -/
def TurnsBy (q : Quat) (n : Vec) (θ δ : ℝ) : Prop :=
  ∃ a b c d : ℚ, Means q.x a ∧ Means q.y b ∧ Means q.z c ∧ Means q.w d ∧
    |(a : ℝ) - n.x * Real.sin (θ / 2)| ≤ δ ∧ |(b : ℝ) - n.y * Real.sin (θ / 2)| ≤ δ ∧ |(c : ℝ) - n.z * Real.sin (θ / 2)| ≤ δ ∧
    |(d : ℝ) - Real.cos (θ / 2)| ≤ δ

/-- the axes of a transform parameter, up to `ε` -/
def Axes (t : Transform) (x y z : Vec) (ε : ℝ) : Prop := Close t.x x ε ∧ Close t.y y ε ∧ Close t.z z ε

/-- the assumption about `f64::sin_cos`: for every number both results are numbers, off by at most `η` -/
def Accurate (sinCos : F64 → F64 × F64) (η : ℝ) : Prop :=
  ∀ x (a : ℚ), Means x a → ∃ s c : ℚ, Means (sinCos x).1 s ∧ Means (sinCos x).2 c ∧ |(s : ℝ) - Real.sin a| ≤ η ∧
    |(c : ℝ) - Real.cos a| ≤ η

end Verif.Build
