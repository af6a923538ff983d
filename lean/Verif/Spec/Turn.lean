import Verif.Spec.Normal
import Verif.Spec.Told
import Verif.Model.Turn
/-
What calls on a transform parameter say, and directions as real vectors.
-/
namespace Verif.Build
open Verif Ieee

/-- some component is not zero (a component that is no number is not zero) -/
def NonZero (v : V3) : Prop := ¬ (Means v.1 0 ∧ Means v.2.1 0 ∧ Means v.2.2 0)

/-- the vectors given for the translation, in order -/
def translationsOf {Q : Type} : List (TurnCall Q) → List V3
  | [] => []
  | .translation v :: l => v :: translationsOf l
  | _ :: l => translationsOf l

/-- the vectors given for the x axis, in order; a rotation gives the turned unit vector -/
def xsOf {Q : Type} (spin : Q → V3 → V3) : List (TurnCall Q) → List V3
  | [] => []
  | .xRotation v :: l => v :: xsOf spin l
  | .rotation q :: l => spin q east :: xsOf spin l
  | _ :: l => xsOf spin l

/-- the vectors given for the y axis -/
def ysOf {Q : Type} (spin : Q → V3 → V3) : List (TurnCall Q) → List V3
  | [] => []
  | .yRotation v :: l => v :: ysOf spin l
  | .rotation q :: l => spin q north :: ysOf spin l
  | _ :: l => ysOf spin l

/-- the vectors given for the z axis -/
def zsOf {Q : Type} (spin : Q → V3 → V3) : List (TurnCall Q) → List V3
  | [] => []
  | .zRotation v :: l => v :: zsOf spin l
  | .rotation q :: l => spin q skyward :: zsOf spin l
  | _ :: l => zsOf spin l

/-- `v` is the last vector of the list with `P`, or `d` if there is none -/
def Latest (P : V3 → Prop) (d : V3) (l : List V3) (v : V3) : Prop :=
  (∃ l₁ l₂, l = l₁ ++ v :: l₂ ∧ P v ∧ ∀ w ∈ l₂, ¬ P w) ∨ v = d ∧ ∀ w ∈ l, ¬ P w

/-- the vector has finite components standing for the given numbers -/
def Reads (v : V3) (a b c : ℚ) : Prop := Means v.1 a ∧ Means v.2.1 b ∧ Means v.2.2 c

/-- one of the numbers is 2^-511 or more in size -/
def Sizable (a b c : ℚ) : Prop := 2 ^ (-511 : Int) ≤ |a| ∨ 2 ^ (-511 : Int) ≤ |b| ∨ 2 ^ (-511 : Int) ≤ |c|

/-- the largest of the numbers lies between 2^-511 and 2^511 -/
def Ordinary (a b c : ℚ) : Prop :=
  Sizable a b c ∧ |a| ≤ 2 ^ (511 : Int) ∧ |b| ≤ 2 ^ (511 : Int) ∧ |c| ≤ 2 ^ (511 : Int)

/-- the vector `w` is the direction of (a, b, c) but for 2^-50 in each component -/
def Heading (w : V3) (a b c : ℚ) : Prop :=
  ∃ x y z, Reads w x y z ∧ |(x : ℝ) - a / √(a ^ 2 + b ^ 2 + c ^ 2)| ≤ 2 ^ (-50 : Int) ∧
    |(y : ℝ) - b / √(a ^ 2 + b ^ 2 + c ^ 2)| ≤ 2 ^ (-50 : Int) ∧ |(z : ℝ) - c / √(a ^ 2 + b ^ 2 + c ^ 2)| ≤ 2 ^ (-50 : Int)

end Verif.Build
