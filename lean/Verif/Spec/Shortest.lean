import Verif.Spec.Real
import Mathlib.Data.Nat.Digits.Defs
/-
Specification vocabulary: the shortest decimals of a double.
-/
namespace Verif.F64

/-- `D * 10^x` is a shortest decimal of the magnitude `k`: it reads back as `k`, no decimal with fewer digits does, and
none with as many digits that does is closer to the exact value -/
structure Shortest (k D : Nat) (x : Int) : Prop where
  back : Nearest ((D : ℚ) * 10 ^ x) k
  few : ∀ (D' : Nat) (x' : Int), Nearest ((D' : ℚ) * 10 ^ x') k → ∀ m, D' < 10 ^ m → D < 10 ^ m
  close : ∀ (D' : Nat) (x' : Int), Nearest ((D' : ℚ) * 10 ^ x') k → (∀ m, D < 10 ^ m → D' < 10 ^ m) →
    |(D : ℚ) * 10 ^ x - val k| ≤ |(D' : ℚ) * 10 ^ x' - val k|

/-- how many decimal digits of a number are not zero -/
def nonzeros (D : Nat) : Nat := ((Nat.digits 10 D).filter (· ≠ 0)).length

end Verif.F64
