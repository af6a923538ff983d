import Verif.Model.F64
import Mathlib.Data.Rat.Defs
import Mathlib.Algebra.Order.Field.Rat
/-
IEEE 754 binary64 arithmetic: what sums, differences and products of doubles are, with values computed from the bits.
-/
namespace Verif.Ieee
open Verif (F64)

/-- the magnitude encoded by the 63 lower bits; bits from `2^63 - 2^52` on continue the numbers beyond the largest double -/
def magnitude (bits : Nat) : ℚ :=
  if bits / 2 ^ 52 = 0 then (bits : ℚ) / 2 ^ 1074 else ((2 ^ 52 + bits % 2 ^ 52 : Nat) : ℚ) * 2 ^ (bits / 2 ^ 52) / 2 ^ 1075

/-- the number a finite double stands for -/
inductive Means : F64 → ℚ → Prop
  | pos {k : Nat} (h : k < 0x7FF0000000000000) : Means (.fin false k h) (magnitude k)
  | neg {k : Nat} (h : k < 0x7FF0000000000000) : Means (.fin true k h) (-magnitude k)

/-- `k` is the nearest encoding to the magnitude `q`, the even one of two -/
def Nearest (q : ℚ) (k : Nat) : Prop :=
  (∀ j, |q - magnitude k| ≤ |q - magnitude j|) ∧ ∀ j, j ≠ k → |q - magnitude j| = |q - magnitude k| → k % 2 = 0

/-- `x` is the number `q` rounded; `s` is the sign -/
inductive Rounds (s : Bool) (q : ℚ) : F64 → Prop
  | fin {k : Nat} (hk : Nearest q k) (h : k < 0x7FF0000000000000) : Rounds s q (.fin s k h)
  | inf {k : Nat} (hk : Nearest q k) (h : 0x7FF0000000000000 ≤ k) : Rounds s q (.inf s)

/-- `z` is `x + y` -/
inductive Sum : F64 → F64 → F64 → Prop
  | nanLeft (y) : Sum .nan y .nan
  | nanRight (x) : Sum x .nan .nan
  | infs (s) : Sum (.inf s) (.inf s) (.inf s)
  | infsApart {s t} : s ≠ t → Sum (.inf s) (.inf t) .nan
  | infLeft (s t k h) : Sum (.inf s) (.fin t k h) (.inf s)
  | infRight (s t k h) : Sum (.fin t k h) (.inf s) (.inf s)
  | positive {x y z p q} : Means x p → Means y q → 0 < p + q → Rounds false (p + q) z → Sum x y z
  | negative {x y z p q} : Means x p → Means y q → p + q < 0 → Rounds true (-(p + q)) z → Sum x y z
  /-- the sum of two negative zeros is a negative zero -/
  | negZeros (h h') : Sum (.fin true 0 h) (.fin true 0 h) (.fin true 0 h')
  /-- any other sum of zero is the positive zero -/
  | cancel {x y p q} (h) : Means x p → Means y q → p + q = 0 → ¬ (x = .fin true 0 h ∧ y = .fin true 0 h) →
      Sum x y (.fin false 0 h)

/-- `y` is `-x` -/
inductive Minus : F64 → F64 → Prop
  | nan : Minus .nan .nan
  | inf (s) : Minus (.inf s) (.inf !s)
  | fin (s k h) : Minus (.fin s k h) (.fin (!s) k h)

/-- `z` is `x - y` -/
def Difference (x y z : F64) : Prop := ∃ n, Minus y n ∧ Sum x n z

/-- `z` is `x * y` -/
inductive Product : F64 → F64 → F64 → Prop
  | nanLeft (y) : Product .nan y .nan
  | nanRight (x) : Product x .nan .nan
  | infs (s t) : Product (.inf s) (.inf t) (.inf (s ^^ t))
  | zeroInf (s t h) : Product (.fin s 0 h) (.inf t) .nan
  | infZero (s t h) : Product (.inf s) (.fin t 0 h) .nan
  | infLeft {s t k h} : 0 < k → Product (.inf s) (.fin t k h) (.inf (s ^^ t))
  | infRight {s t k h} : 0 < k → Product (.fin s k h) (.inf t) (.inf (s ^^ t))
  | fins {s t k l h h' z} : Rounds (s ^^ t) (magnitude k * magnitude l) z → Product (.fin s k h) (.fin t l h') z

end Verif.Ieee
