import Verif.Spec.Arith
import Mathlib.Analysis.Real.Sqrt
/-
What quotients and square roots of doubles are (IEEE 754), with values computed from the bits.
-/
namespace Verif.Ieee
open Verif (F64)

/-- `z` is `x / y` -/
inductive Quotient : F64 → F64 → F64 → Prop
  | nanLeft (y) : Quotient .nan y .nan
  | nanRight (x) : Quotient x .nan .nan
  | infs (s t) : Quotient (.inf s) (.inf t) .nan
  | infLeft (s t k h) : Quotient (.inf s) (.fin t k h) (.inf (s ^^ t))
  | infRight (s t k h h') : Quotient (.fin s k h) (.inf t) (.fin (s ^^ t) 0 h')
  | zeros (s t h) : Quotient (.fin s 0 h) (.fin t 0 h) .nan
  | byZero {s t k h h'} : 0 < k → Quotient (.fin s k h) (.fin t 0 h') (.inf (s ^^ t))
  | fins {s t k l h h' z} : 0 < l → Rounds (s ^^ t) (magnitude k / magnitude l) z → Quotient (.fin s k h) (.fin t l h') z

/-- `k` is the nearest encoding to the magnitude `x`, the even one of two -/
def NearestReal (x : ℝ) (k : Nat) : Prop :=
  (∀ j, |x - magnitude k| ≤ |x - magnitude j|) ∧ ∀ j, j ≠ k → |x - magnitude j| = |x - magnitude k| → k % 2 = 0

/-- `y` is the square root of `x` -/
inductive Root : F64 → F64 → Prop
  | nan : Root .nan .nan
  | inf : Root (.inf false) (.inf false)
  | negInf : Root (.inf true) .nan
  | zero (s h) : Root (.fin s 0 h) (.fin s 0 h)
  | negative {k h} : 0 < k → Root (.fin true k h) .nan
  | positive {k h j} (h') : 0 < k → NearestReal (√(magnitude k)) j → Root (.fin false k h) (.fin false j h')

end Verif.Ieee
