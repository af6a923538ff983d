import Verif.Model.F64
import Mathlib.Data.Rat.Defs
import Mathlib.Algebra.Order.Field.Rat
/-
Specification vocabulary: the rational number a double stands for, nearest doubles, and the value that comes back after
a real attribute is written and read.
-/
namespace Verif.F64

/-- magnitude of a pattern as a rational -/
def val (k : Nat) : ℚ := (mant k : ℚ) * 2 ^ ulpExp k

/-- `k` is a nearest pattern to `q`, and the even one if two are equally near -/
def Nearest (q : ℚ) (k : Nat) : Prop :=
  (∀ j, |q - val k| ≤ |q - val j|) ∧ ∀ j, j ≠ k → |q - val j| = |q - val k| → k % 2 = 0

/-- the value that comes back after `x` was written by `format` and read again: unchanged, or rounded to 15
significant digits when the writer chose the scientific form -/
def reread : F64 → F64
  | fin neg k h =>
    if isScientific (fin neg k h) then mk neg (ofDec (sciDigits k).1 ((sciDigits k).2 - 14)) else fin neg k h
  | x => x

end Verif.F64
