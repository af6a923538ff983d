import Verif.Model.F64
/-
The `f64` operators `+`, `-`, `*` (IEEE 754, round to nearest, ties to even), used by the builders.
-/
namespace Verif.F64

/-- unary minus -/
def neg : F64 → F64
  | .nan => .nan
  | .inf s => .inf !s
  | .fin s k h => .fin (!s) k h

/-- `+` -/
def add : F64 → F64 → F64
  | .nan, _ => .nan
  | _, .nan => .nan
  | .inf s, .inf t => if s = t then .inf s else .nan
  | .inf s, .fin .. => .inf s
  | .fin .., .inf t => .inf t
  | .fin s k _, .fin t l _ =>
    let n : Int := (if s then -1 else 1) * (num k * den l) + (if t then -1 else 1) * (num l * den k)
    if n = 0 then mk (s && t) 0 else mk (decide (n < 0)) (rndNE n.natAbs (den k * den l))

/-- `-` -/
def sub (x y : F64) : F64 := add x (neg y)

/-- `*` -/
def mul : F64 → F64 → F64
  | .nan, _ => .nan
  | _, .nan => .nan
  | .inf s, .inf t => .inf (s != t)
  | .inf s, .fin t l _ => if l = 0 then .nan else .inf (s != t)
  | .fin s k _, .inf t => if k = 0 then .nan else .inf (s != t)
  | .fin s k _, .fin t l _ => mk (s != t) (rndNE (num k * num l) (den k * den l))

def zero : F64 := mk false 0
def one : F64 := mk false (1023 * 2 ^ 52)
def oneHalf : F64 := mk false (1022 * 2 ^ 52)

example : add one one = mk false (1024 * 2 ^ 52) := by decide +kernel
example : mul oneHalf (add one one) = one := by decide +kernel
example : sub one one = zero := by decide +kernel
/-- `0.1 + 0.2` is `0.30000000000000004` -/
example : add (mk false (ofDec 1 (-1))) (mk false (ofDec 2 (-1))) = mk false (ofDec 30000000000000004 (-17)) := by
  decide +kernel
/-- `0.1 * 3.0` is `0.30000000000000004` -/
example : mul (mk false (ofDec 1 (-1))) (mk false (ofDec 3 0)) = mk false (ofDec 30000000000000004 (-17)) := by
  decide +kernel

end Verif.F64
