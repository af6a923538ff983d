import Verif.Model.Builder
/-
`/` and `sqrt` of `f64` (IEEE 754, round to nearest, ties to even) and the normalisation of vectors made of them, as the
vector crate `glam` (re-exported by `bevy_math`, not part of /repo) writes it.  Paths are relative to /repo/ifc_rs/src.
-/
namespace Verif.F64

/-- `/` -/
def div : F64 → F64 → F64
  | .nan, _ => .nan
  | _, .nan => .nan
  | .inf _, .inf _ => .nan
  | .inf s, .fin t _ _ => .inf (s != t)
  | .fin s _ _, .inf t => mk (s != t) 0
  | .fin s k _, .fin t l _ =>
    if l = 0 then (if k = 0 then .nan else .inf (s != t)) else mk (s != t) (rndNE (num k * den l) (den k * num l))

/-- does the root of the magnitude `k` round to `j` or more: is it beyond the middle of `j - 1` and `j` (on the middle the
even one of the two is taken) -/
def rootFrom (k j : Nat) : Bool :=
  let a := (num (j - 1) * den j + num j * den (j - 1)) ^ 2 * den k
  let b := num k * (2 * den (j - 1) * den j) ^ 2
  j = 0 || a < b || (a = b && j % 2 = 0)

/-- the last pattern the root rounds to or beyond, bit by bit -/
def rootBits (k : Nat) : Nat → Nat → Nat
  | 0, acc => acc
  | b + 1, acc => if rootFrom k (acc + 2 ^ b) then rootBits k b (acc + 2 ^ b) else rootBits k b acc

/-- `f64::sqrt` -/
def sqrt : F64 → F64
  | .nan => .nan
  | .inf s => if s then .nan else .inf s
  | .fin s k h => if k = 0 then .fin s k h else if s then .nan else mk false (rootBits k 63 0)

example : sqrt (mk false (ofDec 4 0)) = mk false (ofDec 2 0) := by decide +kernel
/-- `2f64.sqrt()` is 1.4142135623730951 -/
example : sqrt (mk false (ofDec 2 0)) = mk false 0x3FF6A09E667F3BCD := by decide +kernel
/-- the least double has the root 2^-537 -/
example : sqrt (mk false 1) = mk false (486 * 2 ^ 52) := by decide +kernel
/-- `1.0 / 3.0` -/
example : div one (mk false (ofDec 3 0)) = mk false 0x3FD5555555555555 := by decide +kernel

end Verif.F64

namespace Verif.Build
open Verif Mapping

/-- `DVec3::normalize` (geometry/direction/mod.rs:41-45, ifc_builder/walls.rs:225): the vector times the reciprocal of
the root of its product with itself -/
def normalize3 (v : V3) : V3 :=
  vscale v (F64.one.div (F64.sqrt (((v.1.mul v.1).add (v.2.1.mul v.2.1)).add (v.2.2.mul v.2.2))))

/-- `DVec2::normalize` (geometry/direction/mod.rs:22-26) -/
def normalize2 (v : V2) : V2 :=
  let r := F64.one.div (F64.sqrt ((v.1.mul v.1).add (v.2.mul v.2)))
  (v.1.mul r, v.2.mul r)

example : normalize3 axisZ = axisZ := by decide +kernel
/-- (3, 4, 0) becomes (0.6000000000000001, 0.8, 0) -/
example : normalize3 (F64.mk false (F64.ofDec 3 0), F64.mk false (F64.ofDec 4 0), F64.zero) =
    (F64.mk false 0x3FE3333333333334, F64.mk false 0x3FE999999999999A, F64.zero) := by decide +kernel

end Verif.Build
