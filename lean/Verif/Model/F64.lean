import Verif.Model.Parser
/-
Model of `f64` and of `/repo/ifc_rs/src/parser/real.rs`.

Rust's `f64` operations used by that file (`str::parse::<f64>`, `Display`, `{:.14E}`, `fract`) are external; they are
modelled exactly: parsing rounds the decimal to the nearest double (ties to even), `Display` prints the
shortest decimal that parses back (closest to the value among those), `{:.14E}` rounds exactly to
15 significant digits (ties to even).
-/
namespace Verif

/-- first magnitude pattern that is not finite: `0x7FF0_0000_0000_0000` -/
def infBits : Nat := 2047 * 2 ^ 52

/-- A double. Finite ones are sign and the lower 63 bits of the IEEE-754 pattern (`k`), which
orders magnitudes. NaN payloads are not distinguished. -/
inductive F64 where
  | nan
  | inf (neg : Bool)
  | fin (neg : Bool) (k : Nat) (h : k < infBits)
  deriving DecidableEq, Repr

namespace F64

/-- binary exponent of the unit in the last place -/
def ulpExp (k : Nat) : Int := if k < 2 ^ 53 then -1074 else (k / 2 ^ 52 : Nat) - 1075
/-- integer significand -/
def mant (k : Nat) : Nat := if k < 2 ^ 53 then k else 2 ^ 52 + k % 2 ^ 52
/-- numerator of the magnitude `mant k * 2 ^ ulpExp k` -/
def num (k : Nat) : Nat := mant k * 2 ^ (ulpExp k).toNat
/-- denominator of the magnitude (a power of two) -/
def den (k : Nat) : Nat := 2 ^ (-(ulpExp k)).toNat

/-- quotient rounded to nearest, ties to even -/
def divRoundEven (n d : Nat) : Nat :=
  let q := n / d
  let r := n % d
  if 2 * r < d then q else if d < 2 * r then q + 1 else if q % 2 = 0 then q else q + 1

/-- floor of the binary logarithm of `n/d` (`n`, `d` positive) -/
def ilog2 (n d : Nat) : Int :=
  let t : Int := (Nat.log2 n : Int) - (Nat.log2 d : Int)
  if d * 2 ^ t.toNat ≤ n * 2 ^ (-t).toNat then t else t - 1

/-- nearest double of the non-negative rational `n/d`, ties to even, as a magnitude pattern;
results `≥ infBits` mean infinity -/
def rndNE (n d : Nat) : Nat :=
  if n = 0 then 0 else
  let e : Int := max (ilog2 n d - 52) (-1074)
  let m := divRoundEven (n * 2 ^ (-e).toNat) (d * 2 ^ e.toNat)
  (e + 1074).toNat * 2 ^ 52 + m

/-- numerator and denominator of `D * 10^x` -/
def decNum (D : Nat) (x : Int) : Nat := D * 10 ^ x.toNat
def decDen (x : Int) : Nat := 10 ^ (-x).toNat

/-- nearest double to `D * 10^x` -/
def ofDec (D : Nat) (x : Int) : Nat := rndNE (decNum D x) (decDen x)

/-- sign and magnitude pattern to double -/
def mk (neg : Bool) (k : Nat) : F64 := if h : k < infBits then .fin neg k h else .inf neg

/-- floor of the decimal logarithm of `n/d` -/
def ilog10 (n d : Nat) : Int :=
  let t : Int := ((natStr n).length : Int) - ((natStr d).length : Int)
  if d * 10 ^ t.toNat ≤ n * 10 ^ (-t).toNat then t else t - 1

/-- which neighbour std prints when both `n`-digit neighbours are equally close; not modelled -/
opaque tieUp : Nat → Nat → Bool

/-- shortest decimal search: `p` = decimal exponent of the leading digit, `n` = number of digits tried next -/
def shortestGo (k : Nat) (p : Int) : Nat → Nat → Nat × Int
  | 0, _ => (num k * 5 ^ (-(ulpExp k)).toNat, -((-(ulpExp k)).toNat : Int))
  | f + 1, n =>
    let x : Int := p - n + 1
    let a := num k * 10 ^ (-x).toNat
    let b := den k * 10 ^ x.toNat
    let lo := a / b
    let okLo := decide (ofDec lo x = k)
    let okHi := decide (ofDec (lo + 1) x = k)
    if okLo && okHi then
      if 2 * (a % b) < b then (lo, x)
      else if b < 2 * (a % b) then (lo + 1, x)
      else if tieUp k n then (lo + 1, x) else (lo, x)
    else if okLo then (lo, x)
    else if okHi then (lo + 1, x)
    else shortestGo k p f (n + 1)

/-- remove trailing zeros of the digit string -/
def stripZeros : Nat → Nat → Int → Nat × Int
  | 0, D, x => (D, x)
  | f + 1, D, x => if D ≠ 0 ∧ D % 10 = 0 then stripZeros f (D / 10) (x + 1) else (D, x)

/-- shortest decimal `D * 10^x` that reads back as `k` (`k > 0`); 20 digits are always enough
(17 are), the exact expansion is the formal fallback -/
def shortest (k : Nat) : Nat × Int :=
  let r := shortestGo k (ilog10 (num k) (den k)) 20 1
  stripZeros 1100 r.1 r.2

/-- positional notation of `D * 10^x` without exponent -/
def showPos (D : Nat) (x : Int) : Str :=
  let ds := natStr D
  if 0 ≤ x then ds ++ List.replicate x.toNat '0'
  else
    let f := (-x).toNat
    if f < ds.length then ds.take (ds.length - f) ++ '.' :: ds.drop (ds.length - f)
    else '0' :: '.' :: (List.replicate (f - ds.length) '0' ++ ds)

def signStr (neg : Bool) : Str := if neg then ['-'] else []

/-- Rust `Display` of `f64` -/
def display : F64 → Str
  | nan => cs! "NaN"
  | inf neg => signStr neg ++ cs! "inf"
  | fin neg k _ => signStr neg ++ (if k = 0 then ['0'] else showPos (shortest k).1 (shortest k).2)

/-- magnitude of `d.fract()` (exact) -/
def fractK (k : Nat) : Nat := rndNE (num k % den k) (den k)

/-- number of ASCII digits other than '0' -/
def nonzeroDigits (s : Str) : Nat := (s.filter fun c => isDigit c && c != '0').length

/-- parser/real.rs:120-126 `is_scientific`; `fract` of NaN and infinities is NaN which has no digits.
The sign of the fraction is irrelevant to the count. -/
def isScientific : F64 → Bool
  | fin _ k _ =>
    let q := fractK k
    decide (10 < nonzeroDigits (if q = 0 then ['0'] else showPos (shortest q).1 (shortest q).2))
  | _ => false

/-- 15 significant digits and decimal exponent, `{:.14E}` -/
def sciDigits (k : Nat) : Nat × Int :=
  if k = 0 then (0, 0) else
  let p := ilog10 (num k) (den k)
  let x := p - 14
  let D := divRoundEven (num k * 10 ^ (-x).toNat) (den k * 10 ^ x.toNat)
  if D = 10 ^ 15 then (10 ^ 14, p + 1) else (D, p)

/-- left-pad with zeros to `n` digits -/
def padZeros (n : Nat) (s : Str) : Str := List.replicate (n - s.length) '0' ++ s

/-- parser/real.rs:137-139 `format_sci_double` (`{:.14E}`) -/
def formatSci : F64 → Str
  | nan => cs! "NaN"
  | inf neg => signStr neg ++ cs! "inf"
  | fin neg k _ =>
    let ds := padZeros 15 (natStr (sciDigits k).1)
    signStr neg ++ ds.take 1 ++ '.' :: ds.drop 1 ++ 'E' :: intStr (sciDigits k).2

/-- `d.fract() == 0.0` -/
def fractIsZero : F64 → Bool
  | fin _ k _ => decide (num k % den k = 0)
  | _ => false

/-- parser/real.rs:141-146 `format_non_sci_double` -/
def formatNonSci (d : F64) : Str := display d ++ (if fractIsZero d then ['.'] else [])

/-- parser/real.rs:118-135 `format_real_primitive` (= `Display` of `RealPrimitive`, 39-43) -/
def format (d : F64) : Str := if isScientific d then formatSci d else formatNonSci d

end F64

/-! ### Reading (winnow `float`) -/

def isSign (c : Char) : Bool := c == '+' || c == '-'

/-- optional sign: (is it `-`, rest) -/
def optSign : Str → Bool × Str
  | '+' :: r => (false, r)
  | '-' :: r => (true, r)
  | s => (false, s)

/-- ASCII lower case -/
def lowerAscii (c : Char) : Char :=
  if 65 ≤ c.toNat ∧ c.toNat ≤ 90 then Char.ofNat (c.toNat + 32) else c

/-- winnow `Caseless(lit)` for a lower-case literal -/
def litCI : Str → Str → Option Str
  | [], s => some s
  | _ :: _, [] => none
  | a :: p, b :: s => if a = lowerAscii b then litCI p s else none

/-- optional exponent of winnow `recognize_float`: `opt(([eE], opt([+-]), cut_err(digit1)))` -/
def pExponent : P Int
  | c :: r =>
    if c = 'e' ∨ c = 'E' then
      let sr := optSign r
      match sr.2.takeWhile isDigit with
      | [] => .cut
      | ds => .ok (if sr.1 then -(digitsVal ds : Int) else (digitsVal ds : Int)) (sr.2.dropWhile isDigit)
    else .ok 0 (c :: r)
  | [] => .ok 0 []

/-- mantissa of winnow `recognize_float`: `alt(((digit1, opt(('.', opt(digit1)))), ('.', digit1)))`;
result: integer digits and fraction digits -/
def pMantissa : P (Str × Str) := fun s =>
  match s.takeWhile isDigit with
  | [] =>
    match s with
    | '.' :: r =>
      match r.takeWhile isDigit with
      | [] => .back
      | fp => .ok ([], fp) (r.dropWhile isDigit)
    | _ => .back
  | ip =>
    match s.dropWhile isDigit with
    | '.' :: r => .ok (ip, r.takeWhile isDigit) (r.dropWhile isDigit)
    | r => .ok (ip, []) r

/-- winnow `float` on `&str` giving `f64`: a decimal number, or `nan`, `[+-]infinity`, `[+-]inf` in any case.
parser/real.rs:15-22 -/
def pFloat : P F64 := fun s =>
  let sr := optSign s
  match pMantissa sr.2 with
  | .ok (ip, fp) r =>
    (pExponent r).bind fun ex r' =>
      .ok (F64.mk sr.1 (F64.ofDec (digitsVal (ip ++ fp)) (ex - fp.length))) r'
  | .cut => .cut
  | .panic => .panic
  | .back =>
    match litCI (cs! "nan") s with
    | some r => .ok .nan r
    | none =>
      match litCI (cs! "infinity") sr.2 with
      | some r => .ok (.inf sr.1) r
      | none =>
        match litCI (cs! "inf") sr.2 with
        | some r => .ok (.inf sr.1) r
        | none => .back

end Verif
