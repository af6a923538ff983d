/-
Model of the reader combinators.

The combinators themselves belong to the external crate `winnow` (version 0.6, /repo/Cargo.toml:23); they are
modelled after that version's documented semantics.  The readers built from them in
`/repo/ifc_rs/src/parser/mod.rs` are modelled line by line.
-/
namespace Verif

/-- Text is a list of Unicode scalar values (Rust `&str`). -/
abbrev Str := List Char

/-- `cs! "abc"` is the explicit list `['a','b','c']`. -/
syntax:max "cs!" str : term
macro_rules
  | `(cs! $s:str) => do
    let elems := s.getString.toList.map fun c => Lean.Syntax.mkCharLit c
    `(([$(elems.toArray),*] : List Char))

/-- Result of a reader: winnow's `Ok`, `ErrMode::Backtrack`, `ErrMode::Cut`; and a Rust panic as a value. -/
inductive Res (α : Type) where
  | ok (a : α) (rest : Str)
  | back
  | cut
  | panic
  deriving DecidableEq, Repr

/-- `Parser<&str, T, EmptyError>` (parser/mod.rs:23-24). -/
abbrev P (α : Type) := Str → Res α

namespace Res
/-- continue after success; all failures propagate (Rust `?`). -/
def bind {α β : Type} (r : Res α) (f : α → Str → Res β) : Res β :=
  match r with
  | .ok a rest => f a rest
  | .back => .back
  | .cut => .cut
  | .panic => .panic
end Res

namespace P
/-- winnow sequencing (tuples, `seq!`, `preceded`, …). -/
def bind {α β : Type} (p : P α) (f : α → P β) : P β := fun s => (p s).bind fun a r => f a r
/-- winnow `Parser::map`. -/
def map {α β : Type} (f : α → β) (p : P α) : P β := fun s => (p s).bind fun a r => .ok (f a) r
/-- winnow `empty.value(a)`. -/
def pure {α : Type} (a : α) : P α := fun s => .ok a s
/-- winnow `fail` (used by `IFCParse::fallback`, parser/mod.rs:39-44). -/
def fail {α : Type} : P α := fun _ => .back
/-- winnow `alt((p, q))`: the second is tried only when the first backtracks. -/
def alt {α : Type} (p q : P α) : P α := fun s =>
  match p s with
  | .back => q s
  | r => r
/-- winnow `alt` over an array. -/
def altL {α : Type} : List (P α) → P α
  | [] => fail
  | p :: ps => alt p (altL ps)
/-- winnow `opt`. -/
def opt {α : Type} (p : P α) : P (Option α) := fun s =>
  match p s with
  | .ok a r => .ok (some a) r
  | .back => .ok none s
  | .cut => .cut
  | .panic => .panic
/-- winnow `peek(not(p))`: succeeds, consuming nothing, iff `p` backtracks. -/
def peekNot {α : Type} (p : P α) : P Unit := fun s =>
  match p s with
  | .ok _ _ => .back
  | .back => .ok () s
  | .cut => .cut
  | .panic => .panic
/-- winnow `cut_err`. -/
def cutErr {α : Type} (p : P α) : P α := fun s =>
  match p s with
  | .back => .cut
  | r => r
/-- `delimited(a, p, b)` / `preceded` / `terminated`. -/
def delimited {α β γ : Type} (a : P α) (p : P β) (b : P γ) : P β :=
  a.bind fun _ => p.bind fun x => b.map fun _ => x
def preceded {α β : Type} (a : P α) (p : P β) : P β := a.bind fun _ => p
def terminated {α β : Type} (p : P α) (b : P β) : P α := p.bind fun x => b.map fun _ => x
/-- `.verify_map`: failure of the map is a backtrack. -/
def verifyMap {α β : Type} (p : P α) (f : α → Option β) : P β := fun s =>
  (p s).bind fun a r => match f a with
    | some b => .ok b r
    | none => .back
end P

/-- remove a literal prefix -/
def stripPrefix : Str → Str → Option Str
  | [], s => some s
  | _ :: _, [] => none
  | a :: p, b :: s => if a = b then stripPrefix p s else none

/-- a `&str` used as a winnow parser -/
def lit (p : Str) : P Unit := fun s =>
  match stripPrefix p s with
  | some r => .ok () r
  | none => .back

/-- winnow `any` -/
def anyChar : P Char
  | [] => .back
  | c :: r => .ok c r

/-- winnow `take_while(.., p)` -/
def takeWhileP (p : Char → Bool) : P Str := fun s => .ok (s.takeWhile p) (s.dropWhile p)

/-- winnow `take_while(1.., p)` (also `digit1`, `multispace1`) -/
def takeWhile1P (p : Char → Bool) : P Str := fun s =>
  match s.takeWhile p with
  | [] => .back
  | w => .ok w (s.dropWhile p)

/-- winnow `take_while(n..=n, p)`: takes at most `n` matching characters and fails if fewer. -/
def takeExactP (n : Nat) (p : Char → Bool) : P Str := fun s =>
  if (s.take n).length = n ∧ (s.take n).all p then .ok (s.take n) (s.drop n) else .back

/-- winnow `repeat_till(.., f, g)`.  `g` is tried first; when it backtracks `f` runs, and an `f` that
consumes nothing is a programming error (assert) and modelled as a panic.  Fuel: the text length bounds the number of
rounds because every round consumes. -/
def repeatTillAux {α β : Type} (f : P α) (g : P β) : Nat → P (List α)
  | 0, _ => .panic
  | n + 1, s =>
    match g s with
    | .ok _ r => .ok [] r
    | .cut => .cut
    | .panic => .panic
    | .back =>
      match f s with
      | .ok a r =>
        if r.length < s.length then
          (repeatTillAux f g n r).bind fun as r' => .ok (a :: as) r'
        else .panic
      | .back => .back
      | .cut => .cut
      | .panic => .panic

def repeatTill {α β : Type} (f : P α) (g : P β) : P (List α) := fun s =>
  repeatTillAux f g (s.length + 1) s

/-- winnow `separated(.., p, sep)` after the first element: on `sep p` failing softly, stop before `sep`. -/
def separatedAux {α β : Type} (p : P α) (sep : P β) : Nat → P (List α)
  | 0, _ => .panic
  | n + 1, s =>
    match sep s with
    | .back => .ok [] s
    | .cut => .cut
    | .panic => .panic
    | .ok _ r =>
      match p r with
      | .back => .ok [] s
      | .cut => .cut
      | .panic => .panic
      | .ok a r' =>
        if r'.length < s.length then
          (separatedAux p sep n r').bind fun as r'' => .ok (a :: as) r''
        else .panic

/-- winnow `separated(.., p, sep)` -/
def separated {α β : Type} (p : P α) (sep : P β) : P (List α) := fun s =>
  match p s with
  | .back => .ok [] s
  | .cut => .cut
  | .panic => .panic
  | .ok a r => (separatedAux p sep (r.length + 1) r).bind fun as r' => .ok (a :: as) r'

/-- characters of winnow `multispace1`: space, tab, CR, LF -/
def isWs (c : Char) : Bool := c == ' ' || c == '\t' || c == '\r' || c == '\n'

/-- parser/mod.rs:62-67 `p_comment` -/
def pComment : P Unit :=
  P.preceded (lit (cs! "/*")) ((repeatTill anyChar (lit (cs! "*/"))).map fun _ => ())

/-- parser/mod.rs:69-71 `p_single_space_or_comment` -/
def pSpace1 : P Unit := P.alt ((takeWhile1P isWs).map fun _ => ()) pComment

/-- parser/mod.rs:75-82 `p_space_or_comment` -/
def pSpace : P Unit := (repeatTill pSpace1 (P.peekNot pSpace1)).map fun _ => ()

/-- parser/mod.rs:84-88 `p_space_or_comment_surrounded` -/
def sp {α : Type} (p : P α) : P α := P.delimited pSpace p pSpace

/-- parser/comma.rs:11-18 -/
def comma : P Unit := sp (lit (cs! ","))

/-- parser/mod.rs:54-56 `p_word_until` -/
def pWordUntil (e : Char) : P Str := takeWhileP fun c => c != e

/-- parser/mod.rs:58-60 `p_quote_word` -/
def pQuoteWord : P Str := P.delimited (lit (cs! "'")) (pWordUntil '\'') (lit (cs! "'"))

/-- Rust `char::is_alphanumeric` outside ASCII: Unicode tables, left uninterpreted. -/
opaque uniAlphanumeric : Char → Bool

def isDigit (c : Char) : Bool := decide ('0'.toNat ≤ c.toNat) && decide (c.toNat ≤ '9'.toNat)

/-- Rust `char::is_alphanumeric`; exact on ASCII. -/
def isAlnum (c : Char) : Bool :=
  if c.toNat < 128 then
    isDigit c || (decide (65 ≤ c.toNat) && decide (c.toNat ≤ 90)) || (decide (97 ≤ c.toNat) && decide (c.toNat ≤ 122))
  else uniAlphanumeric c

/-- parser/mod.rs:47-52 `p_ident` -/
def pIdent : P Str := takeWhileP fun c => isAlnum c || c == '_' || c == '-' || c == '.' || c == ':'

/-- decimal digit character of `d < 10` -/
def digitChar (d : Nat) : Char := Char.ofNat (48 + d)

/-- value of a digit character -/
def digitVal (c : Char) : Nat := c.toNat - 48

/-- number denoted by a list of decimal digits -/
def digitsVal (ds : Str) : Nat := ds.foldl (fun a c => a * 10 + digitVal c) 0

def natStrAux : Nat → Nat → Str → Str
  | 0, _, acc => acc
  | f + 1, n, acc =>
    if n < 10 then digitChar n :: acc else natStrAux f (n / 10) (digitChar (n % 10) :: acc)

/-- Rust `Display` of an unsigned integer -/
def natStr (n : Nat) : Str := natStrAux (n + 1) n []

/-- Rust `Display` of a signed integer -/
def intStr : Int → Str
  | .ofNat n => natStr n
  | .negSucc n => '-' :: natStr (n + 1)

/-- winnow `dec_uint` with the target type's maximum: `alt(([1-9] [0-9]*, "0"))`, out of range backtracks. -/
def decUint (max : Nat) : P Nat
  | [] => .back
  | c :: r =>
    if c = '0' then .ok 0 r
    else if isDigit c then
      let n := digitsVal (c :: r.takeWhile isDigit)
      if n ≤ max then .ok n (r.dropWhile isDigit) else .back
    else .back

/-- `[1-9] [0-9]*` as a number, used after a sign -/
def decNonZero : P Nat
  | [] => .back
  | c :: r =>
    if isDigit c && c != '0' then .ok (digitsVal (c :: r.takeWhile isDigit)) (r.dropWhile isDigit)
    else .back

/-- winnow `dec_int` for a signed type with range `[lo, hi]`:
`alt(((opt([+-]), [1-9], [0-9]*), "0"))`, out of range backtracks (so `-0` and `+0` are refused). -/
def decInt (lo hi : Int) : P Int := fun s =>
  let neg : Bool := match s with | '-' :: _ => true | _ => false
  let body : Str := match s with | '+' :: r => r | '-' :: r => r | _ => s
  match decNonZero body with
  | .ok n r =>
    let v : Int := if neg then -(n : Int) else n
    if lo ≤ v ∧ v ≤ hi then .ok v r else .back
  | .cut => .cut
  | .panic => .panic
  | .back => match s with
    | '0' :: r => .ok 0 r
    | _ => .back

/-- 64-bit `usize::MAX` -/
def usizeMax : Nat := 2 ^ 64 - 1
def i64Min : Int := -(2 ^ 63)
def i64Max : Int := 2 ^ 63 - 1
def i32Min : Int := -(2 ^ 31)
def i32Max : Int := 2 ^ 31 - 1

end Verif
