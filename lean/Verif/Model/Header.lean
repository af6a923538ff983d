import Verif.Model.Prim
/-
Model of `/repo/ifc_rs/src/meta/header` and `/repo/ifc_rs/src/meta/footer`.
-/
namespace Verif

/-! ### Date and time (chrono; external code modelled) -/

/-- A `chrono::DateTime<Utc>` as calendar fields; `sec = 60` is chrono's leap second. -/
structure Civil where
  year : Int
  month : Nat
  day : Nat
  hour : Nat
  min : Nat
  sec : Nat
  nanos : Nat
  deriving DecidableEq, Repr

def isLeap (y : Int) : Bool := y % 4 == 0 && (y % 100 != 0 || y % 400 == 0)

def daysInMonth (y : Int) (m : Nat) : Nat :=
  if m = 2 then (if isLeap y then 29 else 28)
  else if m = 4 ∨ m = 6 ∨ m = 9 ∨ m = 11 then 30 else 31

/-- a calendar date and time of day that chrono accepts (any minute may carry second 60) -/
def Civil.Valid (c : Civil) : Prop :=
  1 ≤ c.month ∧ c.month ≤ 12 ∧ 1 ≤ c.day ∧ c.day ≤ daysInMonth c.year c.month ∧
  c.hour ≤ 23 ∧ c.min ≤ 59 ∧ c.sec ≤ 60 ∧ c.nanos < 1000000000

instance (c : Civil) : Decidable c.Valid := by unfold Civil.Valid; infer_instance

/-- the date before -/
def Civil.prevDay (c : Civil) : Civil :=
  if 1 < c.day then { c with day := c.day - 1 }
  else if 1 < c.month then { c with month := c.month - 1, day := daysInMonth c.year (c.month - 1) }
  else { c with year := c.year - 1, month := 12, day := 31 }

/-- the date after -/
def Civil.nextDay (c : Civil) : Civil :=
  if c.day < daysInMonth c.year c.month then { c with day := c.day + 1 }
  else if c.month < 12 then { c with month := c.month + 1, day := 1 }
  else { c with year := c.year + 1, month := 1, day := 1 }

/-- local time with offset `o` minutes (|o| < 1440) to UTC -/
def Civil.toUtc (c : Civil) (o : Int) : Civil :=
  let t : Int := (c.hour * 60 + c.min : Nat) - o
  if t < 0 then { c.prevDay with hour := ((t + 1440) / 60).toNat, min := ((t + 1440) % 60).toNat }
  else if 1440 ≤ t then { c.nextDay with hour := ((t - 1440) / 60).toNat, min := ((t - 1440) % 60).toNat }
  else { c with hour := (t / 60).toNat, min := (t % 60).toNat }

/-- two ASCII digits -/
def two : Str → Option (Nat × Str)
  | a :: b :: r => if isDigit a && isDigit b then some (digitsVal [a, b], r) else none
  | _ => none

/-- four ASCII digits -/
def four : Str → Option (Nat × Str)
  | a :: b :: c :: d :: r =>
    if isDigit a && isDigit b && isDigit c && isDigit d then some (digitsVal [a, b, c, d], r) else none
  | _ => none

/-- one given character -/
def one (p : Char → Bool) : Str → Option Str
  | c :: r => if p c then some r else none
  | [] => none

/-- optional fraction `.d+`: the first nine digits count, padded to nine -/
def fraction (s : Str) : Option (Nat × Str) :=
  match s with
  | '.' :: r =>
    match r.takeWhile isDigit with
    | [] => none
    | ds =>
      let d9 := ds.take 9
      some (digitsVal d9 * 10 ^ (9 - d9.length), r.dropWhile isDigit)
  | _ => some (0, s)

/-- `Z`, `z` or `±HH:MM` with less than 24 hours; result in minutes.  chrono takes the minus sign U+2212 for a hyphen. -/
def zone (s : Str) : Option (Int × Str) :=
  match s with
  | 'Z' :: r => some (0, r)
  | 'z' :: r => some (0, r)
  | c :: r =>
    if c = '+' ∨ c = '-' ∨ c = '−' then
      (two r).bind fun (h, r) => (one (· == ':') r).bind fun r => (two r).bind fun (m, r) =>
        if m ≤ 59 ∧ h ≤ 23 then
          some (if c = '+' then ((h * 60 + m : Nat) : Int) else -((h * 60 + m : Nat) : Int), r)
        else none
    else none
  | [] => none

/-- `DateTime::parse_from_rfc3339` followed by conversion to UTC (chrono 0.4). -/
def rfc3339 (s : Str) : Option Civil :=
  (four s).bind fun (y, r) => (one (· == '-') r).bind fun r =>
  (two r).bind fun (mo, r) => (one (· == '-') r).bind fun r =>
  (two r).bind fun (d, r) => (one (fun c => c == 'T' || c == 't' || c == ' ') r).bind fun r =>
  (two r).bind fun (h, r) => (one (· == ':') r).bind fun r =>
  (two r).bind fun (mi, r) => (one (· == ':') r).bind fun r =>
  (two r).bind fun (sec, r) => (fraction r).bind fun (ns, r) =>
  (zone r).bind fun (o, r) =>
    let c : Civil := ⟨y, mo, d, h, mi, sec, ns⟩
    if r = [] ∧ c.Valid then some (c.toUtc o) else none

/-- meta/header/deserialize.rs:118-122: as it stands, else with `Z` appended; `none` is the `unwrap` panic -/
def timeFromString (s : Str) : Option Civil :=
  match rfc3339 s with
  | some c => some c
  | none => rfc3339 (s ++ cs! "Z")

def pad2 (n : Nat) : Str := [digitChar (n / 10 % 10), digitChar (n % 10)]
def pad4 (n : Nat) : Str :=
  [digitChar (n / 1000 % 10), digitChar (n / 100 % 10), digitChar (n / 10 % 10), digitChar (n % 10)]

/-- chrono `%Y`: four digits for 0..9999, otherwise signed with at least four digits -/
def showYear (y : Int) : Str :=
  if 0 ≤ y ∧ y ≤ 9999 then pad4 y.toNat
  else if y < 0 then '-' :: (if y.natAbs < 10000 then pad4 y.natAbs else natStr y.natAbs)
  else '+' :: natStr y.natAbs

/-- `format("%Y-%m-%dT%H:%M:%S")` (meta/header/serialize.rs:59-63) -/
def showCivil (c : Civil) : Str :=
  showYear c.year ++ '-' :: (pad2 c.month ++ '-' :: (pad2 c.day ++ 'T' :: (pad2 c.hour ++ ':' ::
    (pad2 c.min ++ ':' :: pad2 c.sec))))

/-! ### Header -/

/-- meta/header/mod.rs:31-35 -/
structure ViewDef where
  name : Str
  items : List Str
  deriving DecidableEq, Repr

/-- meta/header/mod.rs:151-155 -/
inductive FileSchema where
  | ifc4x3add2 | ifc4 | ifc2x3
  deriving DecidableEq, Repr

/-- meta/header/mod.rs:9-15, 25-29, 51-59, 62-125, 133.  `version` and `implementation_level` have a single variant and are omitted. -/
structure Header where
  descriptions : List ViewDef
  fileName : Str
  time : Civil
  authors : List Str
  orgs : List Str
  preprocessor : Str
  system : Str
  authorization : Str
  schemas : List FileSchema
  deriving DecidableEq, Repr

/-- Unicode `White_Space` (Rust `str::trim`) -/
def isUniWs (c : Char) : Bool :=
  let n := c.toNat
  (9 ≤ n && n ≤ 13) || n == 32 || n == 0x85 || n == 0xA0 || n == 0x1680 || (0x2000 ≤ n && n ≤ 0x200A) ||
  n == 0x2028 || n == 0x2029 || n == 0x202F || n == 0x205F || n == 0x3000

/-- `str::trim` -/
def trim (s : Str) : Str := ((s.dropWhile isUniWs).reverse.dropWhile isUniWs).reverse

/-- `p_space_or_comment_surrounded((a, p_space_or_comment(), b))` -/
def spPair (a b : Str) : P Unit :=
  sp ((lit a).bind fun _ => pSpace.bind fun _ => lit b)

/-- meta/header/deserialize.rs:40-51 -/
def pVersion : P Unit :=
  P.delimited pSpace (lit (cs! "ISO-10303-21")) ((lit (cs! ";")).bind fun _ => pSpace)

/-- meta/header/deserialize.rs:81: one item (`repeat(.., none_of([',', ']']))`, trimmed) -/
def pViewItem : P Str := (takeWhileP fun c => c != ',' && c != ']').map trim

/-- meta/header/deserialize.rs:73-100 -/
def pViewDef : P ViewDef :=
  pSpace.bind fun _ => pIdent.bind fun name => pSpace.bind fun _ =>
  (P.delimited (lit (cs! "[")) (separated pViewItem (lit (cs! ","))) (lit (cs! "]"))).bind fun items =>
  pSpace.map fun _ => ⟨name, items.filter fun s => !s.isEmpty⟩

/-- meta/header/deserialize.rs:65-71 -/
def pDescDesc : P (List ViewDef) :=
  P.delimited (lit (cs! "("))
    (P.alt ((lit (cs! "''")).map fun _ => [])
      (separated (sp (P.delimited (lit (cs! "'")) pViewDef (lit (cs! "'")))) (lit (cs! ","))))
    (lit (cs! ")"))

/-- meta/header/deserialize.rs:102-114 -/
def pDescLevel : P Unit := P.delimited (lit (cs! "'")) (sp (lit (cs! "2;1"))) (lit (cs! "'"))

/-- meta/header/deserialize.rs:53-63 -/
def pDescription : P (List ViewDef) :=
  (spPair (cs! "FILE_DESCRIPTION") (cs! "(")).bind fun _ => pDescDesc.bind fun d =>
  comma.bind fun _ => pDescLevel.bind fun _ => (spPair (cs! ")") (cs! ";")).map fun _ => d

/-- meta/header/deserialize.rs:123-127 -/
def pFileName : P Str := P.alt ((lit (cs! "$")).map fun _ => []) pQuoteWord

/-- meta/header/deserialize.rs:128 -/
def pTime : P Civil := pQuoteWord.bind fun w s =>
  match timeFromString w with
  | some t => .ok t s
  | none => .panic

/-- meta/header/deserialize.rs:129-148 -/
def pQuoteList : P (List Str) :=
  P.delimited (lit (cs! "(")) (separated (sp pQuoteWord) (lit (cs! ","))) (lit (cs! ")"))

/-- meta/header/deserialize.rs:192-202 -/
def pSchemaInner : P FileSchema :=
  P.preceded (P.altL [lit (cs! "IFC"), lit (cs! "Ifc"), lit (cs! "ifc")])
    (P.altL
      [(P.alt (lit (cs! "4X3_ADD2")) (lit (cs! "4x3_ADD2"))).map fun _ => .ifc4x3add2,
       (P.alt (lit (cs! "2x3")) (lit (cs! "2X3"))).map fun _ => .ifc2x3,
       (P.alt (lit (cs! "4x2")) (lit (cs! "4X2"))).map fun _ => .ifc4,
       (P.alt (lit (cs! "4x3")) (lit (cs! "4X3"))).map fun _ => .ifc4x3add2,
       (lit (cs! "4")).map fun _ => .ifc4])

/-- meta/header/deserialize.rs:180-190 -/
def pSchemaOuter : P (List FileSchema) :=
  P.delimited (lit (cs! "("))
    (separated (sp (P.delimited (lit (cs! "'")) pSchemaInner (lit (cs! "'")))) (lit (cs! ",")))
    (lit (cs! ")"))

/-- meta/header/deserialize.rs:170-178 -/
def pSchema : P (List FileSchema) :=
  (spPair (cs! "FILE_SCHEMA") (cs! "(")).bind fun _ => pSchemaOuter.bind fun s =>
  (spPair (cs! ")") (cs! ";")).map fun _ => s

/-- meta/header/deserialize.rs:21-37, with `p_name` (149-168) inlined between description and schema -/
def pHeader : P Header :=
  pSpace.bind fun _ => pVersion.bind fun _ => (sp (lit (cs! "HEADER;"))).bind fun _ =>
  pDescription.bind fun descriptions => pSpace.bind fun _ =>
  (spPair (cs! "FILE_NAME") (cs! "(")).bind fun _ =>
  pFileName.bind fun fileName => comma.bind fun _ =>
  pTime.bind fun time => comma.bind fun _ =>
  pQuoteList.bind fun authors => comma.bind fun _ =>
  pQuoteList.bind fun orgs => comma.bind fun _ =>
  pQuoteWord.bind fun preprocessor => comma.bind fun _ =>
  pQuoteWord.bind fun system => comma.bind fun _ =>
  pQuoteWord.bind fun authorization =>
  (spPair (cs! ")") (cs! ";")).bind fun _ => pSpace.bind fun _ =>
  pSchema.bind fun schemas => (sp (lit (cs! "ENDSEC;"))).map fun _ =>
    { descriptions, fileName, time, authors, orgs, preprocessor, system, authorization, schemas }

/-- `Itertools::join(sep)` / `slice::join(sep)` -/
def joinWith (sep : Str) : List Str → Str
  | [] => []
  | [x] => x
  | x :: y :: r => x ++ (sep ++ joinWith sep (y :: r))

def quoted (s : Str) : Str := '\'' :: (s ++ cs! "'")

/-- meta/header/serialize.rs:44-53 -/
def showViewDef (v : ViewDef) : Str := v.name ++ cs! " [" ++ joinWith (cs! ", ") v.items ++ cs! "]"

/-- strum `Display` of `FileSchema` (meta/header/mod.rs:148-155) -/
def showFileSchema : FileSchema → Str
  | .ifc4x3add2 => cs! "IFC4X3_ADD2"
  | .ifc4 => cs! "IFC4"
  | .ifc2x3 => cs! "IFC2X3"

/-- meta/header/serialize.rs:24-42 -/
def showDescription (d : List ViewDef) : Str :=
  cs! "(" ++ (if d.isEmpty then cs! "''" else joinWith (cs! ",") (d.map fun v => quoted (showViewDef v))) ++
  cs! "),'2;1'"

/-- meta/header/serialize.rs:55-92 -/
def showDetails (h : Header) : Str :=
  quoted h.fileName ++ ',' :: (quoted (showCivil h.time) ++ ',' ::
    (cs! "(" ++ joinWith (cs! ",") (h.authors.map quoted) ++ cs! ")" ++ ',' ::
      (cs! "(" ++ joinWith (cs! ",") (h.orgs.map quoted) ++ cs! ")" ++ ',' ::
        (quoted h.preprocessor ++ ',' :: (quoted h.system ++ ',' :: quoted h.authorization)))))

/-- meta/header/serialize.rs:94-102 -/
def showSchemas (l : List FileSchema) : Str :=
  cs! "(" ++ joinWith (cs! ",") (l.map fun s => quoted (showFileSchema s)) ++ cs! ")"

/-- meta/header/serialize.rs:12-22 -/
def showHeader (h : Header) : Str :=
  cs! "ISO-10303-21;\nHEADER;\nFILE_DESCRIPTION(" ++ showDescription h.descriptions ++ cs! ");\nFILE_NAME(" ++
  showDetails h ++ cs! ");\nFILE_SCHEMA(" ++ showSchemas h.schemas ++ cs! ");\nENDSEC;\n"

/-! ### Footer -/

/-- meta/footer/deserialize.rs:11-37 -/
def pFooter : P Unit :=
  pSpace.bind fun _ =>
  (P.delimited pSpace (P.preceded (lit (cs! "END-")) (lit (cs! "ISO-10303-21")))
    ((lit (cs! ";")).bind fun _ => pSpace)).bind fun _ => pSpace

/-- meta/footer/serialize.rs:5-10 -/
def showFooter : Str := cs! "END-ISO-10303-21;\n"

end Verif
