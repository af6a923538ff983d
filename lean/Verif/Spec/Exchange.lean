import Verif.Model.File
import Verif.Spec.Step
/-
Specification vocabulary: the grammar of ISO 10303-21 (second edition, which is what the header `'2;1'` names) as far
as an IFC file can use it.

Written from knowledge of the standard: trusted base.  Blanks and comments inside a record are left out, since the
library writes none; so is the directive `\S\` before an apostrophe.
-/
namespace Verif.Exchange
open Verif

/-- printable ASCII -/
def Basic (c : Char) : Prop := ' ' ≤ c ∧ c ≤ '~'

def Digit (c : Char) : Prop := '0' ≤ c ∧ c ≤ '9'

/-- UPPER, with the underscore -/
def Upper (c : Char) : Prop := 'A' ≤ c ∧ c ≤ 'Z' ∨ c = '_'

def Hex (c : Char) : Prop := Digit c ∨ 'A' ≤ c ∧ c ≤ 'F'

/-- one or more groups of `n` hexadecimal digits -/
def HexGroups (n : Nat) (s : Str) : Prop :=
  ∃ gs : List Str, gs ≠ [] ∧ (∀ g ∈ gs, g.length = n ∧ ∀ c ∈ g, Hex c) ∧ s = gs.flatten

/-- what stands between the apostrophes of a STRING -/
inductive Chars : Str → Prop
  | nil : Chars []
  | plain {c : Char} {s : Str} : Basic c → c ≠ '\'' → c ≠ '\\' → Chars s → Chars (c :: s)
  | quote {s : Str} : Chars s → Chars ('\'' :: '\'' :: s)
  | backslash {s : Str} : Chars s → Chars ('\\' :: '\\' :: s)
  | page {c : Char} {s : Str} : Basic c → c ≠ '\'' → Chars s → Chars ('\\' :: 'S' :: '\\' :: c :: s)
  | alphabet {c : Char} {s : Str} : Upper c → Chars s → Chars ('\\' :: 'P' :: c :: '\\' :: s)
  | byte {a b : Char} {s : Str} : Hex a → Hex b → Chars s → Chars ('\\' :: 'X' :: '\\' :: a :: b :: s)
  | wide {h s : Str} : HexGroups 4 h → Chars s → Chars (cs! "\\X2\\" ++ (h ++ (cs! "\\X0\\" ++ s)))
  | full {h s : Str} : HexGroups 8 h → Chars s → Chars (cs! "\\X4\\" ++ (h ++ (cs! "\\X0\\" ++ s)))

/-- STRING -/
def StepString (s : Str) : Prop := ∃ w, Chars w ∧ s = '\'' :: (w ++ ['\''])

/-- INTEGER -/
def StepInteger (s : Str) : Prop := ∃ sg ds, StepSign sg ∧ ds ≠ [] ∧ StepDigits ds ∧ s = sg ++ ds

/-- ENTITY_INSTANCE_NAME -/
def StepName (s : Str) : Prop := ∃ ds, ds ≠ [] ∧ StepDigits ds ∧ s = '#' :: ds

/-- KEYWORD of the standard's own kind -/
def Keyword (s : Str) : Prop := ∃ c r, s = c :: r ∧ Upper c ∧ ∀ x ∈ r, Upper x ∨ Digit x

/-- BINARY -/
def StepBinary (s : Str) : Prop := ∃ c h, '0' ≤ c ∧ c ≤ '3' ∧ (∀ x ∈ h, Hex x) ∧ s = '"' :: c :: (h ++ ['"'])

/-- PARAMETER -/
inductive Param : Str → Prop
  | omitted : Param ['$']
  | derived : Param ['*']
  | int {s : Str} : StepInteger s → Param s
  | real {s : Str} : StepReal s → Param s
  | string {s : Str} : StepString s → Param s
  | name {s : Str} : StepName s → Param s
  | enum {w : Str} : Keyword w → Param ('.' :: (w ++ ['.']))
  | binary {s : Str} : StepBinary s → Param s
  | typed {w p : Str} : Keyword w → Param p → Param (w ++ '(' :: (p ++ [')']))
  | list {ps : List Str} : (∀ p ∈ ps, Param p) → Param ('(' :: (commas ps ++ [')']))

/-- SIMPLE_RECORD -/
def Record (s : Str) : Prop := ∃ w ps, Keyword w ∧ (∀ p ∈ ps, Param p) ∧ s = w ++ '(' :: (commas ps ++ [')'])

/-- blanks -/
def Blanks (s : Str) : Prop := ∀ c ∈ s, c = ' ' ∨ c = '\n'

/-- ENTITY_INSTANCE with number `i` -/
def Instance (i : Nat) (s : Str) : Prop :=
  ∃ ds b1 b2 r, ds ≠ [] ∧ StepDigits ds ∧ ds.foldl (fun n c => 10 * n + (c.toNat - 48)) 0 = i ∧ Blanks b1 ∧ Blanks b2 ∧
    Record r ∧ s = '#' :: (ds ++ (b1 ++ '=' :: (b2 ++ (r ++ [';']))))

/-- instances one after the other -/
inductive Instances : List Nat → Str → Prop
  | nil : Instances [] []
  | cons {i : Nat} {is : List Nat} {s b t : Str} :
      Instance i s → Blanks b → Instances is t → Instances (i :: is) (s ++ (b ++ t))

/-- a list of strings that may not be empty -/
def Strings (s : Str) : Prop := ∃ ts : List Str, ts ≠ [] ∧ (∀ t ∈ ts, StepString t) ∧ s = '(' :: (commas ts ++ [')'])

/-- `FILE_DESCRIPTION`: description, implementation level -/
def FileDescription (s : Str) : Prop :=
  ∃ a b, Strings a ∧ StepString b ∧ s = cs! "FILE_DESCRIPTION(" ++ (commas [a, b] ++ cs! ");")

/-- `FILE_NAME`: name, time stamp, author, organization, preprocessor version, originating system, authorisation -/
def FileName (s : Str) : Prop :=
  ∃ a b c d e f g, StepString a ∧ StepString b ∧ Strings c ∧ Strings d ∧ StepString e ∧ StepString f ∧ StepString g ∧
    s = cs! "FILE_NAME(" ++ (commas [a, b, c, d, e, f, g] ++ cs! ");")

/-- `FILE_SCHEMA`: schema identifiers -/
def SchemaRecord (s : Str) : Prop := ∃ a, Strings a ∧ s = cs! "FILE_SCHEMA(" ++ (a ++ cs! ");")

/-- texts with blanks between them -/
inductive Spaced : List Str → Str → Prop
  | nil : Spaced [] []
  | cons {w b s : Str} {ws : List Str} : Blanks b → Spaced ws s → Spaced (w :: ws) (w ++ (b ++ s))

/-- EXCHANGE_FILE with the instances `is` -/
def File (is : List Nat) (s : Str) : Prop :=
  ∃ d n c es, FileDescription d ∧ FileName n ∧ SchemaRecord c ∧ Instances is es ∧ is.Nodup ∧
    Spaced [cs! "ISO-10303-21;", cs! "HEADER;", d, n, c, cs! "ENDSEC;", cs! "DATA;", es, cs! "ENDSEC;",
      cs! "END-ISO-10303-21;"] s

/-! ### Which models are written so -/

/-- texts of entities: printable ASCII without apostrophe and backslash, and the seven German letters -/
def PlainText (s : Str) : Prop := ∀ c ∈ s, (Basic c ∧ c ≠ '\'' ∧ c ≠ '\\') ∨ c ∈ cs! "ÄäÖöÜüß"

/-- texts of the header: printable ASCII without apostrophe and backslash -/
def PlainHead (s : Str) : Prop := ∀ c ∈ s, Basic c ∧ c ≠ '\'' ∧ c ≠ '\\'

def Finite (x : F64) : Prop := ∃ neg k h, x = .fin neg k h

def PlainValue : Value → Prop
  | .label s => PlainText s
  | .identifier s => PlainText s
  | .real r => Finite r
  | .thermal r => Finite r
  | .bool _ => True

/-- values of an attribute that have a form in the file format: reals are finite, texts are plain, nothing is given
inline but a plane angle -/
def Plain : (f : Fld) → f.Val → Prop
  | .real, r => Finite r
  | .str, s => PlainText s
  | .value, x => PlainValue x
  | .vec2, v => Finite v.1 ∧ Finite v.2
  | .vec3, v => Finite v.1 ∧ Finite v.2.1 ∧ Finite v.2.2
  | .opt f, v => match v with
    | .custom a => Plain f a
    | _ => True
  | .list f, vs => ∀ v ∈ vs, Plain f v
  | .idOr k f, v => match v with
    | .id _ => True
    | .custom a => k = .PlaneAngleMeasure ∧ Plain f a
  | .seq f g, v => Plain f v.1 ∧ Plain g v.2
  | .ent _ _ b _, v => Plain b v
  | _, _ => True

/-- no text of the value has an apostrophe or a backslash -/
def Unescaped : (f : Fld) → f.Val → Prop
  | .str, s => '\'' ∉ s ∧ '\\' ∉ s
  | .value, x => match x with
    | .label s => '\'' ∉ s ∧ '\\' ∉ s
    | .identifier s => '\'' ∉ s ∧ '\\' ∉ s
    | _ => True
  | .opt f, v => match v with
    | .custom a => Unescaped f a
    | _ => True
  | .list f, vs => ∀ v ∈ vs, Unescaped f v
  | .idOr _ f, v => match v with
    | .id _ => True
    | .custom a => Unescaped f a
  | .seq f g, v => Unescaped f v.1 ∧ Unescaped g v.2
  | .ent _ _ b _, v => Unescaped b v
  | _, _ => True

/-- the attributes of an entity, one by one -/
def parts : (f : Fld) → f.Val → List ((f : Fld) × f.Val)
  | .seq f g, v => parts f v.1 ++ parts g v.2
  | .ent _ _ b _, v => parts b v
  | f, v => [⟨f, v⟩]

/-- entities with a line in the file format -/
def PlainEntity : Entity → Prop
  | .known k v => k ≠ .PlaneAngleMeasure ∧ Plain (Schema.row k) v
  | .dummy w => Record w

structure PlainHeader (h : Header) : Prop where
  names : ∀ v ∈ h.descriptions, PlainHead v.name
  items : ∀ v ∈ h.descriptions, ∀ i ∈ v.items, PlainHead i
  fileName : PlainHead h.fileName
  authors : ∀ a ∈ h.authors, PlainHead a
  orgs : ∀ a ∈ h.orgs, PlainHead a
  preprocessor : PlainHead h.preprocessor
  system : PlainHead h.system
  authorization : PlainHead h.authorization
  someAuthor : h.authors ≠ []
  someOrg : h.orgs ≠ []
  someSchema : h.schemas ≠ []

end Verif.Exchange
