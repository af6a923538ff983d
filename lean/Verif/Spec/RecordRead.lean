import Verif.Spec.Exchange
import Verif.Spec.File
import Verif.Spec.Says
/-
Specification vocabulary for C69: the lines of a data section written by any program that follows the file format, and what it
means that they are read completely.
-/
namespace Verif.Records
open Verif
open Exchange

/-- the number that digits stand for -/
def numeral (ds : Str) : Nat := ds.foldl (fun n c => 10 * n + (c.toNat - 48)) 0

/-- a text with blanks and comments before and after it -/
def around (x : Str × Str × Str) : Str := x.1 ++ (x.2.1 ++ x.2.2)

/-- KEYWORD: of the standard, or defined by a user -/
def Word (w : Str) : Prop := Keyword w ∨ ∃ u, Keyword u ∧ w = '!' :: u

/-- PARAMETER, with blanks and comments between its tokens -/
inductive Term : Str → Prop
  | token {p : Str} : Param p → Term p
  | typed {w p a b c : Str} : Word w → Gap a → Gap b → Gap c → Term p →
      Term (w ++ (a ++ '(' :: (around (b, p, c) ++ [')'])))
  | none {g : Str} : Gap g → Term ('(' :: (g ++ [')']))
  | list {ps : List (Str × Str × Str)} : (∀ x ∈ ps, Gap x.1 ∧ Gap x.2.2) → (∀ x ∈ ps, Term x.2.1) →
      Term ('(' :: (commas (ps.map around) ++ [')']))

/-- SIMPLE_RECORD, with blanks and comments between its tokens -/
def LaidRecord (s : Str) : Prop :=
  ∃ w a b, Word w ∧ Gap a ∧ s = w ++ (a ++ '(' :: (b ++ [')'])) ∧
    (Gap b ∨ ∃ ps : List (Str × Str × Str), (∀ x ∈ ps, Gap x.1 ∧ Term x.2.1 ∧ Gap x.2.2) ∧ b = commas (ps.map around))

/-- SUBSUPER_RECORD: several records in parentheses -/
def LaidComplex (s : Str) : Prop :=
  ∃ (rs : List (Str × Str)) (g : Str), rs ≠ [] ∧ (∀ x ∈ rs, Gap x.1 ∧ LaidRecord x.2) ∧ Gap g ∧
    s = '(' :: ((rs.map fun x => x.1 ++ x.2).flatten ++ (g ++ [')']))

/-- an instance line: digits of the number, record, blanks and comments before the semicolon -/
structure Line where
  digits : Str
  record : Str
  pad : Str

/-- the record with its semicolon -/
def Line.body (l : Line) : Str := l.record ++ (l.pad ++ [';'])

/-- instance lines, with blanks and comments between their tokens -/
inductive RecordLines : List Line → Str → Prop
  | nil {g : Str} : Gap g → RecordLines [] g
  | cons {l : Line} {g b1 b2 u : Str} {ls : List Line} : Gap g → l.digits ≠ [] → StepDigits l.digits → Gap b1 → Gap b2 →
      (LaidRecord l.record ∨ LaidComplex l.record) → Gap l.pad → RecordLines ls u →
      RecordLines (l :: ls) (g ++ ('#' :: (l.digits ++ (b1 ++ '=' :: (b2 ++ (l.body ++ u))))))

/-- a number without leading zeros, below 2^64 -/
def Usual (ds : Str) : Prop := (ds = ['0'] ∨ ds.head? ≠ some '0') ∧ numeral ds < 2 ^ 64

/-- a record of a known type in one of its standard layouts; or one without semicolon and open comment, that is not a plane
angle -/
def Tame (l : Line) : Prop :=
  (∃ (k : Kind) (v : (Schema.row k).Val), Lay (Schema.row k) v l.body) ∨
  (';' ∉ l.record ∧ CommentsEnd l.record ∧ ¬ cs! "IFCPLANEANGLEMEASURE(" <+: l.record)

/-- the entry made of a line: its number, and either an entity of a known type that the record is a text of, or, if the
record is in no standard layout of a known type, the record word for word -/
def EntryOf (l : Line) (ie : Nat × Entity) : Prop :=
  ie.1 = numeral l.digits ∧
    ((∃ (k : Kind) (v : (Schema.row k).Val), ie.2 = .known k v ∧ Says (Schema.row k) v l.body) ∨
     (ie.2 = .dummy l.record ∧ ∀ (k : Kind) (v : (Schema.row k).Val), ¬ Lay (Schema.row k) v l.body))

end Verif.Records
