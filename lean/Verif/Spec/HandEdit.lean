import Verif.Spec.File
import Verif.Spec.HeaderText
/-
C81: files that are changed by hand, a line at a time.
-/
namespace Verif.Hand
open Verif

/-- what stands around the instance lines of a file -/
structure Frame where
  header : Header
  head : Str
  gap1 : Str
  gap2 : Str
  gap3 : Str

/-- … as the format has it -/
structure Frame.Good (p : Frame) : Prop where
  head : HeaderText p.header p.head
  gap1 : Gap p.gap1
  gap2 : Gap p.gap2
  gap3 : Gap p.gap3

/-- the file with these instance lines -/
def Frame.file (p : Frame) (ls : Str) : Str :=
  p.head ++ (p.gap1 ++ (cs! "DATA;" ++ (ls ++ (cs! "ENDSEC;" ++ (p.gap2 ++ (cs! "END-ISO-10303-21;" ++ p.gap3))))))

/-- `l` is a line with the number `i` that says `e` -/
def LineOf (i : Nat) (e : Entity) (l : Str) : Prop := i < 2 ^ 64 ∧ ∃ t, EntText e t ∧ LineText i t l

/-- the line in comment marks -/
def commentedOut (l : Str) : Str := cs! "/*" ++ l ++ cs! "*/"

end Verif.Hand
