import Verif.Model.File
import Verif.Props.DataMap
import Verif.Props.Verify
/-
C74: the parts of a written file, with the line of each entry.
-/
namespace Verif.Edits
open Verif

/-- the line of an entry -/
def line (x : Nat × Entity) : Str := '#' :: natStr x.1 ++ cs! "= " ++ x.2.print ++ ['\n']

/-- the lines of entries, one after the other -/
def lines (l : List (Nat × Entity)) : Str := (l.map line).flatten

/-- what stands before the entries -/
def opening (h : Header) : Str := showHeader h ++ cs! "\nDATA;\n"

/-- what stands after the entries -/
def closing : Str := cs! "ENDSEC;\n\nEND-ISO-10303-21;\n"

/-- the file up to the place of entry `i` -/
def before (f : Ifc) (i : Nat) : Str := opening f.header ++ lines (f.data.filter fun x => x.1 < i)

/-- the file from behind the place of entry `i` on -/
def after (f : Ifc) (i : Nat) : Str := lines (f.data.filter fun x => i < x.1) ++ closing

/-- the line of entry `i`, or nothing -/
def here (f : Ifc) (i : Nat) : Str :=
  match f.data.lookup i with
  | some e => line (i, e)
  | none => []

/-- the two models have the same entries, but perhaps at `i` -/
def ButAt (i : Nat) (m m' : DataMap) : Prop := ∀ j, j ≠ i → m'.lookup j = m.lookup j

/-- the entries of `m` that `m'` has too -/
def common (m m' : DataMap) : List (Nat × Entity) := m.filter fun x => m'.lookup x.1 = some x.2

/-- the entry a call is about; for a new entry the id after the greatest one -/
def About (m : DataMap) : Op → Nat → Prop
  | .insert i _, j => j = i
  | .insertNew _, j => m.abs.Next j
  | .insertIfNotExists i _, j => j = i
  | .remove i, j => j = i
  | .modify _ i _, j => j = i

/-- some other entry has a checked reference to `i` -/
def Needed (m : DataMap) (i : Nat) : Prop := ∃ j e ks, j ≠ i ∧ m.lookup j = some e ∧ e.HasCheckedRef i ks

end Verif.Edits
