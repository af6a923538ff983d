import Verif.Model.CheckError
import Verif.Props.Verify
/-
C85: what the error of a check must name.
-/
namespace Verif.CheckError
open Verif

/-- a reference that exists and has the wrong type -/
def IllTyped (m : DataMap) (n : Nat) (ks : List Kind) (k : Kind) : Prop := (∃ v, m.lookup n = some (.known k v)) ∧ k ∉ ks

/-- all checked references of the entry `j` are good, if there is such an entry -/
def GoodEntry (m : DataMap) (j : Nat) : Prop := ∀ e, m.lookup j = some e → ∀ n ks, e.HasCheckedRef n ks → GoodTarget m n ks

/-- no checked reference leads nowhere -/
def NoneMissing (m : DataMap) : Prop := ∀ j e, m.lookup j = some e → ∀ n ks, e.HasCheckedRef n ks → m.lookup n ≠ none

end Verif.CheckError
