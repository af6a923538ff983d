import Verif.Spec.HandEdit
/-
C82: lines that are rewritten by hand.
-/
namespace Verif.Hand
open Verif

/-- a name that is none of the known types, spelled as they are in a file; it begins with something visible and has no
parenthesis, semicolon or slash in it -/
structure OtherName (u : Str) : Prop where
  front : ∀ c ∈ u.head?, c ∉ cs! " \t\r\n"
  plain : ∀ c ∈ u, c ∉ cs! "(;/"
  other : ∀ k, ∀ n ∈ expressNames k, u ≠ n.map upperAscii

/-- what stands behind the opening parenthesis, to the closing one; no semicolon is in it, and every comment ends in it -/
structure Attributes (y : Str) : Prop where
  semi : ';' ∉ y
  closed : CommentsEnd y
  last : y.getLast? = some ')'

/-- small instead of capital letters -/
def lowerAscii (c : Char) : Char := if 65 ≤ c.toNat ∧ c.toNat ≤ 90 then Char.ofNat (c.toNat + 32) else c

end Verif.Hand
