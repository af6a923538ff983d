import Verif.Model.Prim
/-
Specification vocabulary: the compressed form of a global id, a base-64 numeral with the digits
`0`..`9`, `A`..`Z`, `a`..`z`, `_`, `$` (buildingSMART). Written by character codes, independently of the model's table.
-/
namespace Verif

/-- digit value of a character; 64 for a character that is no digit -/
def guidDigit (c : Char) : Nat :=
  if 48 ≤ c.toNat ∧ c.toNat ≤ 57 then c.toNat - 48
  else if 65 ≤ c.toNat ∧ c.toNat ≤ 90 then 10 + (c.toNat - 65)
  else if 97 ≤ c.toNat ∧ c.toNat ≤ 122 then 36 + (c.toNat - 97)
  else if c = '_' then 62
  else if c = '$' then 63
  else 64

/-- one of the 64 digits -/
def GuidLetter (c : Char) : Prop := guidDigit c < 64

instance (c : Char) : Decidable (GuidLetter c) := by unfold GuidLetter; infer_instance

/-- value of a text as a base-64 numeral -/
def guidTextValue (w : Str) : Nat := w.foldl (fun a c => a * 64 + guidDigit c) 0
/-- value of the 16 bytes, most significant first -/
def Guid.value (g : Guid) : Nat := g.bytes.foldl (fun a b => a * 256 + b.toNat) 0

end Verif
