import Verif.Model.Parser
/-
Specification vocabulary: what may stand between two tokens.
-/
namespace Verif

/-- Everything that may stand between two tokens: blanks, tabs, line ends and complete comments, in any mix.
A comment body does not contain the closing mark, also not overlapping its end. -/
inductive Gap : Str → Prop
  | nil : Gap []
  | ws {c : Char} {g : Str} : (c = ' ' ∨ c = '\t' ∨ c = '\r' ∨ c = '\n') → Gap g → Gap (c :: g)
  | comment {body g : Str} : ¬ cs! "*/" <:+: body ++ cs! "*" → Gap g → Gap (cs! "/*" ++ body ++ cs! "*/" ++ g)

/-- What may follow an attribute: nothing, a comma, a closing parenthesis, a blank or a comment. -/
def Delim : Str → Prop
  | [] => True
  | c :: _ => c = ',' ∨ c = ')' ∨ c = ' ' ∨ c = '\t' ∨ c = '\r' ∨ c = '\n' ∨ c = '/'

instance (s : Str) : Decidable (Delim s) := by cases s <;> unfold Delim <;> infer_instance

end Verif
