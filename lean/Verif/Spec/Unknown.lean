import Verif.Spec.Gap
import Verif.Spec.Names
/-
Specification vocabulary: where an unknown entity ends.
-/
namespace Verif

/-- `s` is `w`, blanks or comments, a semicolon, and `t` -/
def EndsAt (s w t : Str) : Prop := ∃ g, Gap g ∧ s = w ++ (g ++ ';' :: t)

/-- `w` is the shortest beginning of `s` followed by a semicolon, not counting blanks and comments -/
def UnknownText (s w t : Str) : Prop := EndsAt s w t ∧ ∀ w' u t', w = w' ++ u → u ≠ [] → ¬ EndsAt s w' t'

/-- `s` does not begin with the keyword of a known type, not counting blanks and comments -/
def UnknownKeyword (s : Str) : Prop := ∀ k, ∀ w ∈ keywordTexts k, ∀ g t, Gap g → s ≠ g ++ (w ++ t)

end Verif
