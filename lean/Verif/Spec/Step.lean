import Verif.Model.Parser
/-
Specification vocabulary: the token syntax of ISO 10303-21 (the file format of IFC files), as far as it is used here.
-/
namespace Verif

/-- digits only -/
def StepDigits (s : Str) : Prop := ∀ c ∈ s, '0' ≤ c ∧ c ≤ '9'

/-- nothing, `+` or `-` -/
def StepSign (s : Str) : Prop := s = [] ∨ s = ['+'] ∨ s = ['-']

/-- REAL: `[ SIGN ] DIGIT { DIGIT } "." { DIGIT } [ "E" [ SIGN ] DIGIT { DIGIT } ]` -/
def StepReal (s : Str) : Prop :=
  ∃ sg ip fp ex, StepSign sg ∧ StepDigits ip ∧ ip ≠ [] ∧ StepDigits fp ∧
    (ex = [] ∨ ∃ sg' ds, StepSign sg' ∧ StepDigits ds ∧ ds ≠ [] ∧ ex = 'E' :: (sg' ++ ds)) ∧
    s = sg ++ (ip ++ '.' :: (fp ++ ex))

/-- texts joined by commas -/
def commas : List Str → Str
  | [] => []
  | [s] => s
  | s :: t :: r => s ++ ',' :: commas (t :: r)

end Verif
