import Verif.Spec.HeaderText
import Verif.Model.File
/-
C83: the two parts of a file.
-/
namespace Verif

/-- the same outcome with another header, if there is a model -/
def Load.withHeader (h : Header) : Load → Load
  | .ok f => .ok { f with header := h }
  | .parseError => .parseError
  | .verifyError => .verifyError
  | .panic => .panic

end Verif
