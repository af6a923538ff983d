import Verif.Spec.Layout
import Verif.Spec.Unknown
import Verif.Spec.Header
import Verif.Spec.Written
import Verif.Model.File
/-
Specification vocabulary: the text of a whole file, and what a model comes back as after saving and loading.
-/
namespace Verif

/-- every comment that begins in `w` ends in `w` -/
def CommentsEnd (w : Str) : Prop := ∀ a b, w = a ++ (cs! "/*" ++ b) → cs! "*/" <:+: b

/-- texts of unknown entities: no semicolon, no open comment, no blanks or comments at the ends, unknown keyword -/
structure UnknownPlain (w : Str) : Prop where
  semi : ';' ∉ w
  closed : CommentsEnd w
  head : ∀ g b, w = g ++ b → Gap g → g = []
  tail : ∀ a g, w = a ++ g → Gap g → g = []
  keyword : UnknownKeyword (w ++ [';'])

/-- the spellings of an entity -/
inductive EntText : Entity → Str → Prop
  | known {k : Kind} {v : (Schema.row k).Val} {s : Str} : Lay (Schema.row k) v s → EntText (.known k v) s
  | unknown {w g : Str} : UnknownPlain w → Gap g → EntText (.dummy w) (w ++ (g ++ [';']))

/-- instance lines, in the order they stand in the file -/
inductive LinesText : List (Nat × Entity) → Str → Prop
  | nil {g : Str} : Gap g → LinesText [] g
  | cons {i : Nat} {e : Entity} {es : List (Nat × Entity)} {t s u : Str} :
      i < 2 ^ 64 → EntText e t → LineText i t s → LinesText es u → LinesText ((i, e) :: es) (s ++ u)

/-- a file: header, data section, end mark -/
def FileText (hd : Str) (es : List (Nat × Entity)) (s : Str) : Prop :=
  ∃ g1 ls g2 g3, Gap g1 ∧ LinesText es ls ∧ Gap g2 ∧ Gap g3 ∧
    s = hd ++ (g1 ++ (cs! "DATA;" ++ (ls ++ (cs! "ENDSEC;" ++ (g2 ++ (cs! "END-ISO-10303-21;" ++ g3))))))

/-- entities whose text is well formed -/
def Entity.Writable : Entity → Prop
  | .known k v => (Schema.row k).Writable v
  | .dummy w => UnknownPlain w

/-- entities that come back exactly -/
def Entity.Exact : Entity → Prop
  | .known k v => (Schema.row k).Exact v
  | .dummy _ => True

/-- what an entity comes back as -/
def Entity.reread : Entity → Entity
  | .known k v => .known k ((Schema.row k).reread v)
  | .dummy w => .dummy w

/-- what a model comes back as: the time without fractions of a second, every entity by itself -/
def Ifc.reread (f : Ifc) : Ifc :=
  ⟨{ f.header with time := { f.header.time with nanos := 0 } }, f.data.map fun ie => (ie.1, ie.2.reread)⟩

end Verif
