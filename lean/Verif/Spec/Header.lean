import Verif.Spec.Time
import Verif.Spec.Layout
/-
Specification for the file header: which headers can be written down without loss, and the schema identifiers that are understood.
Nothing here mentions the readers or writers of the model.
-/
namespace Verif

/-- no blank at either end -/
def Trimmed (s : Str) : Prop := (∀ c ∈ s.head?, isUniWs c = false) ∧ (∀ c ∈ s.getLast?, isUniWs c = false)

instance (s : Str) : Decidable (Trimmed s) := by unfold Trimmed; infer_instance

/-- a character of a view definition name -/
def NameChar (c : Char) : Prop := isAlnum c = true ∨ c = '_' ∨ c = '-' ∨ c = '.' ∨ c = ':'

instance (c : Char) : Decidable (NameChar c) := by unfold NameChar; infer_instance

/-- an entry of a view definition: not empty, no blanks around it, no separator inside -/
def ItemText (s : Str) : Prop := s ≠ [] ∧ Trimmed s ∧ ',' ∉ s ∧ ']' ∉ s

instance (s : Str) : Decidable (ItemText s) := by unfold ItemText; infer_instance

/-- a text that can stand between apostrophes -/
def Quotable (s : Str) : Prop := '\'' ∉ s

instance (s : Str) : Decidable (Quotable s) := by unfold Quotable; infer_instance

/-- the headers that lose nothing -/
structure WritableHeader (h : Header) : Prop where
  names : ∀ v ∈ h.descriptions, ∀ c ∈ v.name, NameChar c
  items : ∀ v ∈ h.descriptions, ∀ i ∈ v.items, ItemText i
  fileName : Quotable h.fileName
  authors : ∀ a ∈ h.authors, Quotable a
  orgs : ∀ a ∈ h.orgs, Quotable a
  preprocessor : Quotable h.preprocessor
  system : Quotable h.system
  authorization : Quotable h.authorization
  time : IsTime h.time
  year : 0 ≤ h.time.year ∧ h.time.year ≤ 9999
  nanos : h.time.nanos = 0

/-- the schema identifiers that are understood, with the version each one stands for -/
def schemaTable : List (Str × FileSchema) :=
  [(cs! "IFC4X3_ADD2", .ifc4x3add2), (cs! "IFC4x3_ADD2", .ifc4x3add2), (cs! "IFC4X3", .ifc4x3add2), (cs! "IFC4x3", .ifc4x3add2),
   (cs! "IFC4X2", .ifc4), (cs! "IFC4x2", .ifc4), (cs! "IFC4", .ifc4), (cs! "IFC2X3", .ifc2x3), (cs! "IFC2x3", .ifc2x3),
   (cs! "Ifc4X3_ADD2", .ifc4x3add2), (cs! "Ifc4x3_ADD2", .ifc4x3add2), (cs! "Ifc4X3", .ifc4x3add2), (cs! "Ifc4x3", .ifc4x3add2),
   (cs! "Ifc4X2", .ifc4), (cs! "Ifc4x2", .ifc4), (cs! "Ifc4", .ifc4), (cs! "Ifc2X3", .ifc2x3), (cs! "Ifc2x3", .ifc2x3),
   (cs! "ifc4X3_ADD2", .ifc4x3add2), (cs! "ifc4x3_ADD2", .ifc4x3add2), (cs! "ifc4X3", .ifc4x3add2), (cs! "ifc4x3", .ifc4x3add2),
   (cs! "ifc4X2", .ifc4), (cs! "ifc4x2", .ifc4), (cs! "ifc4", .ifc4), (cs! "ifc2X3", .ifc2x3), (cs! "ifc2x3", .ifc2x3)]

/-- further entries of a schema list, each after a comma -/
inductive SchemaTail : List FileSchema → Str → Prop
  | nil : SchemaTail [] []
  | cons {w : Str} {v : FileSchema} {vs : List FileSchema} {t u : Str} :
      (w, v) ∈ schemaTable → Padded ('\'' :: (w ++ cs! "'")) t → SchemaTail vs u → SchemaTail (v :: vs) (',' :: (t ++ u))

/-- the text between the parentheses of a schema list, with the versions it names -/
inductive SchemaTexts : List FileSchema → Str → Prop
  | nil : SchemaTexts [] []
  | cons {w : Str} {v : FileSchema} {vs : List FileSchema} {t u : Str} :
      (w, v) ∈ schemaTable → Padded ('\'' :: (w ++ cs! "'")) t → SchemaTail vs u → SchemaTexts (v :: vs) (t ++ u)

end Verif
