import Verif.Spec.Header
/-
Which texts are headers, and what they say.  Nothing here mentions the readers or writers of the model.
-/
namespace Verif

/-- a text that does not begin with a blank or a comment -/
def NoGap (r : Str) : Prop := ∀ g r', Gap g → r = g ++ r' → g = []

/-- tokens in order, with gaps before, between and after them -/
inductive Spaced : List Str → Str → Prop
  | nil {g : Str} : Gap g → Spaced [] g
  | cons {g t u : Str} {ts : List Str} : Gap g → Spaced ts u → Spaced (t :: ts) (g ++ (t ++ u))

/-- further elements of a list, each after a comma and with gaps around it -/
inductive CommaTail {α : Type} (E : α → Str → Prop) : List α → Str → Prop
  | nil : CommaTail E [] []
  | cons {a : α} {l : List α} {x t u : Str} : E a x → Padded x t → CommaTail E l u → CommaTail E (a :: l) (',' :: (t ++ u))

/-- elements with gaps around them, separated by commas -/
inductive Commas {α : Type} (E : α → Str → Prop) : List α → Str → Prop
  | nil : Commas E [] []
  | cons {a : α} {l : List α} {x t u : Str} : E a x → Padded x t → CommaTail E l u → Commas E (a :: l) (t ++ u)

/-- a text between apostrophes -/
def QuoteText (w t : Str) : Prop := '\'' ∉ w ∧ t = '\'' :: (w ++ cs! "'")

/-- a word between blanks, or only blanks; with what it counts for -/
inductive ViewEntry : List Str → Str → Prop
  | blank {b : Str} : (∀ c ∈ b, isUniWs c = true) → ViewEntry [] b
  | word {a w b : Str} : (∀ c ∈ a, isUniWs c = true) → (∀ c ∈ b, isUniWs c = true) → w ≠ [] → Trimmed w → ViewEntry [w] (a ++ (w ++ b))

/-- entries separated by commas -/
inductive ViewEntries : List Str → Str → Prop
  | last {l : List Str} {t : Str} : ',' ∉ t → ']' ∉ t → ViewEntry l t → ViewEntries l t
  | more {l l' : List Str} {t u : Str} : ',' ∉ t → ']' ∉ t → ViewEntry l t → ViewEntries l' u → ViewEntries (l ++ l') (t ++ (',' :: u))

/-- `'Name [entry, entry]'` -/
def ViewText (v : ViewDef) (t : Str) : Prop :=
  ∃ g g' g'' i, Gap g ∧ Gap g' ∧ Gap g'' ∧ (∀ c ∈ v.name, NameChar c) ∧ ViewEntries v.items i ∧
    t = cs! "'" ++ (g ++ (v.name ++ (g' ++ (cs! "[" ++ (i ++ (cs! "]" ++ (g'' ++ cs! "'")))))))

/-- the text of the view definitions, between parentheses -/
def ViewsText (l : List ViewDef) (t : Str) : Prop := l = [] ∧ t = cs! "''" ∨ Commas ViewText l t

/-- a time text names the instant `u` -/
def Instant (u : Civil) (s : Str) : Prop :=
  ∃ c o, TimeText c o s ∧ IsTime c ∧ IsTime u ∧ minuteNo u = minuteNo c - o ∧ u.sec = c.sec ∧ u.nanos = c.nanos

/-- `t` is a header that says `h`: the attributes of FILE_DESCRIPTION, FILE_NAME and FILE_SCHEMA in the order of ISO 10303-21 -/
def HeaderText (h : Header) (t : Str) : Prop :=
  ∃ views name time authors orgs preprocessor system authorization schemas,
    ViewsText h.descriptions views ∧
    (h.fileName = [] ∧ name = cs! "$" ∨ QuoteText h.fileName name) ∧
    (∃ w, Instant h.time w ∧ QuoteText w time) ∧
    Commas QuoteText h.authors authors ∧
    Commas QuoteText h.orgs orgs ∧
    QuoteText h.preprocessor preprocessor ∧
    QuoteText h.system system ∧
    QuoteText h.authorization authorization ∧
    SchemaTexts h.schemas schemas ∧
    Spaced [cs! "ISO-10303-21;", cs! "HEADER;",
      cs! "FILE_DESCRIPTION", cs! "(", cs! "(" ++ (views ++ cs! ")"), cs! ",", cs! "'", cs! "2;1", cs! "'", cs! ")", cs! ";",
      cs! "FILE_NAME", cs! "(", name, cs! ",", time, cs! ",", cs! "(" ++ (authors ++ cs! ")"), cs! ",", cs! "(" ++ (orgs ++ cs! ")"), cs! ",",
        preprocessor, cs! ",", system, cs! ",", authorization, cs! ")", cs! ";",
      cs! "FILE_SCHEMA", cs! "(", cs! "(" ++ (schemas ++ cs! ")"), cs! ")", cs! ";",
      cs! "ENDSEC;"] t

end Verif
