import Verif.Spec.Layout
import Verif.Model.Schema
/-
Specification for the truncated-exponent claim (C27): texts which would be layouts of an entity if the exponent
of one of its numbers were not cut short.
-/
namespace Verif

/-- A number whose exponent letter is followed by something other than `[+-]digits`, e.g. `1.0E`, `1.E+,` or
`-2e )`; `t` is everything that follows. -/
def BadReal (s : Str) : Prop := ∃ neg sg ip fp m e neg' sg' t, SignText neg sg ∧ MantText ip fp m ∧ (e = 'e' ∨ e = 'E') ∧
  SignText neg' sg' ∧ (∀ c ∈ t.head?, isDigit c = false ∧ (sg' = [] → c ≠ '+' ∧ c ≠ '-')) ∧
  s = sg ++ (m ++ e :: (sg' ++ t))

/-- some element is bad, the elements before it being well written -/
inductive BadElems {α : Type} (L : α → Str → Prop) (B : Str → Prop) : Str → Prop
  | here {s : Str} : B s → BadElems L B s
  | there {a : α} {s c t : Str} : L a s → Padded [','] c → BadElems L B t → BadElems L B (s ++ (c ++ t))

/-- the texts of `f`, with everything that follows, in which everything up to a number with a truncated exponent is
well written -/
def Bad : (f : Fld) → Str → Prop
  | .real, s => BadReal s
  | .value, s => ∃ k t, k ∈ [cs! "IFCREAL", cs! "IfcReal", cs! "IFCTHERMALTRANSMITTANCEMEASURE",
      cs! "IfcThermaltransmittancemeasure"] ∧ BadReal t ∧ s = k ++ '(' :: t
  | .vec2, s => ∃ o t, Padded ['('] o ∧ s = o ++ t ∧
      (BadReal t ∨ ∃ v x c u, RealText v x ∧ Padded [','] c ∧ BadReal u ∧ t = x ++ (c ++ u))
  | .vec3, s => ∃ o t, Padded ['('] o ∧ s = o ++ t ∧
      (BadReal t ∨ ∃ v x c u, RealText v x ∧ Padded [','] c ∧ t = x ++ (c ++ u) ∧
        (BadReal u ∨ ∃ v' x' c' u', RealText v' x' ∧ Padded [','] c' ∧ BadReal u' ∧ u = x' ++ (c' ++ u')))
  | .opt f, s => Bad f s
  | .list f, s => ∃ t, s = '(' :: t ∧ BadElems (Lay f) (Bad f) t
  | .idOr _ f, s => Bad f s
  | .seq f g, s => Bad f s ∨ ∃ v a c t, Lay f v a ∧ Padded [','] c ∧ Bad g t ∧ s = a ++ (c ++ t)
  | .ent kws spaced b _, s => ∃ k o t, k ∈ kws ∧ Bad b t ∧ s = o ++ t ∧ (if spaced then Padded k o else o = k)
  | _, _ => False

/-- a data line `#i = ENTITY…` with such a text, with everything that follows -/
def BadLine (k : Kind) (s : Str) : Prop := ∃ i n g q t, i ≤ usizeMax ∧ Gap g ∧ n = '#' :: natStr i ∧ Padded ['='] q ∧
  Bad (Schema.row k) t ∧ s = g ++ (n ++ (q ++ t))

end Verif
