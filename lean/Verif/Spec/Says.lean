import Verif.Spec.Layout
import Verif.Spec.Unknown
import Verif.Spec.Real
import Verif.Spec.HeaderText
import Verif.Props.Str
import Verif.Model.File
/-
Specification vocabulary: what a text has to look like to be taken for a value.  `Says f v s`: the text `s` spells the value
`v` of shape `f`.  More texts spell a value than the layouts of `Spec/Layout.lean`: in a list the comma may be left out and one
may stand after the last element, and an integer in the place of a dimension count counts for `*`.  Nothing here mentions
the readers or writers of the model.
-/
namespace Verif

/-- a decimal that is `v` when rounded to the nearest double, or one of the words for the numbers that are none -/
def RealSays (v : F64) (s : Str) : Prop :=
  (∃ (neg : Bool) (sg ip fp m : Str) (x : Int) (e : Str) (k : Nat), SignText neg sg ∧ MantText ip fp m ∧ ExpText x e ∧
    s = sg ++ (m ++ e) ∧ F64.Nearest ((digitsVal (ip ++ fp) : ℚ) * 10 ^ (x - fp.length)) k ∧
    v = if h : k < infBits then .fin neg k h else .inf neg) ∨
  (v = .nan ∧ s.map lowerAscii = cs! "nan") ∨
  (∃ (neg : Bool) (sg w : Str), SignText neg sg ∧ (w.map lowerAscii = cs! "inf" ∨ w.map lowerAscii = cs! "infinity") ∧
    s = sg ++ w ∧ v = .inf neg)

/-- a text between apostrophes; `v` and the text become the same when their umlauts are escaped, and `v` has no escape left -/
def StrSays (v s : Str) : Prop :=
  ∃ w, s = '\'' :: (w ++ ['\'']) ∧ '\'' ∉ w ∧ escaped v = escaped w ∧ ∀ c ∈ umlauts, ¬ escape c <:+: v

/-- texts of a property value -/
def ValueSays : Value → Str → Prop
  | .bool b, s => ∃ i, BoolText b i ∧ TagText (cs! "IFCBOOLEAN") (cs! "IfcBoolean") i s
  | .label w, s => ∃ i, StrSays w i ∧ TagText (cs! "IFCLABEL") (cs! "IfcLabel") i s
  | .real r, s => ∃ i, RealSays r i ∧ TagText (cs! "IFCREAL") (cs! "IfcReal") i s
  | .identifier w, s => ∃ i, StrSays w i ∧ TagText (cs! "IFCIDENTIFIER") (cs! "IfcIdentifier") i s
  | .thermal r, s => ∃ i, RealSays r i ∧
      TagText (cs! "IFCTHERMALTRANSMITTANCEMEASURE") (cs! "IfcThermaltransmittancemeasure") i s

/-- elements, each with a comma after it or without -/
inductive RunSays {α : Type} (L : α → Str → Prop) : List α → Str → Prop
  | nil : RunSays L [] []
  | cons {a : α} {as : List α} {x c u : Str} : L a x → (Gap c ∨ Padded [','] c) → RunSays L as u →
      RunSays L (a :: as) (x ++ (c ++ u))

/-- the texts that may be taken for a value -/
def Says : (f : Fld) → f.Val → Str → Prop
  | .ref _, n, s => n < 2 ^ 64 ∧ s = '#' :: natStr n
  | .real, r, s => RealSays r s
  | .int, i, s => IntText (-(2 ^ 63)) (2 ^ 63 - 1) i s
  | .int32, i, s => IntText (-(2 ^ 31)) (2 ^ 31 - 1) i s
  | .bool, b, s => BoolText b s
  | .str, w, s => StrSays w s
  | .guid, g, s => GuidText g s
  | .time, t, s => IntText (-(2 ^ 63)) (2 ^ 63 - 1) t.secs s
  | .value, x, s => ValueSays x s
  | .enum t, i, s => Padded (t.get i) s
  | .vec2, v, s => ∃ o c x y xy, Padded ['('] o ∧ Padded [')'] c ∧ RealSays v.1 x ∧ RealSays v.2 y ∧
      Joined x y xy ∧ s = o ++ (xy ++ c)
  | .vec3, v, s => ∃ o c x y z yz xyz, Padded ['('] o ∧ Padded [')'] c ∧ RealSays v.1 x ∧ RealSays v.2.1 y ∧
      RealSays v.2.2 z ∧ Joined y z yz ∧ Joined x yz xyz ∧ s = o ++ (xyz ++ c)
  | .opt f, v, s => match v with
    | .omitted => s = ['$']
    | .inherited => s = ['*']
    | .custom a => Says f a s
  | .optDim t, v, s => match v with
    | .omitted => s = ['$']
    | .inherited => s = ['*'] ∨ ∃ i, IntText (-(2 ^ 31)) (2 ^ 31 - 1) i s
    | .custom i => Padded (t.get i) s
  | .list f, as, s => ∃ u, RunSays (Says f) as u ∧ s = '(' :: (u ++ [')'])
  | .idOr _ f, v, s => match v with
    | .id n => n < 2 ^ 64 ∧ s = '#' :: natStr n
    | .custom a => Says f a s
  | .seq f g, v, s => ∃ a b, Says f v.1 a ∧ Says g v.2 b ∧ Joined a b s
  | .ent kws spaced b close, v, s => ∃ k o i c, k ∈ kws ∧ Says b v i ∧ s = o ++ (i ++ c) ∧
      (if spaced then Padded k o ∧ Padded close c else o = k ∧ c = close)

/-- `s` begins with a text for the entity `e`, after which and after blanks and comments `r` is left.  What is kept as an
unknown entity ends at the first semicolon, blanks and comments before it not counting, and does not begin with a standard
layout of any known type. -/
inductive EntSays : Entity → Str → Str → Prop
  | known {k : Kind} {v : (Schema.row k).Val} {t g r : Str} : Says (Schema.row k) v t → Gap g →
      EntSays (.known k v) (t ++ (g ++ r)) r
  | unknown {s w g r : Str} : UnknownText s w (g ++ r) → Gap g →
      (∀ (k : Kind) (v : (Schema.row k).Val) (t u : Str), Lay (Schema.row k) v t → s ≠ t ++ u) → EntSays (.dummy w) s r

/-- `s` begins with the given instance lines, after which `r` is left -/
inductive LinesSay : List (Nat × Entity) → Str → Str → Prop
  | nil {s : Str} : LinesSay [] s s
  | cons {i : Nat} {e : Entity} {es : List (Nat × Entity)} {g q s t r : Str} : i < 2 ^ 64 → Gap g → Padded ['='] q →
      EntSays e s t → LinesSay es t r → LinesSay ((i, e) :: es) (g ++ ('#' :: natStr i ++ (q ++ s))) r

/-- a file: header, data section with the given lines, end mark -/
def FileSays (h : Header) (es : List (Nat × Entity)) (s : Str) : Prop :=
  ∃ hd g1 ls g2 g3 g4, HeaderText h hd ∧ Gap g1 ∧ Gap g2 ∧ Gap g3 ∧ Gap g4 ∧
    LinesSay es ls (g2 ++ (cs! "ENDSEC;" ++ (g3 ++ (cs! "END-ISO-10303-21;" ++ g4)))) ∧
    s = hd ++ (g1 ++ (cs! "DATA;" ++ ls))

end Verif
