import Verif.Model.Schema
import Verif.Spec.Guid
import Verif.Spec.Gap
/-
Specification vocabulary: the texts that stand for an attribute or entity value ("layouts").
`Lay f v s`: the text `s` is a standard spelling of the value `v` of shape `f`, with blanks and comments only at the
places named here.
-/
namespace Verif

def AllDigits (s : Str) : Prop := ∀ c ∈ s, isDigit c = true

/-- optional sign -/
def SignText (neg : Bool) (s : Str) : Prop := (neg = false ∧ (s = [] ∨ s = ['+'])) ∨ (neg = true ∧ s = ['-'])
/-- digits with an optional point; at least one digit -/
def MantText (ip fp s : Str) : Prop :=
  AllDigits ip ∧ AllDigits fp ∧ ((ip ≠ [] ∧ fp = [] ∧ s = ip) ∨ (ip ++ fp ≠ [] ∧ s = ip ++ '.' :: fp))
/-- optional exponent -/
def ExpText (x : Int) (s : Str) : Prop :=
  (x = 0 ∧ s = []) ∨ ∃ (e : Char) (neg : Bool) (sg ds : Str), (e = 'e' ∨ e = 'E') ∧ SignText neg sg ∧ ds ≠ [] ∧
    AllDigits ds ∧ s = e :: (sg ++ ds) ∧ x = if neg then -(digitsVal ds : Int) else (digitsVal ds : Int)

/-- texts of a real number -/
def RealText (v : F64) (s : Str) : Prop :=
  (∃ (neg : Bool) (sg ip fp m : Str) (x : Int) (e : Str), SignText neg sg ∧ MantText ip fp m ∧ ExpText x e ∧
    s = sg ++ (m ++ e) ∧ v = F64.mk neg (F64.ofDec (digitsVal (ip ++ fp)) (x - fp.length))) ∨
  (v = .nan ∧ s.map lowerAscii = cs! "nan") ∨
  (∃ (neg : Bool) (sg w : Str), SignText neg sg ∧ (w.map lowerAscii = cs! "inf" ∨ w.map lowerAscii = cs! "infinity") ∧
    s = sg ++ w ∧ v = .inf neg)

/-- texts of an integer in a range -/
def IntText (lo hi i : Int) (s : Str) : Prop := lo ≤ i ∧ i ≤ hi ∧ (s = intStr i ∨ (0 < i ∧ s = '+' :: intStr i))

/-- quoted texts -/
def StrText (v s : Str) : Prop := ∃ w, s = '\'' :: (w ++ ['\'']) ∧ '\'' ∉ w ∧ v = translateDecode w

/-- quoted global ids: 22 base-64 digits; the numeral is cut to 128 bits -/
def GuidText (g : Guid) (s : Str) : Prop :=
  ∃ w, s = '\'' :: (w ++ ['\'']) ∧ w.length = 22 ∧ (∀ x ∈ w, GuidLetter x) ∧ g.value = guidTextValue w % 2 ^ 128

/-- `x` with gaps on both sides -/
def Padded (x s : Str) : Prop := ∃ g h, Gap g ∧ Gap h ∧ s = g ++ (x ++ h)

/-- two texts around a comma with gaps -/
def Joined (a b s : Str) : Prop := ∃ c, Padded [','] c ∧ s = a ++ (c ++ b)

/-- `KEYWORD(` inner `)` -/
def TagText (a b inner s : Str) : Prop := ∃ k, (k = a ∨ k = b) ∧ s = k ++ '(' :: (inner ++ [')'])

/-- the long and the short word for a truth value -/
def boolWords : Tri → List Str
  | .tt => [cs! ".TRUE.", cs! ".T."]
  | .ff => [cs! ".FALSE.", cs! ".F."]
  | .unknown => [cs! ".UNKNOWN.", cs! ".U."]

def BoolText (b : Tri) (s : Str) : Prop := ∃ k, k ∈ boolWords b ∧ Padded k s

/-- texts of a property value -/
def ValueText : Value → Str → Prop
  | .bool b, s => ∃ i, BoolText b i ∧ TagText (cs! "IFCBOOLEAN") (cs! "IfcBoolean") i s
  | .label w, s => ∃ i, StrText w i ∧ TagText (cs! "IFCLABEL") (cs! "IfcLabel") i s
  | .real r, s => ∃ i, RealText r i ∧ TagText (cs! "IFCREAL") (cs! "IfcReal") i s
  | .identifier w, s => ∃ i, StrText w i ∧ TagText (cs! "IFCIDENTIFIER") (cs! "IfcIdentifier") i s
  | .thermal r, s => ∃ i, RealText r i ∧
      TagText (cs! "IFCTHERMALTRANSMITTANCEMEASURE") (cs! "IfcThermaltransmittancemeasure") i s

/-- the elements of a list, separated by commas with gaps -/
inductive ElemsText {α : Type} (L : α → Str → Prop) : List α → Str → Prop
  | one {a : α} {s : Str} : L a s → ElemsText L [a] s
  | cons {a : α} {as : List α} {s t u : Str} : L a s → ElemsText L as t → Joined s t u → ElemsText L (a :: as) u

/-- parenthesised lists; blanks may stand before the closing parenthesis -/
def ListText {α : Type} (L : α → Str → Prop) (as : List α) (s : Str) : Prop :=
  (as = [] ∧ s = cs! "()") ∨ ∃ t g, ElemsText L as t ∧ Gap g ∧ s = '(' :: (t ++ (g ++ [')']))

/-- the spellings of a value -/
def Lay : (f : Fld) → f.Val → Str → Prop
  | .ref _, n, s => n ≤ usizeMax ∧ s = '#' :: natStr n
  | .real, r, s => RealText r s
  | .int, i, s => IntText i64Min i64Max i s
  | .int32, i, s => IntText i32Min i32Max i s
  | .bool, b, s => BoolText b s
  | .str, w, s => StrText w s
  | .guid, g, s => GuidText g s
  | .time, t, s => IntText tsMin tsMax t.secs s
  | .value, x, s => ValueText x s
  | .enum t, i, s => Padded (t.get i) s
  | .vec2, v, s => ∃ o c x y xy, Padded ['('] o ∧ Padded [')'] c ∧ RealText v.1 x ∧ RealText v.2 y ∧
      Joined x y xy ∧ s = o ++ (xy ++ c)
  | .vec3, v, s => ∃ o c x y z yz xyz, Padded ['('] o ∧ Padded [')'] c ∧ RealText v.1 x ∧ RealText v.2.1 y ∧
      RealText v.2.2 z ∧ Joined y z yz ∧ Joined x yz xyz ∧ s = o ++ (xyz ++ c)
  | .opt f, v, s => match v with
    | .omitted => s = ['$']
    | .inherited => s = ['*']
    | .custom a => Lay f a s
  | .optDim t, v, s => match v with
    | .omitted => s = ['$']
    | .inherited => s = ['*']
    | .custom i => Padded (t.get i) s
  | .list f, as, s => ListText (Lay f) as s
  | .idOr _ f, v, s => match v with
    | .id n => n ≤ usizeMax ∧ s = '#' :: natStr n
    | .custom a => Lay f a s
  | .seq f g, v, s => ∃ a b, Lay f v.1 a ∧ Lay g v.2 b ∧ Joined a b s
  | .ent kws spaced b close, v, s => ∃ k o i c, k ∈ kws ∧ Lay b v i ∧ s = o ++ (i ++ c) ∧
      (if spaced then Padded k o ∧ Padded close c else o = k ∧ c = close)

/-- an instance line: number, `=`, entity text, with gaps -/
def LineText (i : Nat) (e s : Str) : Prop := ∃ g n q, Gap g ∧ n = '#' :: natStr i ∧ Padded ['='] q ∧ s = g ++ (n ++ (q ++ e))

end Verif
