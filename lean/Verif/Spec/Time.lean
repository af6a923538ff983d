import Verif.Model.Header
/-
Specification of the time stamps in a file header: which texts are times, which days exist, and which instant a time names.
Nothing here mentions the readers or writers of the model.  `Civil` is only the record of the calendar fields.
-/
namespace Verif

/-- years with a 29 February in the Gregorian calendar -/
def LeapYear (y : Int) : Prop := 400 ∣ y ∨ (4 ∣ y ∧ ¬ 100 ∣ y)

instance (y : Int) : Decidable (LeapYear y) := by unfold LeapYear; infer_instance

/-- lengths of the months of a year that is not a leap year -/
def monthLengths : List Nat := [31, 28, 31, 30, 31, 30, 31, 31, 30, 31, 30, 31]

/-- the day exists: it is not beyond its month's length, or it is 29 February of a leap year -/
def IsDay (y : Int) (m d : Nat) : Prop :=
  1 ≤ m ∧ m ≤ 12 ∧ 1 ≤ d ∧ (d ≤ monthLengths.getD (m - 1) 0 ∨ (m = 2 ∧ d = 29 ∧ LeapYear y))

instance (y : Int) (m d : Nat) : Decidable (IsDay y m d) := by unfold IsDay; infer_instance

/-- the date exists and the time is one of a day; second 60 is a leap second -/
def IsTime (c : Civil) : Prop :=
  IsDay c.year c.month c.day ∧ c.hour < 24 ∧ c.min < 60 ∧ c.sec ≤ 60 ∧ c.nanos < 1000000000

instance (c : Civil) : Decidable (IsTime c) := by unfold IsTime; infer_instance

/-- days of the years before year `y`, counted from year 1: a leap day every four years but not every hundred, except every
four hundred -/
def daysBeforeYear (y : Int) : Int := 365 * (y - 1) + (y - 1) / 4 - (y - 1) / 100 + (y - 1) / 400

/-- days of the year before month `m` -/
def daysBeforeMonth (y : Int) (m : Nat) : Int :=
  ((monthLengths.take (m - 1)).sum : Nat) + (if 2 < m ∧ LeapYear y then 1 else 0)

/-- minutes from the start of year 1 to the minute of `c` -/
def minuteNo (c : Civil) : Int :=
  (daysBeforeYear c.year + daysBeforeMonth c.year c.month + c.day - 1) * 1440 + c.hour * 60 + c.min

/-- value of a digit -/
def digitOf (c : Char) : Nat := c.toNat - '0'.toNat

/-- value of a row of decimal digits -/
def decimal (s : Str) : Nat := s.foldl (fun a c => 10 * a + digitOf c) 0

/-- `s` is `n` with exactly `k` decimal digits -/
def Digits (k n : Nat) (s : Str) : Prop := s.length = k ∧ (∀ c ∈ s, '0' ≤ c ∧ c ≤ '9') ∧ n = decimal s

/-- the fraction of a second: nothing, or a point and digits; digits after the ninth are cut off -/
inductive FractionText : Nat → Str → Prop
  | none : FractionText 0 []
  | some (s : Str) : s ≠ [] → (∀ c ∈ s, '0' ≤ c ∧ c ≤ '9') →
      FractionText (decimal s * 1000000000 / 10 ^ s.length) ('.' :: s)

/-- the offset from UTC in minutes, west of it with a hyphen or a minus sign; without one the time is taken as UTC -/
inductive ZoneText : Int → Str → Prop
  | none : ZoneText 0 []
  | upper : ZoneText 0 (cs! "Z")
  | lower : ZoneText 0 (cs! "z")
  | east {h m : Nat} {a b : Str} : Digits 2 h a → Digits 2 m b → h < 24 → m < 60 →
      ZoneText (60 * h + m) ('+' :: (a ++ ':' :: b))
  | west {h m : Nat} {a b : Str} : Digits 2 h a → Digits 2 m b → h < 24 → m < 60 →
      ZoneText (-(60 * h + m)) ('-' :: (a ++ ':' :: b))
  | westMinus {h m : Nat} {a b : Str} : Digits 2 h a → Digits 2 m b → h < 24 → m < 60 →
      ZoneText (-(60 * h + m)) ('−' :: (a ++ ':' :: b))

/-- `s` spells the local time `c` and the offset `o` -/
inductive TimeText : Civil → Int → Str → Prop
  | mk {y mo d h mi se ns : Nat} {o : Int} {sy smo sd sh smi sse sf sz : Str} {sep : Char} :
      Digits 4 y sy → Digits 2 mo smo → Digits 2 d sd → sep ∈ ['T', 't', ' '] → Digits 2 h sh → Digits 2 mi smi → Digits 2 se sse →
      FractionText ns sf → ZoneText o sz →
      TimeText ⟨y, mo, d, h, mi, se, ns⟩ o
        (sy ++ '-' :: (smo ++ '-' :: (sd ++ sep :: (sh ++ ':' :: (smi ++ ':' :: (sse ++ (sf ++ sz)))))))

end Verif
