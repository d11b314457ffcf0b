import Verif.Spec.Dates
import Verif.Model.Values
/-!
# Values of date-time texts
-/

namespace Csvw.Spec

/-- The number which a string of digits denotes. -/
def numeralValue (s : Str) : Nat := Nat.ofDigitChars 10 s 0

/-- The value of a text in a format, for the given date of today. -/
def DTFormat.valueOf (F : DTFormat) (today : Nat × Nat × Nat) (x : DTText) (tz : Option Int) : DateTime :=
  { year := if F.date = none then today.1 else numeralValue x.y
    month := if F.date = none then today.2.1 else numeralValue x.m
    day := if F.date = none then today.2.2 else numeralValue x.d
    hour := if F.time = none then 0 else numeralValue x.h
    minute := if F.time = none then 0 else numeralValue x.mi
    second := if (F.time.map TimePattern.seconds) = some true then numeralValue x.s else 0
    micro := fracMicros x.frac
    tz := tz }

/-- The fields of a date-time are in range (the date in the Gregorian calendar, without leap seconds). -/
def ValidDateTime (d : DateTime) : Prop :=
  ValidDate d.year d.month d.day ∧ d.hour ≤ 23 ∧ d.minute ≤ 59 ∧ d.second ≤ 59 ∧ d.micro ≤ 999999

instance (d : DateTime) : Decidable (ValidDateTime d) := by unfold ValidDateTime; infer_instance

/-- ISO 8601 text of a timezone offset in minutes. -/
def isoTzText : Option Int → Str
  | none => []
  | some t => (if t < 0 then '-' else '+') :: numeralN 2 (t.natAbs / 60) ++ ':' :: numeralN 2 (t.natAbs % 60)

/-- ISO 8601 text of a date-time: the fraction of a second with six digits, only if it is not 0. -/
def isoText (d : DateTime) : Str :=
  numeralN 4 d.year ++ "-".toList ++ numeralN 2 d.month ++ "-".toList ++ numeralN 2 d.day ++ "T".toList ++
  numeralN 2 d.hour ++ ":".toList ++ numeralN 2 d.minute ++ ":".toList ++ numeralN 2 d.second ++
  (if d.micro = 0 then [] else ".".toList ++ numeralN 6 d.micro) ++ isoTzText d.tz

/-- The date after a date. -/
def NextDate (y m d y' m' d' : Nat) : Prop :=
  (ValidDate y m (d + 1) ∧ y' = y ∧ m' = m ∧ d' = d + 1) ∨
  (¬ ValidDate y m (d + 1) ∧ m < 12 ∧ y' = y ∧ m' = m + 1 ∧ d' = 1) ∨
  (¬ ValidDate y m (d + 1) ∧ m = 12 ∧ y' = y + 1 ∧ m' = 1 ∧ d' = 1)

end Csvw.Spec
