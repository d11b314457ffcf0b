import Verif.Spec.DateValues
/-!
# Specification vocabulary: date-times as JSON-LD literals
-/

namespace Csvw.Spec

/-- Date and time up to seconds in ISO 8601. -/
def dateText (d : DateTime) : Str := numeralN 4 d.year ++ "-".toList ++ numeralN 2 d.month ++ "-".toList ++ numeralN 2 d.day
def timeText (d : DateTime) : Str := numeralN 2 d.hour ++ ":".toList ++ numeralN 2 d.minute ++ ":".toList ++ numeralN 2 d.second

/-- The timezone, where UTC is `Z`. -/
def zoneText : Option Int → Str
  | some 0 => "Z".toList
  | t => isoTzText t

/-- The digits without zeros at the end. -/
def trimZeros (s : Str) : Str := (s.reverse.dropWhile (· = '0')).reverse

/-- The literal for a date-time: UTC is written as `Z` in times without fractions; fractions have no trailing zeros in times without timezone. -/
def jsonStamp (d : DateTime) : Str :=
  dateText d ++ "T".toList ++ timeText d ++
  (if d.micro = 0 then zoneText d.tz
   else if d.tz = none then ".".toList ++ trimZeros (numeralN 6 d.micro)
   else ".".toList ++ numeralN 6 d.micro ++ isoTzText d.tz)

end Csvw.Spec
