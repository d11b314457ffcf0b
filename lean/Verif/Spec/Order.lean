import Verif.Spec.Dates
import Verif.Model.Values
/-!
# The order of numbers and of moments in time
-/

namespace Csvw.Spec

/-- Leap years of the Gregorian calendar. -/
def LeapYear (y : Nat) : Prop := (4 ∣ y ∧ ¬ 100 ∣ y) ∨ 400 ∣ y

instance (y : Nat) : Decidable (LeapYear y) := by unfold LeapYear; infer_instance

/-- The length of a month. -/
def monthLength (y m : Nat) : Nat :=
  if m = 2 then (if LeapYear y then 29 else 28) else if m = 4 ∨ m = 6 ∨ m = 9 ∨ m = 11 then 30 else 31

/-- The length of a year. -/
def yearLength (y : Nat) : Nat := if LeapYear y then 366 else 365

/-- The number of a day, counted from 0001-01-01 (which is day 1): all the days of the years and months before, and of the month. -/
def dayNumber (y m d : Nat) : Nat :=
  ((List.range (y - 1)).map fun i => yearLength (i + 1)).sum + ((List.range (m - 1)).map fun j => monthLength y (j + 1)).sum + d

/-- The moment of a date-time in microseconds, in universal time if it has a timezone (offset in minutes), otherwise in local time. -/
def moment (d : DateTime) : Int :=
  (((((dayNumber d.year d.month d.day : Nat) : Int) * 24 + d.hour) * 60 + d.minute - d.tz.getD 0) * 60 + d.second) * 1000000 + d.micro

/-- Both with, or both without timezone. -/
def SameKind (a b : DateTime) : Prop := a.tz.isSome = b.tz.isSome

/-- The order of decimals, including the infinities. (A NaN is neither above nor below anything.) -/
inductive DecLe : Dec → Dec → Prop
  | fin {n c e n' c' e'} : Dec.value (.fin n c e) ≤ Dec.value (.fin n' c' e') → DecLe (.fin n c e) (.fin n' c' e')
  | negInf_fin {n c e} : DecLe (.inf true) (.fin n c e)
  | fin_posInf {n c e} : DecLe (.fin n c e) (.inf false)
  | inf {b} : DecLe (.inf b) (.inf b)
  | neg_pos : DecLe (.inf true) (.inf false)

/-- Strict order. -/
inductive DecLt : Dec → Dec → Prop
  | fin {n c e n' c' e'} : Dec.value (.fin n c e) < Dec.value (.fin n' c' e') → DecLt (.fin n c e) (.fin n' c' e')
  | negInf_fin {n c e} : DecLt (.inf true) (.fin n c e)
  | fin_posInf {n c e} : DecLt (.fin n c e) (.inf false)
  | neg_pos : DecLt (.inf true) (.inf false)

end Csvw.Spec
