import Verif.Py.Basic
/-!
# Specification of the integer datatypes

Independent of the model: the documented ranges of the integer datatypes, by name.
-/

namespace Csvw.Spec

/-- The names of the integer datatypes. -/
def intNames : List String :=
  ["integer", "int", "byte", "short", "long", "unsignedByte", "unsignedShort", "unsignedInt", "unsignedLong",
   "nonNegativeInteger", "positiveInteger", "nonPositiveInteger", "negativeInteger"]

/-- The integer datatypes with a lower and an upper bound. -/
def boundedNames : List String :=
  ["byte", "short", "long", "unsignedByte", "unsignedShort", "unsignedInt", "unsignedLong"]

/-- Is `n` a value of the integer datatype? (`int` is documented as alias of `integer`.) -/
def InRange (name : String) (n : Int) : Prop :=
  match name with
  | "byte" => -2 ^ 7 ≤ n ∧ n < 2 ^ 7
  | "short" => -2 ^ 15 ≤ n ∧ n < 2 ^ 15
  | "long" => -2 ^ 63 ≤ n ∧ n < 2 ^ 63
  | "unsignedByte" => 0 ≤ n ∧ n < 2 ^ 8
  | "unsignedShort" => 0 ≤ n ∧ n < 2 ^ 16
  | "unsignedInt" => 0 ≤ n ∧ n < 2 ^ 32
  | "unsignedLong" => 0 ≤ n ∧ n < 2 ^ 64
  | "nonNegativeInteger" => 0 ≤ n
  | "positiveInteger" => 0 < n
  | "nonPositiveInteger" => n ≤ 0
  | "negativeInteger" => n < 0
  | _ => True

/-- The decimal numeral of an integer. -/
def intText (n : Int) : Str := (toString n).toList

/-- An integer with at most `k` significant decimal digits. -/
def SigDigits (k : Nat) (n : Int) : Prop := ∃ m e : Nat, m < 10 ^ k ∧ n.natAbs = m * 10 ^ e

/-- The sign of a number, and whether it is negative. -/
inductive Sign : Str → Bool → Prop
  | none : Sign [] false
  | plus : Sign ['+'] false
  | minus : Sign ['-'] true

/-- The lexical form of a decimal number: an optional sign, digits `ip`, and optionally a point and digits `fp`; at least one digit. -/
inductive DecimalText : Str → Bool → Str → Str → Prop
  | whole {sgn ip : Str} {neg : Bool} : Sign sgn neg → (∀ c ∈ ip, c.isDigit = true) → ip ≠ [] → DecimalText (sgn ++ ip) neg ip []
  | point {sgn ip fp : Str} {neg : Bool} : Sign sgn neg → (∀ c ∈ ip, c.isDigit = true) → (∀ c ∈ fp, c.isDigit = true) → ip ++ fp ≠ [] →
    DecimalText (sgn ++ ip ++ '.' :: fp) neg ip fp

/-- A number with a percent or permille sign: the exponent, and the text without the sign. -/
inductive Scaled : Str → Nat → Str → Prop
  | percent {x : Str} : '%' ∈ x → Scaled x 2 (x.filter (· ≠ '%'))
  | permille {x : Str} : '%' ∉ x → '‰' ∈ x → Scaled x 3 (x.filter (· ≠ '‰'))
  | plain {x : Str} : '%' ∉ x → '‰' ∉ x → Scaled x 0 x

/-- The text of a number with the given `groupChar` and `decimalChar`, written without the former and with a point for the latter. -/
def withoutSeps (groupChar decimalChar : Option Char) (x : Str) : Str :=
  (x.filter fun c => groupChar ≠ some c).map fun c => if decimalChar = some c then '.' else c

end Csvw.Spec
