import Verif.Py.Basic
/-!
# Date patterns

An independent description of the date patterns of the CSVW standard, for C29.
-/

namespace Csvw.Spec

/-- The order of the components of a date. -/
inductive DateOrder where
  | ymd | dmy | mdy
  deriving DecidableEq, Repr

/-- A date pattern: order of the components, separator, and whether month and day are written with two digits. -/
structure DatePattern where
  order : DateOrder
  sep : Str
  padded : Bool
  deriving DecidableEq, Repr

/-- Year, month and day in the order of the pattern, with its separator. -/
def DatePattern.fill (p : DatePattern) (y m d : Str) : Str :=
  match p.order with
  | .ymd => y ++ p.sep ++ m ++ p.sep ++ d
  | .dmy => d ++ p.sep ++ m ++ p.sep ++ y
  | .mdy => m ++ p.sep ++ d ++ p.sep ++ y

/-- The pattern as written. -/
def DatePattern.text (p : DatePattern) : Str :=
  if p.padded then p.fill "yyyy".toList "MM".toList "dd".toList else p.fill "yyyy".toList "M".toList "d".toList

/-- The 14 supported patterns. -/
def datePatterns14 : List DatePattern :=
  [⟨.ymd, "-".toList, true⟩, ⟨.ymd, [], true⟩] ++
  ["-".toList, "/".toList, ".".toList].flatMap fun sep =>
    [⟨.dmy, sep, true⟩, ⟨.dmy, sep, false⟩, ⟨.mdy, sep, true⟩, ⟨.mdy, sep, false⟩]

/-- A numeral with `n` digits (decimal, most significant first). -/
def numeralN : Nat → Nat → Str
  | 0, _ => []
  | n + 1, k => numeralN n (k / 10) ++ [Nat.digitChar (k % 10)]

/-- How a number below 100 is written: with two digits, or with as many as necessary. -/
def numeral2 (padded : Bool) (k : Nat) : Str := if padded ∨ 10 ≤ k then numeralN 2 k else numeralN 1 k

/-- A date as the pattern prescribes. -/
def DatePattern.write (p : DatePattern) (y m d : Nat) : Str :=
  p.fill (numeralN 4 y) (numeral2 p.padded m) (numeral2 p.padded d)

/-- A string of between `lo` and `hi` digits. -/
def Digits (lo hi : Nat) (s : Str) : Prop := lo ≤ s.length ∧ s.length ≤ hi ∧ ∀ c ∈ s, c.isDigit = true

/-- The strings are such as the pattern prescribes for year, month and day. -/
def DatePattern.Parts (p : DatePattern) (y m d : Str) : Prop :=
  Digits 4 4 y ∧ Digits (if p.padded then 2 else 1) 2 m ∧ Digits (if p.padded then 2 else 1) 2 d

/-- The Gregorian calendar. -/
def ValidDate (y m d : Nat) : Prop :=
  1 ≤ y ∧ y ≤ 9999 ∧ 1 ≤ m ∧ m ≤ 12 ∧ 1 ≤ d ∧
  d ≤ (if m = 2 then (if (4 ∣ y ∧ ¬ 100 ∣ y) ∨ 400 ∣ y then 29 else 28) else if m = 4 ∨ m = 6 ∨ m = 9 ∨ m = 11 then 30 else 31)

instance (y m d : Nat) : Decidable (ValidDate y m d) := by unfold ValidDate; infer_instance

/-! ## Times, date-times and their formats -/

/-- A time pattern: with or without colons, with or without seconds. -/
structure TimePattern where
  colons : Bool
  seconds : Bool
  deriving DecidableEq, Repr

/-- Hour, minute and second as the pattern prescribes. -/
def TimePattern.fill (p : TimePattern) (h m s : Str) : Str :=
  let c := if p.colons then ":".toList else []
  h ++ c ++ m ++ (if p.seconds then c ++ s else [])

/-- The pattern as written. -/
def TimePattern.text (p : TimePattern) : Str := p.fill "HH".toList "mm".toList "ss".toList

/-- A format: a date pattern, a separator, a time pattern, the number of `S` for fractions of seconds. -/
structure DTFormat where
  date : Option DatePattern := none
  sep : Option Char := none
  time : Option TimePattern := none
  frac : Nat := 0
  deriving DecidableEq, Repr

/-- The format as written, without timezone marker. -/
def DTFormat.body (F : DTFormat) : Str :=
  ((F.date.map DatePattern.text).getD []) ++ F.sep.toList ++ ((F.time.map TimePattern.text).getD []) ++
  (if F.frac = 0 then [] else '.' :: List.replicate F.frac 'S')

/-- Formats which make sense: with a blank or `T`, a date and a time may be given; without, only a time (for times) or a date. -/
def DTFormat.WF (timeOnly : Bool) (F : DTFormat) : Prop :=
  (∀ p ∈ F.date, p ∈ datePatterns14) ∧
  match F.sep with
  | some c => c = ' ' ∨ c = 'T'
  | none => if timeOnly then F.date = none else F.time = none ∧ F.frac = 0

/-- A timezone marker: one to three `x` or one to three `X`, possibly with a blank before. -/
def TzMarker (m : Str) : Prop :=
  ∃ b x n, (b = [] ∨ b = [' ']) ∧ (x = 'x' ∨ x = 'X') ∧ 1 ≤ n ∧ n ≤ 3 ∧ m = b ++ List.replicate n x

/-- `f` is the format `F` with the given timezone marker. (A blank before the marker belongs to it; a line feed after it is ignored.) -/
inductive IsFormat (timeOnly : Bool) : Str → DTFormat → Option Str → Prop
  | plain {F : DTFormat} : F.WF timeOnly → IsFormat timeOnly F.body F none
  | marked {F : DTFormat} {m nl : Str} : F.WF timeOnly → TzMarker m → (m.head? ≠ some ' ' → F.body.getLast? ≠ some ' ') →
      (nl = [] ∨ nl = ['\n']) → IsFormat timeOnly (F.body ++ m ++ nl) F (some m)

/-- The pieces of the text of a date-time: year, month, day, hour, minute, second, and the digits of the fraction of a second. -/
structure DTText where
  y : Str := []
  m : Str := []
  d : Str := []
  h : Str := []
  mi : Str := []
  s : Str := []
  frac : Str := []

/-- The text of a date-time in a format. -/
def DTFormat.fill (F : DTFormat) (x : DTText) : Str :=
  ((F.date.map fun p => p.fill x.y x.m x.d).getD []) ++ F.sep.toList ++ ((F.time.map fun p => p.fill x.h x.mi x.s).getD []) ++
  (if x.frac = [] then [] else '.' :: x.frac)

/-- The pieces are digits, as many as the format prescribes. -/
def DTFormat.Parts (F : DTFormat) (x : DTText) : Prop :=
  (∀ p ∈ F.date, p.Parts x.y x.m x.d) ∧ Digits 2 2 x.h ∧ Digits 2 2 x.mi ∧ Digits 2 2 x.s ∧ (∀ c ∈ x.frac, c.isDigit = true) ∧
  (F.frac = 0 → x.frac = [])

/-- The number of microseconds of a fraction of a second: `0.ddd` seconds, rounded down. -/
def fracMicros (frac : Str) : Nat := Nat.ofDigitChars 10 frac 0 * 10 ^ 6 / 10 ^ frac.length

/-- A timezone as written in ISO 8601, and its offset in minutes. -/
inductive TzText : Str → Option Int → Prop
  | none : TzText [] none
  | zulu : TzText ['Z'] (some 0)
  | plus {h m : Str} : Digits 2 2 h → Digits 2 2 m → Nat.ofDigitChars 10 h 0 ≤ 23 → Nat.ofDigitChars 10 m 0 ≤ 59 →
      TzText ('+' :: h ++ ':' :: m) (some (60 * (Nat.ofDigitChars 10 h 0 : Int) + Nat.ofDigitChars 10 m 0))
  | minus {h m : Str} : Digits 2 2 h → Digits 2 2 m → Nat.ofDigitChars 10 h 0 ≤ 23 → Nat.ofDigitChars 10 m 0 ≤ 59 →
      TzText ('-' :: h ++ ':' :: m) (some (-(60 * (Nat.ofDigitChars 10 h 0 : Int) + Nat.ofDigitChars 10 m 0)))

/-- The format has no useless parts: with a separator both a date and a time pattern, otherwise one of them. -/
def DTFormat.Proper (F : DTFormat) : Prop :=
  match F.sep with
  | some _ => F.date ≠ none ∧ F.time ≠ none
  | none => (F.date ≠ none ∧ F.time = none ∧ F.frac = 0) ∨ (F.date = none ∧ F.time ≠ none)

end Csvw.Spec
