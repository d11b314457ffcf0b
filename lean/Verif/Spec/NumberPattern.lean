import Verif.Py.Basic
/-!
# Number patterns

An independent description of the number patterns `#,##0.0##` (without exponent, sign or percent part) and of plain decimal numbers,
for C28.
-/

namespace Csvw.Spec

/-- A number pattern: the digit groups of the integer part (characters `#` and `0`), then the numbers of `0` and of `#` after the
decimal point. -/
structure NumPattern where
  groups : List Str
  zeros : Nat
  hashes : Nat

/-- At least one group, no empty groups, only `#` and `0`. -/
def NumPattern.WF (p : NumPattern) : Prop :=
  p.groups ≠ [] ∧ ∀ g ∈ p.groups, g ≠ [] ∧ ∀ c ∈ g, c = '#' ∨ c = '0'

/-- The pattern as written. -/
def NumPattern.text (p : NumPattern) : Str :=
  Py.join [','] p.groups ++
    (if p.zeros + p.hashes = 0 then [] else '.' :: (List.replicate p.zeros '0' ++ List.replicate p.hashes '#'))

/-- A number as written: sign, groups of digits, digits after the decimal point. -/
structure NumText where
  sign : Str
  groups : List Str
  frac : Option Str

/-- An optional sign, at least one group, only digits. -/
def NumText.WF (v : NumText) : Prop :=
  (v.sign = [] ∨ v.sign = ['+'] ∨ v.sign = ['-']) ∧ v.groups ≠ [] ∧
  (∀ g ∈ v.groups, ∀ c ∈ g, c.isDigit = true) ∧ ∀ f ∈ v.frac, ∀ c ∈ f, c.isDigit = true

/-- The number as written. -/
def NumText.text (v : NumText) : Str :=
  v.sign ++ Py.join [','] v.groups ++ (match v.frac with | none => [] | some f => '.' :: f)

/-- The number of digits without leading zeros (but one for a sequence of zeros). -/
def sigLen (ds : Str) : Nat := if ds ≠ [] ∧ ds.dropWhile (· = '0') = [] then 1 else (ds.dropWhile (· = '0')).length

/-- The number of `0` at the end of the last group: what the code takes for the minimal number of digits. -/
def NumPattern.minDigits (p : NumPattern) : Nat := ((p.groups.getLast?.getD []).reverse.takeWhile (· = '0')).length

/-- The size of the last group of digits, if there are several. -/
def NumPattern.primary (p : NumPattern) : Option Nat :=
  if 2 ≤ p.groups.length then some (p.groups.getLast?.getD []).length else none

/-- The size of the other groups of digits. -/
def NumPattern.secondary (p : NumPattern) : Option Nat :=
  if 3 ≤ p.groups.length then some (p.groups.getD 1 []).length else p.primary

/-- The number conforms to the pattern, as the code understands it. -/
structure Conforms (p : NumPattern) (v : NumText) : Prop where
  /-- enough digits before the decimal point, not counting leading zeros -/
  intDigits : p.minDigits ≤ sigLen v.groups.flatten
  /-- the last group is not too long, and has the right size if there is another group -/
  lastGroup : ∀ n ∈ p.primary, (v.groups.getLast?.getD []).length ≤ n ∧
    (2 ≤ v.groups.length → (v.groups.getLast?.getD []).length = n)
  /-- the first group is not too long, the groups between have the right size -/
  otherGroups : ∀ n ∈ p.secondary, 2 ≤ v.groups.length →
    (v.groups.headD []).length ≤ n ∧ ∀ g ∈ v.groups.dropLast.tail, g.length = n
  /-- not too many digits after the decimal point -/
  maxFrac : (v.frac.getD []).length ≤ p.zeros + p.hashes
  /-- enough digits after the decimal point -/
  minFrac : p.zeros ≤ (v.frac.getD []).length

/-! ## Exponent, percent sign and negative pattern -/

/-- A number pattern with the digits of the exponent, a percent or permille sign and a pattern for negative numbers. -/
structure NumPatternX where
  core : NumPattern
  expo : Option Str
  mark : Str
  neg : Option Str

/-- The pattern as written, `#0.0##E00%;…`. -/
def NumPatternX.text (p : NumPatternX) : Str :=
  p.core.text ++ (match p.expo with | none => [] | some e => 'E' :: e) ++ p.mark ++
    (match p.neg with | none => [] | some n => ';' :: n)

/-- The exponent is a sequence of `0` and `#`; patterns with exponent or percent sign have a decimal point. -/
structure NumPatternX.WF (p : NumPatternX) : Prop where
  core : p.core.WF
  expo : ∀ e ∈ p.expo, e ≠ [] ∧ ∀ c ∈ e, c = '#' ∨ c = '0'
  mark : p.mark = [] ∨ p.mark = ['%'] ∨ p.mark = ['‰']
  point : (p.expo = none ∧ p.mark = []) ∨ 0 < p.core.zeros + p.core.hashes
  neg : ∀ n ∈ p.neg, ';' ∉ n

/-- A number with an exponent (the letter, the sign, the digits) and a percent or permille sign. -/
structure NumTextX where
  core : NumText
  expo : Option (Char × Str × Str)
  mark : Str

/-- The number as written. -/
def NumTextX.text (v : NumTextX) : Str :=
  v.core.text ++ (match v.expo with | none => [] | some (c, sg, ds) => c :: (sg ++ ds)) ++ v.mark

/-- Exponents are written with `e` or `E`; numbers with an exponent or a permille sign have a decimal point. -/
structure NumTextX.WF (v : NumTextX) : Prop where
  core : v.core.WF
  expo : ∀ e ∈ v.expo, (e.1 = 'e' ∨ e.1 = 'E') ∧ (e.2.1 = [] ∨ e.2.1 = ['+'] ∨ e.2.1 = ['-']) ∧
    ∀ c ∈ e.2.2, c.isDigit = true
  mark : v.mark = [] ∨ v.mark = ['%'] ∨ v.mark = ['‰']
  point : v.core.frac.isSome = true ∨ (v.expo = none ∧ v.mark ≠ ['‰'])

/-- The number conforms to the pattern: apart from the exponent as in `Conforms`, and the exponent has not more digits than the pattern allows. -/
def ConformsX (p : NumPatternX) (v : NumTextX) : Prop :=
  Conforms p.core v.core ∧ ∀ e ∈ p.expo, ∀ f ∈ v.expo, f.2.2.length ≤ e.length

end Csvw.Spec
