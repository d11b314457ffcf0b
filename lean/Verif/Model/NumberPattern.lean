import Verif.Py.Basic
/-!
# `NumberPattern`

Model of `/repo/src/csvw/datatypes.py` 1161–1290.
-/

namespace Csvw.NumPat
open Py

/-- Number of `#` and `0` (`s.count('#') + s.count('0')`). -/
def countHash0 (s : Str) : Nat := s.countP (fun c => c = '#' || c = '0')

/-- `NumberPattern.__init__` (1173–1177): `positive` is the part before the first `;`. At most one `;` is allowed.
(`negative` is not used by any other method.) -/
def positive (pattern : Str) : Res Str :=
  if pattern.count ';' ≤ 1 then .ok (partition ';' pattern).1 else .error .assertionError

/-- `self.positive.split('.')[0].split(',')` (1181, 1187). -/
def intComps (pos : Str) : List Str := split [','] ((split ['.'] pos).headD [])

/-- `primary_grouping_size` (1179–1183); `none` is `None`. -/
def primary (pos : Str) : Option Nat :=
  let comps := intComps pos
  if comps.length > 1 then some (countHash0 (comps.getLast?.getD [])) else none

/-- `secondary_grouping_size` (1185–1190). -/
def secondary (pos : Str) : Option Nat :=
  let comps := intComps pos
  if comps.length > 2 then some (countHash0 (comps.getD 1 [])) else primary pos

/-- `min_digits_before_decimal_point` (1192–1197): the trailing zeros of the integral part
(`$` also matches before a trailing newline, which patterns do not contain). -/
def minInt (pos : Str) : Option Nat :=
  let ip := (split ['.'] pos).headD []
  let z := (ip.reverse.takeWhile (· = '0')).length
  if z = 0 then none else some z

/-- Worker of `exponent_digits` (1199–1210). -/
def expDigitsGo : Str → Nat
  | [] => 0
  | c :: cs => if c = '0' ∨ c = '#' then expDigitsGo cs + 1 else if c = ',' then expDigitsGo cs else 0

/-- `c.lower()` for the letter E (other letters are irrelevant here). -/
def lowerE (s : Str) : Str := s.map fun c => if c = 'E' then 'e' else c

/-- `exponent_digits` (1199–1210). -/
def expDigits (pos : Str) : Nat := expDigitsGo (partition 'e' (lowerE pos)).2.2

/-- Worker of `decimal_digits` (1212–1221). -/
def decDigitsGo : Str → Nat
  | [] => 0
  | c :: cs => if c = '#' ∨ c = '0' then decDigitsGo cs + 1 else if c = 'E' then 0 else decDigitsGo cs

/-- `decimal_digits` (1212–1221). -/
def decDigits (pos : Str) : Nat := decDigitsGo (partition '.' pos).2.2

/-- Worker of `significant_decimal_digits` (1223–1232). -/
def sigDigitsGo : Str → Nat
  | [] => 0
  | c :: cs => if c = '0' then sigDigitsGo cs + 1 else if c = 'E' ∨ c = '#' then 0 else sigDigitsGo cs

/-- `significant_decimal_digits` (1223–1232). -/
def sigDigits (pos : Str) : Nat := sigDigitsGo (partition '.' pos).2.2

/-- `digits(ss)` in `is_valid` (1235–1236). -/
def nonSep (s : Str) : Str := s.filter fun c => !(".,E+-%‰".toList.contains c)

/-- The loop collecting `significant` (1242–1250); `skip` is the flag of the code.
Returns (significant, leadingzero). -/
def significantGo : Bool → Str → Str × Bool
  | _, [] => ([], false)
  | skip, c :: cs =>
    if c = '+' ∨ c = '-' ∨ c = '%' then significantGo skip cs
    else if c = '0' ∧ skip = true then ((significantGo skip cs).1, true)
    else
      let r := significantGo (if c = '0' then skip else false) cs
      (c :: r.1, r.2)

/-- `significant` after 1251–1252. -/
def significant (s : Str) : Str :=
  let r := significantGo true s
  if r.1 = [] ∧ r.2 = true then ['0'] else r.1

/-- `is_valid` (1234–1288), for the positive part `pos` of the pattern. -/
def isValid (pos s : Str) : Bool :=
  let (ip, _, rest) := partition '.' s
  let (dp, _, _) := partition 'e' (lowerE rest)
  let groups := split [','] ip
  let sig := significant groups.flatten
  let last := groups.getLast?.getD []
  (match minInt pos with | some m => decide (m ≤ sig.length) | none => true) &&
  (match primary pos with
   | some p => p == 0 || (decide ((nonSep last).length ≤ p) &&
       (decide (groups.length ≤ 1) || decide (p ≤ (nonSep last).length)))
   | none => true) &&
  (match secondary pos with
   | some q => q == 0 || decide (groups.length ≤ 1) ||
       (decide ((nonSep (groups.headD [])).length ≤ q) &&
        (groups.dropLast.tail.all fun g => (nonSep g).length == q))
   | none => true) &&
  (dp == [] || decide ((nonSep dp).length ≤ decDigits pos)) &&
  (sigDigits pos == 0 || (dp != [] && decide (sigDigits pos ≤ (nonSep dp).length))) &&
  (expDigits pos == 0 || !(lowerE s).contains 'e' ||
    decide ((nonSep ((split ['e'] (lowerE s)).getLast?.getD [])).length ≤ expDigits pos))

/-- `NumberPattern(pattern).is_valid(s)`. -/
def valid (pattern s : Str) : Res Bool := (positive pattern).map (isValid · s)

end Csvw.NumPat
