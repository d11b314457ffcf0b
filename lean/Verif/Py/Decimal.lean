import Verif.Py.Basic
/-!
# Python's `decimal.Decimal`

Not part of `/repo`: the part of the standard library module `decimal` (CPython 3.11, default context: 28 digits,
`ROUND_HALF_EVEN`, `Emin = -999999`, `Emax = 999999`, traps `InvalidOperation`, `DivisionByZero`, `Overflow`) which
`datatypes.decimal` and `datatypes.integer` use: construction from strings without exponent, multiplication,
`str()`, `'{:,}'.format()`, `as_integer_ratio()`, comparison.
-/

namespace Csvw

/-- A `decimal.Decimal`: sign, coefficient, exponent; infinities; NaNs (signalling or not, with payload). -/
inductive Dec where
  | fin (neg : Bool) (coef : Nat) (exp : Int)
  | inf (neg : Bool)
  | nan (neg signal : Bool) (payload : Nat)
  deriving DecidableEq, Repr, Inhabited

namespace Dec

/-- The code points of the digits zero of all Unicode decimal digit runs (category Nd, Unicode 14). -/
def ndZeros : List Nat :=
  [48, 1632, 1776, 1984, 2406, 2534, 2662, 2790, 2918, 3046, 3174, 3302, 3430, 3558, 3664, 3792, 3872, 4160, 4240, 6112,
   6160, 6470, 6608, 6784, 6800, 6992, 7088, 7232, 7248, 42528, 43216, 43264, 43472, 43504, 43600, 44016, 65296, 66720,
   68912, 69734, 69872, 69942, 70096, 70384, 70736, 70864, 71248, 71360, 71472, 71904, 72016, 72784, 73040, 73120, 92768,
   92864, 93008, 120782, 120792, 120802, 120812, 120822, 123200, 123632, 125264, 130032]

/-- `unicodedata.decimal(c, None)`. -/
def uniDigit (c : Char) : Option Nat :=
  (ndZeros.find? fun z => z ≤ c.toNat && c.toNat < z + 10).map (c.toNat - ·)

/-- One character in `numeric_as_ascii` (`Modules/_decimal/_decimal.c`). -/
def asciiChar (c : Char) : Option Char :=
  if 0 < c.toNat ∧ c.toNat < 128 then some c
  else if Py.isSpace c then some ' '
  else (uniDigit c).map Nat.digitChar

/-- `mapM` in `Option`. -/
def mapOpt {α β : Type} (f : α → Option β) : List α → Option (List β)
  | [] => some []
  | a :: as => match f a with
    | none => none
    | some b => match mapOpt f as with
      | none => none
      | some bs => some (b :: bs)

/-- `numeric_as_ascii`: surrounding whitespace and all underscores are dropped, Unicode digits become ASCII digits. -/
def asciiNumeric (s : Str) : Option Str := mapOpt asciiChar ((Py.strip s).filter (· ≠ '_'))

/-- ASCII `str.lower()`. -/
def asciiLower (s : Str) : Str := s.map Char.toLower

/-- Value of a string of ASCII digits. -/
def numeral (s : Str) : Nat := Nat.ofDigitChars 10 s 0

/-- An optional sign: (is negative, rest). -/
def takeSign : Str → Bool × Str
  | '-' :: r => (true, r)
  | '+' :: r => (false, r)
  | r => (false, r)

/-- `mpd_qset_string` for strings without exponent part. -/
def ofAscii (s : Str) : Option Dec :=
  let (neg, r) := takeSign s
  let l := asciiLower r
  if l = "inf".toList ∨ l = "infinity".toList then some (.inf neg)
  else if "nan".toList.isPrefixOf l ∧ (l.drop 3).all Char.isDigit then some (.nan neg false (numeral (l.drop 3)))
  else if "snan".toList.isPrefixOf l ∧ (l.drop 4).all Char.isDigit then some (.nan neg true (numeral (l.drop 4)))
  else
    let (ip, _, fp) := Py.partition '.' r
    if (ip ++ fp).all Char.isDigit ∧ ip ++ fp ≠ [] then some (.fin neg (numeral (ip ++ fp)) (-(fp.length : Int)))
    else none

/-- `decimal.Decimal(s)` for a `str` without `e`/`E` (callers reject those before); `none`: `InvalidOperation`. -/
def parse (s : Str) : Option Dec :=
  match asciiNumeric s with
  | none => none
  | some a => ofAscii a

/-- The context precision. -/
def prec : Nat := 28
def emax : Int := 999999
def etop : Int := emax - prec + 1
def etiny : Int := -999999 - prec + 1

/-- Decimal digits of a coefficient. -/
def digits (n : Nat) : Str := Nat.toDigits 10 n
/-- Number of digits of a coefficient (1 for zero). -/
def ndigits (n : Nat) : Nat := (digits n).length

/-- `n / 10^k`, rounded half to even. -/
def roundHE (n k : Nat) : Nat :=
  let q := n / 10 ^ k
  let r := n % 10 ^ k
  if 2 * r > 10 ^ k ∨ (2 * r = 10 ^ k ∧ q % 2 = 1) then q + 1 else q

/-- `Decimal._fix(context)`: round to the context precision; `Overflow` is trapped. -/
def fix (neg : Bool) (coef : Nat) (exp : Int) : Res Dec :=
  if coef = 0 then .ok (.fin neg 0 (min (max exp etiny) emax))
  else
    let emin0 := (ndigits coef : Int) + exp - prec
    if emin0 > etop then .error .arithmeticError
    else
      let emin := max emin0 etiny
      if exp < emin then
        let c := roundHE coef (emin - exp).toNat
        let (c, e) := if ndigits c > prec then (c / 10, emin + 1) else (c, emin)
        if e > etop then .error .arithmeticError else .ok (.fin neg c e)
      else .ok (.fin neg coef exp)

/-- `a * b` for `b` a finite non-zero constant (the percent/permille factor or 1). A signalling NaN raises
`InvalidOperation`, reported as `none`. -/
def mulConst (a : Dec) (c : Nat) (e : Int) : Option (Res Dec) :=
  match a with
  | .fin neg coef exp => some (fix neg (coef * c) (exp + e))
  | .inf neg => some (.ok (.inf neg))
  | .nan neg false p => some (.ok (.nan neg false (p % 10 ^ prec)))
  | .nan _ true _ => none

/-- `'%+d' % i`. -/
def plusInt (i : Int) : Str := (if i < 0 then '-' else '+') :: digits i.natAbs

/-- Groups of three digits from the right, separated by commas (`_insert_thousands_sep`). `s` is reversed. -/
def groupRev : Nat → Str → Str
  | _, [] => []
  | 0, c :: cs => ',' :: c :: groupRev 2 cs
  | k + 1, c :: cs => c :: groupRev k cs

/-- Thousands separators. -/
def group (s : Str) : Str := (groupRev 3 s.reverse).reverse

/-- The sign. -/
def signStr (neg : Bool) : Str := if neg then ['-'] else []

/-- The integral and the fractional digits, for the position `dot` of the decimal point in the digits `ds`. -/
def splitDot (ds : Str) (dot : Int) : Str × Str :=
  if dot ≤ 0 then (['0'], List.replicate dot.natAbs '0' ++ ds)
  else if (ds.length : Int) ≤ dot then (ds ++ List.replicate (dot.toNat - ds.length) '0', [])
  else (ds.take dot.toNat, ds.drop dot.toNat)

/-- The string for the position `dot` of the decimal point; `left` is its position without exponent. -/
def toStrDot (thousands neg : Bool) (ds : Str) (left dot : Int) : Str :=
  signStr neg ++ (if thousands then group (splitDot ds dot).1 else (splitDot ds dot).1) ++
    (if (splitDot ds dot).2 = [] then [] else '.' :: (splitDot ds dot).2) ++
    (if left = dot then [] else 'E' :: plusInt (left - dot))

/-- `str(d)` (`thousands = false`) and `'{:,}'.format(d)` (`thousands = true`). -/
def toStr (thousands : Bool) : Dec → Str
  | .inf neg => signStr neg ++ "Infinity".toList
  | .nan neg sig p =>
    signStr neg ++ (if sig then "sNaN".toList else "NaN".toList) ++ (if p = 0 then [] else digits p)
  | .fin neg coef exp =>
    let ds := digits coef
    let left := exp + ds.length
    toStrDot thousands neg ds left (if exp ≤ 0 ∧ left > -6 then left else 1)

/-- `'{}'.format(i)` and `'{:,}'.format(i)` for an `int`. -/
def intStr (thousands : Bool) (i : Int) : Str :=
  signStr (decide (i < 0)) ++ (if thousands then group (digits i.natAbs) else digits i.natAbs)

/-- The numeric value of a finite Decimal. -/
def value : Dec → Rat
  | .fin neg coef exp => (if neg then -(coef : Rat) else (coef : Rat)) * (10 : Rat) ^ exp
  | _ => 0

/-- `d.as_integer_ratio()` restricted to integral values: `some n` iff the ratio is `(n, 1)`; `OverflowError` for
infinities, `ValueError` for NaNs. -/
def asInteger : Dec → Res (Option Int)
  | .inf _ => .error .overflowError
  | .nan .. => .error .valueError
  | .fin neg coef exp =>
    let sg (n : Nat) : Int := if neg then -(n : Int) else n
    if 0 ≤ exp then .ok (some (sg (coef * 10 ^ exp.toNat)))
    else if coef % 10 ^ exp.natAbs = 0 then .ok (some (sg (coef / 10 ^ exp.natAbs)))
    else .ok none

end Dec
end Csvw
