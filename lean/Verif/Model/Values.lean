import Verif.Py.Decimal
import Verif.Py.Json
/-!
# Python values of cells and external functions

`Val` are the Python objects which the basic datatypes of `/repo/src/csvw/datatypes.py` map to.
Objects of external libraries which are only passed through (`float`, `isodate` durations, `rfc3986` URIs) are opaque
tokens (a string identifying the object).
-/

namespace Csvw

/-- `datetime.datetime`: naive (`tz = none`) or with a UTC offset in minutes. -/
structure DateTime where
  year : Nat
  month : Nat
  day : Nat
  hour : Nat := 0
  minute : Nat := 0
  second : Nat := 0
  micro : Nat := 0
  tz : Option Int := none
  deriving DecidableEq, Repr, Inhabited

/-- Python values of cells. -/
inductive Val where
  | none
  | str (s : Str)
  | bool (b : Bool)
  | int (i : Int)
  | dec (d : Dec)
  | bytes (b : List UInt8)
  | dt (d : DateTime)
  | flt (token : Str)
  | dur (token : Str)
  | uri (token : Str)
  | json (j : J)
  deriving DecidableEq, Repr, Inhabited

/-- The external functions used by the datatypes. Nothing is assumed about them unless a theorem says so. -/
structure Ext where
  /-- `re.compile('(' + p + ')')`: `none` for `re.error`; otherwise `f v n` says that the group can match `v[:n]`
  at position 0 (the set of all ends which the backtracking matcher may try). -/
  re : Str → Option (Str → Nat → Bool)
  /-- `str()` of a JSON value which is not a string (used for a non-string `format`). -/
  pyStr : J → Str
  /-- Does `\w` match the character? -/
  isWord : Char → Bool
  /-- `rfc3986.URIReference.from_string`, `unsplit`. -/
  uriParse : Str → Res Str
  uriStr : Str → Str
  /-- `float(s)` (`none`: `ValueError`), `'{}'.format(f)`, `<`, truth value, the `Decimal` of a JSON float. -/
  floatParse : Str → Option Str
  floatStr : Str → Str
  floatLt : Str → Str → Bool
  floatTrue : Str → Bool
  floatDec : Str → Dec
  /-- `re.match(format, v)` of `duration.to_python`, `isodate.parse_duration`, `duration_isoformat`, `<=`, truth value. -/
  durFormat : J → Str → Res Bool
  durParse : Str → Res Str
  durStr : Str → Str
  durLe : Str → Str → Res Bool
  durTrue : Str → Bool
  /-- `json.loads`, `json.dumps`; `jsonSchema f`: `f` is a JSON document which is a valid schema; `jsonBad f`: it is a JSON document which is
  no valid schema; `jsonschema.validate`. -/
  jsonLoads : Str → Res J
  jsonDumps : J → Str
  jsonSchema : J → Bool
  jsonBad : J → Bool
  jsonValid : J → J → Bool
  /-- `dateutil`: week and ordinal dates, timezone strings, general parser's timezone, general parser. -/
  isoUncommon : Str → Option (Nat × Nat × Nat × Nat)
  tzOf : Str → Res (Option Int)
  duParse : Str → Res DateTime
  /-- `datetime.date.today()`. -/
  today : Nat × Nat × Nat
  /-- `babel.dates.format_datetime/format_date/format_time`, `babel.numbers.format_decimal`. -/
  babelDateTime : Str → DateTime → Str
  babelDateOther : Str → DateTime → Str
  babelTime : Str → DateTime → Str
  babelDecimal : Str → Val → Str

namespace Dec

/-- `a < b` on `Decimal`; comparing a NaN raises `InvalidOperation`. -/
def lt : Dec → Dec → Res Bool
  | .nan .., _ => .error .arithmeticError
  | _, .nan .. => .error .arithmeticError
  | .inf a, .inf b => .ok (a && !b)
  | .inf a, .fin .. => .ok a
  | .fin .., .inf b => .ok (!b)
  | .fin n c e, .fin n' c' e' => .ok (decide (value (.fin n c e) < value (.fin n' c' e')))

/-- `a <= b` on `Decimal`. -/
def le (a b : Dec) : Res Bool := (lt b a).map (!·)

/-- `bool(d)`. -/
def truthy : Dec → Bool
  | .fin _ c _ => decide (c ≠ 0)
  | _ => true

end Dec

namespace DateTime

/-- The fields as a tuple. -/
def key (d : DateTime) : List Nat := [d.year, d.month, d.day, d.hour, d.minute, d.second, d.micro]

/-- Lexicographic `<` on tuples. -/
def lexLt : List Nat → List Nat → Bool
  | a :: as, b :: bs => decide (a < b) || (decide (a = b) && lexLt as bs)
  | _, _ => false

/-- Number of days before a year (CPython's `days_before_year`). -/
def daysBeforeYear (y : Nat) : Nat := (y - 1) * 365 + (y - 1) / 4 - (y - 1) / 100 + (y - 1) / 400

/-- Number of days of the year before a month (CPython's `days_before_month`). -/
def daysBeforeMonth (y m : Nat) : Nat :=
  [0, 0, 31, 59, 90, 120, 151, 181, 212, 243, 273, 304, 334].getD m 0 +
  (if 2 < m ∧ y % 4 = 0 ∧ (y % 100 ≠ 0 ∨ y % 400 = 0) then 1 else 0)

/-- `date.toordinal()`. -/
def ordinal (d : DateTime) : Nat := daysBeforeYear d.year + daysBeforeMonth d.year d.month + d.day

/-- The UTC instant of an aware `datetime` in microseconds, for comparison (CPython subtracts the datetimes and looks at the sign). -/
def instant (d : DateTime) : Int :=
  ((((d.ordinal * 24 + d.hour : Nat) : Int) * 60 + d.minute - d.tz.getD 0) * 60 + d.second) * 1000000 + d.micro

/-- `a < b`: naive datetimes by their fields, aware ones by the instant, mixed: `TypeError`. -/
def lt (a b : DateTime) : Res Bool :=
  match a.tz, b.tz with
  | none, none => .ok (lexLt a.key b.key)
  | some _, some _ => .ok (decide (a.instant < b.instant))
  | _, _ => .error .typeError

end DateTime

namespace Val

/-- `a < b` on values of the same type (values of different types: `TypeError`). -/
def lt (ext : Ext) : Val → Val → Res Bool
  | .int a, .int b => .ok (decide (a < b))
  | .dec a, .dec b => Dec.lt a b
  | .flt a, .flt b => .ok (ext.floatLt a b)
  | .dt a, .dt b => DateTime.lt a b
  | .str a, .str b => .ok (decide (a < b))
  | .dur a, .dur b => (ext.durLe b a).map (!·)
  | _, _ => .error .typeError

/-- `a <= b`. -/
def le (ext : Ext) : Val → Val → Res Bool
  | .dec a, .dec b => Dec.le a b
  | .dur a, .dur b => ext.durLe a b
  | .flt a, .flt b => .ok (ext.floatLt a b || decide (a = b))
  | a, b => (lt ext b a).map (!·)

/-- `bool(v)`. -/
def truthy (ext : Ext) : Val → Bool
  | .none => false
  | .str s => decide (s ≠ [])
  | .bool b => b
  | .int i => decide (i ≠ 0)
  | .dec d => d.truthy
  | .bytes b => decide (b ≠ [])
  | .dt _ => true
  | .flt t => ext.floatTrue t
  | .dur t => ext.durTrue t
  | .uri _ => true
  | .json j => match j with
    | .null => false
    | .bool b => b
    | .int i => decide (i ≠ 0)
    | .flt r => ext.floatTrue r
    | .str s => decide (s ≠ [])
    | .arr l => decide (l ≠ [])
    | .obj m => decide (m ≠ [])

/-- `len(v)`; `none`: `TypeError`. (`rfc3986.URIReference` is a 5-tuple.) -/
def len? : Val → Option Nat
  | .str s => some s.length
  | .bytes b => some b.length
  | .uri _ => some 5
  | .json (.str s) => some s.length
  | .json (.arr l) => some l.length
  | .json (.obj m) => some m.length
  | _ => Option.none

end Val
end Csvw
