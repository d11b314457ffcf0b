import Verif.Model.Values
import Verif.Model.NumberPattern
import Verif.Model.DateFormat
import Verif.Model.Binary
/-!
# Basic datatypes

Model of the classes in `/repo/src/csvw/datatypes.py` 50–1023: `derived_description`, `to_python`, `to_string`.
Warnings are not modelled here.
-/

namespace Csvw

/-- The registered basic datatypes (`DATATYPES`, 35–40 and the `@register` classes). -/
inductive Base where
  | any | string | anyURI | NMTOKEN | base64Binary | binary | hexBinary | boolean
  | datetime | dateTime | date | dateTimeStamp | time
  | duration | dayTimeDuration | yearMonthDuration
  | decimal | integer | int | unsignedInt | unsignedShort | unsignedLong | unsignedByte | short | long | byte
  | nonNegativeInteger | positiveInteger | nonPositiveInteger | negativeInteger
  | float | number | double
  | normalizedString | QName | gDay | gMonth | gMonthDay | gYear | gYearMonth | xml | html | json
  deriving DecidableEq, Repr

namespace Base

/-- The `name` attribute, key in `DATATYPES`. -/
def name : Base → String
  | any => "any" | string => "string" | anyURI => "anyURI" | NMTOKEN => "NMTOKEN"
  | base64Binary => "base64Binary" | binary => "binary" | hexBinary => "hexBinary" | boolean => "boolean"
  | datetime => "datetime" | dateTime => "dateTime" | date => "date" | dateTimeStamp => "dateTimeStamp" | time => "time"
  | duration => "duration" | dayTimeDuration => "dayTimeDuration" | yearMonthDuration => "yearMonthDuration"
  | decimal => "decimal" | integer => "integer" | int => "int" | unsignedInt => "unsignedInt"
  | unsignedShort => "unsignedShort" | unsignedLong => "unsignedLong" | unsignedByte => "unsignedByte"
  | short => "short" | long => "long" | byte => "byte"
  | nonNegativeInteger => "nonNegativeInteger" | positiveInteger => "positiveInteger"
  | nonPositiveInteger => "nonPositiveInteger" | negativeInteger => "negativeInteger"
  | float => "float" | number => "number" | double => "double"
  | normalizedString => "normalizedString" | QName => "QName" | gDay => "gDay" | gMonth => "gMonth"
  | gMonthDay => "gMonthDay" | gYear => "gYear" | gYearMonth => "gYearMonth" | xml => "xml" | html => "html"
  | json => "json"

/-- All datatypes. -/
def all : List Base :=
  [any, string, anyURI, NMTOKEN, base64Binary, binary, hexBinary, boolean, datetime, dateTime, date, dateTimeStamp,
   time, duration, dayTimeDuration, yearMonthDuration, decimal, integer, int, unsignedInt, unsignedShort,
   unsignedLong, unsignedByte, short, long, byte, nonNegativeInteger, positiveInteger, nonPositiveInteger,
   negativeInteger, float, number, double, normalizedString, QName, gDay, gMonth, gMonthDay, gYear, gYearMonth, xml,
   html, json]

/-- `DATATYPES.get(s)`. -/
def ofName (s : Str) : Option Base := all.find? fun b => b.name.toList = s

/-- The implementation of `to_python`/`to_string` which a class has or inherits. -/
inductive Kind where
  | any | string | uri | nmtoken | normalized | json | base64 | hex | boolean | dateTime | date | time | duration
  | decimal | integer | float
  deriving DecidableEq, Repr

/-- Which implementation (class hierarchy, 86–1023). -/
def kind : Base → Kind
  | any => .any
  | string | QName | gDay | gMonth | gMonthDay | gYear | gYearMonth | xml | html => .string
  | anyURI => .uri | NMTOKEN => .nmtoken | normalizedString => .normalized | json => .json
  | base64Binary | binary => .base64 | hexBinary => .hex | boolean => .boolean
  | datetime | dateTime | dateTimeStamp => .dateTime
  | date => .date | time => .time
  | duration | dayTimeDuration | yearMonthDuration => .duration
  | decimal => .decimal
  | integer | int | unsignedInt | unsignedShort | unsignedLong | unsignedByte | short | long | byte
  | nonNegativeInteger | positiveInteger | nonPositiveInteger | negativeInteger => .integer
  | float | number | double => .float

/-- `range` of the integer classes (609–806); `none` as bound is an infinity. -/
def range : Base → Option (Option Int × Option Int)
  | unsignedInt => some (some 0, some 4294967295)
  | unsignedShort => some (some 0, some 65535)
  | unsignedLong => some (some 0, some 18446744073709551615)
  | unsignedByte => some (some 0, some 255)
  | short => some (some (-32768), some 32767)
  | long => some (some (-9223372036854775808), some 9223372036854775807)
  | byte => some (some (-128), some 127)
  | nonNegativeInteger => some (some 0, none)
  | positiveInteger => some (some 1, none)
  | nonPositiveInteger => some (none, some 0)
  | negativeInteger => some (none, some (-1))
  | _ => none

/-- `minmax` (61, 303, 482, 817): true for date/time and numeric types; false for durations. -/
def minmax (b : Base) : Bool := match b.kind with
  | .dateTime | .date | .time | .decimal | .integer | .float => true
  | _ => false

/-- `isinstance(basetype(), (decimal, float, datetime, duration))` (metadata.py 579–581). -/
def isOrdered (b : Base) : Bool := match b.kind with
  | .dateTime | .date | .time | .decimal | .integer | .float | .duration => true
  | _ => false

/-- `isinstance(basetype(), (string, base64Binary, hexBinary))` (metadata.py 589–591). -/
def hasLength (b : Base) : Bool := match b.kind with
  | .string | .uri | .nmtoken | .normalized | .json | .base64 | .hex => true
  | _ => false

end Base

/-- The keyword arguments for numbers. -/
structure NumFmt where
  pattern : Option Str := none
  decimalChar : Option Str := none
  groupChar : Option Str := none
  deriving DecidableEq, Repr

/-- `derived_description`: the keyword arguments for `to_python` and `to_string`. -/
inductive Derived where
  | empty
  | regex (fmt : Str)
  | bool (t f : List Str)
  | num (f : NumFmt)
  /-- A format object with unknown keys: calls with these keyword arguments raise `TypeError`. -/
  | badKw
  | dt (d : DateFmt.Desc)
  | dur (fmt : J)
  | schema (s : J)
  deriving DecidableEq, Repr

namespace J
/-- `bool(v)` of a JSON value (floats are given by their `repr`). -/
def truthy : J → Bool
  | .null => false
  | .bool b => b
  | .int i => decide (i ≠ 0)
  | .flt r => decide (r ≠ "0.0".toList) && decide (r ≠ "-0.0".toList)
  | .str s => decide (s ≠ [])
  | .arr l => decide (l ≠ [])
  | .obj m => decide (m ≠ [])
end J

namespace Datatypes
open Py

/-- `string.derived_description` (96–105). -/
def stringDerived (ext : Ext) (fmt : J) : Derived :=
  if fmt.truthy then
    let p := match fmt with | .str s => s | j => ext.pyStr j
    match ext.re p with
    | some _ => .regex p
    | none => .empty
  else .empty

/-- `boolean.derived_description` (257–266). -/
def boolDerived (fmt : J) : Derived :=
  match fmt with
  | .str s => if s.count '|' = 1 then
      let (t, _, f) := partition '|' s
      .bool [t] [f]
    else .bool ["true".toList, "1".toList] ["false".toList, "0".toList]
  | _ => .bool ["true".toList, "1".toList] ["false".toList, "0".toList]

/-- The keyword arguments of a number format object (525–528); values which are not strings raise `TypeError`. -/
def numKw : List (Str × J) → Option NumFmt
  | [] => some {}
  | (k, v) :: r => match numKw r with
    | none => none
    | some f =>
      match (match v with | .str s => some (some s) | .null => some none | _ => none : Option (Option Str)) with
      | none => none
      | some o =>
        if k = "pattern".toList then some { f with pattern := o }
        else if k = "decimalChar".toList then some { f with decimalChar := o }
        else if k = "groupChar".toList then some { f with groupChar := o }
        else none

/-- `decimal.derived_description` (524–529), `_float.derived_description` (828–833). -/
def numDerived (fmt : J) : Derived :=
  if fmt.truthy then
    match fmt with
    | .obj m => match numKw m with | some f => .num f | none => .badKw
    | .str s => .num ⟨some s, none, none⟩
    | _ => .badKw
  else .empty

/-- `dt_format_and_regex(fmt, no_date)` (1026–1039): unpacks `{'pattern': fmt}`; other formats raise `TypeError`. -/
def dtFormat (fmt : J) (noDate : Bool) : Res DateFmt.Desc :=
  match fmt with
  | .null => .ok {}
  | .str s => DateFmt.formatAndRegex s noDate
  | .obj [(k, .str s)] => if k = "pattern".toList then DateFmt.formatAndRegex s noDate else .error .typeError
  | _ => .error .typeError

/-- `f or d` for formats. -/
def orFmt (fmt : J) (d : String) : J := if fmt.truthy then fmt else .str d.toList

/-- `derived_description` of each class (67–69, 96–105, 257–266, 308–310, 371–377, 400–405, 416–418, 448–450, 524–529,
828–833, 989–1003). -/
def derived (ext : Ext) (b : Base) (fmt : J) : Res Derived :=
  match b.kind with
  | .any | .base64 | .hex => .ok .empty
  | .string | .uri | .nmtoken | .normalized => .ok (stringDerived ext fmt)
  | .boolean => .ok (boolDerived fmt)
  | .decimal | .integer | .float => .ok (numDerived fmt)
  | .duration => .ok (.dur fmt)
  | .json => if fmt.truthy && ext.jsonSchema fmt then .ok (.schema fmt) else .ok .empty
  | .date => match dtFormat (orFmt fmt "yyyy-MM-dd") false with
    | .ok d => .ok (.dt d)
    | .error .valueError => (dtFormat (.str "yyyy-MM-dd".toList) false).map .dt
    | .error e => .error e
  | .time => (dtFormat (orFmt fmt "HH:mm:ss") true).map .dt
  | .dateTime =>
    if b = .dateTimeStamp then
      match dtFormat (orFmt fmt "yyyy-MM-ddTHH:mm:ss.SSSSSSXXX") false with
      | .error e => .error e
      | .ok d => if d.tzMarker.getD [] = [] then .error .valueError else .ok (.dt d)
    else (dtFormat fmt false).map .dt

/-- Does `derived_description` issue a warning (103, 262–264, 375, 1004)? -/
def derivedWarns (ext : Ext) (b : Base) (fmt : J) : Bool :=
  match b.kind with
  | .string | .uri | .nmtoken | .normalized =>
    fmt.truthy && (ext.re (match fmt with | .str s => s | j => ext.pyStr j)).isNone
  | .boolean => fmt.truthy && (match fmt with | .str s => decide (s.count '|' ≠ 1) | _ => true)
  | .date => match dtFormat (orFmt fmt "yyyy-MM-dd") false with
    | .error .valueError => true
    | _ => false
  | .json => fmt.truthy && ext.jsonBad fmt
  | _ => false

/-- `$` after position `n`: at the end or before a trailing newline. -/
def atEnd (v : Str) (n : Nat) : Bool := n == v.length || (n + 1 == v.length && v.getLast? == some '\n')

/-- `re.compile('({})$'.format(fmt)).match(v)` succeeds. -/
def fullMatch (f : Str → Nat → Bool) (v : Str) : Bool :=
  (List.range (v.length + 1)).any fun n => f v n && atEnd v n

/-- `string.to_python` (107–111). -/
def stringToPython (ext : Ext) (d : Derived) (v : Str) : Res Str :=
  match d with
  | .regex p => match ext.re p with
    | some f => if fullMatch f v then .ok v else .error .valueError
    | none => .ok v
  | _ => .ok v

/-- The keyword arguments. -/
def numFmtOf : Derived → Res NumFmt
  | .num f => .ok f
  | .badKw => .error .typeError
  | _ => .ok {}

/-- `x or d` for optional strings. -/
def orStr (o : Option Str) (d : Str) : Str := match o with
  | some (c :: cs) => c :: cs
  | _ => d

/-- `decimal._special` (517–521). -/
def special (v : Str) : Option Dec :=
  if v = "INF".toList then some (.inf false)
  else if v = "-INF".toList then some (.inf true)
  else if v = "NaN".toList then some (.nan false false 0)
  else none

/-- The groupChar resp. decimalChar taken from the pattern (538–541). -/
def charFromPattern (o : Option Str) (pattern : Option Str) (c : Char) : Option Str :=
  match o with
  | some s => some s
  | none => if (pattern.getD []).contains c then some [c] else none

/-- `_decimal.Decimal(v) * factor` (562–565), with `v` and the factor determined in 547–561. -/
def decConvert (v : Str) (c : Nat) (e : Int) : Res Dec :=
  match Dec.parse v with
  | none => .error .valueError
  | some d => match Dec.mulConst d c e with
    | none => .error .valueError
    | some r => r

/-- Percent and permille (555–561). -/
def decFactor (v : Str) : Res Dec :=
  if v.contains '%' then decConvert (v.filter (· ≠ '%')) 1 (-2)
  else if v.contains '‰' then decConvert (v.filter (· ≠ '‰')) 1 (-3)
  else decConvert v 1 0

/-- `decimal.to_python` (531–565) for a `str`. -/
def decToPython (f : NumFmt) (v : Str) : Res Dec :=
  if v.contains 'e' || v.contains 'E' then .error .valueError
  else
    let g0 := orStr f.groupChar [',']
    if contains (g0 ++ g0) v then .error .valueError
    else
      let gc := charFromPattern f.groupChar f.pattern ','
      let dc := charFromPattern f.decimalChar f.pattern '.'
      match (match f.pattern.getD [] with
        | [] => Except.ok true
        | p => NumPat.valid p (replace (orStr dc ['.']) ['.'] (replace (orStr gc [',']) [','] v)) : Res Bool) with
      | .error e => .error e
      | .ok false => .error .valueError
      | .ok true =>
        match special v with
        | some d => .ok d
        | none =>
          let v := match gc.getD [] with | [] => v | g => replace g [] v
          let v := match dc.getD [] with | [] => v | d => if d = ['.'] then v else replace d ['.'] v
          decFactor v

/-- Does `decimal.to_python` issue a warning (548–551)? -/
def decWarns (f : NumFmt) (v : Str) : Bool :=
  match special v, decToPython f v with
  | some _, .ok _ => true
  | _, _ => false

/-- `integer.to_python` (615–624). -/
def intToPython (b : Base) (f : NumFmt) (v : Str) : Res Int :=
  match decToPython f v with
  | .error e => .error e
  | .ok d => match d.asInteger with
    | .error e => .error e
    | .ok none => .error .valueError
    | .ok (some n) => match b.range with
      | none => .ok n
      | some (lo, hi) =>
        if (∀ l ∈ lo, l ≤ n) ∧ (∀ h ∈ hi, n ≤ h) then .ok n else .error .valueError

/-- `decimal._reverse_special` (522) on the formatted value. -/
def reverseSpecial (s : Str) : Option Str :=
  if s = "Infinity".toList then some "INF".toList
  else if s = "-Infinity".toList then some "-INF".toList
  else if s = "NaN".toList then some "NaN".toList
  else none

/-- `fmt.format(v)` for `int` and `Decimal`. -/
def numStr (thousands : Bool) : Val → Str
  | .int i => Dec.intStr thousands i
  | .dec d => Dec.toStr thousands d
  | _ => []

/-- `v < 0` for `int` and `Decimal`; a NaN raises `InvalidOperation`. -/
def numNeg : Val → Res Bool
  | .int i => .ok (decide (i < 0))
  | .dec d => Dec.lt d (.fin false 0 0)
  | _ => .error .typeError

/-- The expansion of scientific notation (585–592). `exp` is the exponent in the string. -/
def sciStr (neg : Bool) (mant : Str) (exp : Int) : Str :=
  let ds := mant.filter fun c => c ≠ '.' && c ≠ '-'
  let zeros := List.replicate (exp.natAbs - 1) '0'
  Dec.signStr neg ++ (if exp > 0 then ds ++ zeros ++ ".0".toList else "0.".toList ++ zeros ++ ds)

/-- `int(exp)` for the exponent part written by `Decimal.__str__`. -/
def expInt : Str → Int
  | '-' :: r => -(Dec.numeral r : Int)
  | '+' :: r => Dec.numeral r
  | r => Dec.numeral r

/-- The substitution of separators (594–602): only characters which occur in `decimalChar + groupChar` are
replaced: `,` by `groupChar`, `.` by `decimalChar`, others (or if that is `None`) by nothing. -/
def substSeps (f : NumFmt) (s : Str) : Str :=
  let cls := f.decimalChar.getD [] ++ f.groupChar.getD []
  if cls = [] then s
  else (s.map fun c =>
    if cls.contains c then
      if c = ',' then f.groupChar.getD [] else if c = '.' then f.decimalChar.getD [] else []
    else [c]).flatten

/-- `sys.int_info.default_max_str_digits`: converting an `int` with more digits to a `str` raises `ValueError`. -/
def maxStrDigits : Nat := 4300

/-- Does converting the number to a string raise `ValueError`? -/
def tooLong : Val → Bool
  | .int i => decide (maxStrDigits < Dec.ndigits i.natAbs)
  | _ => false

/-- The last part of `decimal.to_string` (583–603): scientific notation or separators. -/
def decPlain (f : NumFmt) (neg : Bool) (s : Str) : Str :=
  if (partition 'E' s).2.1 then sciStr neg (partition 'E' s).1 (expInt (partition 'E' s).2.2) else substSeps f s

/-- `decimal.to_string` (568–603). -/
def decToString (ext : Ext) (f : NumFmt) (v : Val) : Res Str :=
  if tooLong v then .error .valueError
  else match reverseSpecial (numStr false v) with
  | some s => .ok s
  | none =>
    match f.pattern.getD [] with
    | c :: cs =>
      let s := ext.babelDecimal (c :: cs) v
      let s := match f.decimalChar.getD [] with | [] => s | d => replace ['.'] d s
      .ok (match f.groupChar.getD [] with | [] => s | g => replace [','] g s)
    | [] => match numNeg v with
      | .error e => .error e
      | .ok neg => .ok (decPlain f neg (numStr f.groupChar.isSome v))

/-- `boolean.to_python` (268–276) for a `str`. -/
def boolToPython (t f : List Str) (s : Str) : Res Bool :=
  if s ∈ t then .ok true else if s ∈ f then .ok false else .error .valueError

/-- `normalizedString.to_python` (884–890): the `regex` argument is ignored. -/
def normToPython (v : Str) : Str :=
  if v = [] then v
  else strip (replace ['\t'] [' '] (replace ['\n'] [' '] (replace ['\r'] [' '] v)))

/-- The Python object for a JSON document (`null` is `None`). -/
def jsonVal : J → Val
  | .null => .none
  | j => .json j

/-- `to_python(v, **derived_description)` for a `str` (71–73, 107–111, 132–135, 168–172, 180–190, 220–230, 268–276, 337–346,
383–386, 422–426, 452–456, 531–565, 615–624, 835–845, 884–890, 1007–1015). -/
def toPython (ext : Ext) (b : Base) (d : Derived) (v : Str) : Res Val :=
  match b.kind with
  | .any => .ok (.str v)
  | .string => (stringToPython ext d v).map .str
  | .normalized => .ok (.str (normToPython v))
  | .nmtoken => match stringToPython ext d v with
    | .error e => .error e
    | .ok v => if v.all (fun c => ext.isWord c || c = '.' || c = ':' || c = '-') then .ok (.str v) else .error .valueError
  | .uri => match stringToPython ext d v with
    | .error e => .error e
    | .ok v => (ext.uriParse v).map .uri
  | .base64 => if Bin.isAscii v then
      match Bin.decodebytes v with | some bs => .ok (.bytes bs) | none => .error .valueError
    else .error .valueError
  | .hex => if Bin.isAscii v then
      match Bin.unhexlify v with | some bs => .ok (.bytes bs) | none => .error .valueError
    else .error .valueError
  | .boolean => match d with
    | .bool t f => (boolToPython t f v).map .bool
    | _ => .error .typeError
  | .dateTime => match d with
    | .dt d => (DateFmt.dateTimeToPython ext v d.regex d.tzMarker d.pattern).map .dt
    | _ => .error .typeError
  | .date => match d with
    | .dt d => (DateFmt.dateToPython ext v d).map .dt
    | _ => .error .typeError
  | .time => match d with
    | .dt d => (DateFmt.timeToPython ext v d).map .dt
    | _ => .error .typeError
  | .duration => match d with
    | .dur f => if f.truthy then
        match ext.durFormat f v with
        | .error e => .error e
        | .ok false => .error .valueError
        | .ok true => (ext.durParse v).map .dur
      else (ext.durParse v).map .dur
    | _ => .error .typeError
  | .decimal => match numFmtOf d with
    | .error e => .error e
    | .ok f => (decToPython f v).map .dec
  | .integer => match numFmtOf d with
    | .error e => .error e
    | .ok f => (intToPython b f v).map .int
  | .float => match numFmtOf d with
    | .error e => .error e
    | .ok f =>
      match (match f.pattern.getD [] with | [] => Except.ok true | p => NumPat.valid p v : Res Bool) with
      | .error e => .error e
      | .ok false => .error .valueError
      | .ok true => match ext.floatParse v with
        | some t => .ok (.flt t)
        | none => .error .valueError
  | .json => match ext.jsonLoads v with
    | .error e => .error e
    | .ok j => match d with
      | .schema s => if ext.jsonValid s j then .ok (jsonVal j) else .error .valueError
      | _ => .ok (jsonVal j)

/-- `'-'`-separated ISO date, `v.isoformat()` with `T` and the time (external for aware values). -/
def isoformat (d : DateTime) : Str :=
  DateFmt.padNat 4 d.year ++ '-' :: DateFmt.padNat 2 d.month ++ '-' :: DateFmt.padNat 2 d.day ++ 'T' ::
  DateFmt.padNat 2 d.hour ++ ':' :: DateFmt.padNat 2 d.minute ++ ':' :: DateFmt.padNat 2 d.second ++
  (if d.micro = 0 then [] else '.' :: DateFmt.padNat 6 d.micro) ++
  (match d.tz with
   | none => []
   | some t => (if t < 0 then '-' else '+') :: DateFmt.padNat 2 (t.natAbs / 60) ++ ':' :: DateFmt.padNat 2 (t.natAbs % 60))

/-- `to_string(v, **derived_description)` (75–77, 137–146, 192–194, 232–234, 278–280, 348–352, 388–393, 428–430, 458–460,
568–603, 847–849, 1017–1019); values of another type: `TypeError`. -/
def toText (ext : Ext) (b : Base) (d : Derived) (v : Val) : Res Str :=
  match b.kind, v with
  | .any, .str s | .string, .str s | .normalized, .str s | .nmtoken, .str s => .ok s
  | .uri, .uri t => .ok (ext.uriStr t)
  | .base64, .bytes bs => .ok (strip (Bin.encodebytes bs))
  | .hex, .bytes bs => .ok (Bin.hexlify bs)
  | .boolean, .bool x => match d with
    | .bool t f => match (if x then t else f) with | s :: _ => .ok s | [] => .error .indexError
    | _ => .error .typeError
  | .dateTime, .dt x => match d with
    | .dt d => match d.pattern.getD [] with
      | [] => .ok (isoformat x)
      | p => .ok (ext.babelDateTime p x)
    | _ => .error .typeError
  | .date, .dt x => match d with
    | .dt d => match d.pattern.getD [] with
      | [] => .ok (isoformat x)
      | p => .ok (DateFmt.babelDate ext p x)
    | _ => .error .typeError
  | .time, .dt x => match d with
    | .dt d => .ok (ext.babelTime (d.pattern.getD []) x)
    | _ => .error .typeError
  | .duration, .dur t => .ok (ext.durStr t)
  | .decimal, v | .integer, v => match numFmtOf d with
    | .error e => .error e
    | .ok f => decToString ext f v
  | .float, .flt t => .ok (ext.floatStr t)
  | .json, .json j => .ok (ext.jsonDumps j)
  | _, _ => .error .typeError

end Datatypes
end Csvw
