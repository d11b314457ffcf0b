import Verif.Py.Json
import Verif.Py.Dict
import Verif.Model.CsvLib
/-!
# Model of `src/csvw/dsv_dialects.py` (and `utils.converter`, `utils.attr_asdict`)
-/

namespace Csvw

open CsvLib (Fmt Quoting)

/-! ## `utils.converter` -/

/-- utils.py 19-28, the nested calls for list items (line 21): items are converted with default `None`,
and `None` results are dropped. `ok` is `isinstance(s, type_)` and the `bool`/`cond` tests of line 25. -/
def convList (ok : J → Bool) : List J → List J
  | [] => []
  | .arr l :: r => .arr (convList ok l) :: convList ok r
  | j :: r => if ok j then j :: convList ok r else convList ok r

/-- utils.py 19-28 for `type_ != list`: the converted value and whether a warning was issued for the value itself
(warnings for items of lists, line 21, are not recorded). -/
def converter (ok : J → Bool) (default : J) (allowNone : Bool) (s : J) : J × Bool :=
  match s with
  | .arr l => (.arr (convList ok l), false)
  | s =>
    if allowNone && decide (s = .null) then (s, false)
    else if ok s then (s, false)
    else (default, true)

def J.isStr : J → Bool | .str _ => true | _ => false
def J.isBool : J → Bool | .bool _ => true | _ => false
/-- `isinstance(s, int)`, not `bool`, and `s >= 0` (dsv_dialects.py 73). -/
def J.isNonNegInt : J → Bool | .int i => decide (0 ≤ i) | _ => false
/-- `None` or a string. -/
def J.ofOptStr : Option Str → J | none => .null | some s => .str s
def J.isList : J → Bool | .arr _ => true | _ => false

/-! ## The `Dialect` class -/

/-- `Dialect.trim` (dsv_dialects.py 111-116): the four admissible values. -/
inductive Trim where
  | true_ | false_ | start | end_
  deriving DecidableEq, Repr

/-- dsv_dialects.py 44-116: the attributes of a constructed `Dialect`. `lineTerminators` items and `quoteChar`
are not validated by the code, so they may be arbitrary JSON values. -/
structure Dialect where
  encoding : Str := "utf-8".toList
  lineTerminators : List J := [.str "\r\n".toList, .str "\n".toList]
  quoteChar : J := .str ['"']
  doubleQuote : Bool := true
  skipRows : Nat := 0
  commentPrefix : Option Str := some ['#']
  header : Bool := true
  headerRowCount : Nat := 1
  delimiter : Str := [',']
  skipColumns : Nat := 0
  skipBlankRows : Bool := false
  skipInitialSpace : Bool := false
  trim : Trim := .false_
  deriving DecidableEq, Repr

/-- `codecs` lookup of an encoding name by `'x'.encode(...)` (dsv_dialects.py 37), a parameter of the model:
`ok` known, `error valueError` e.g. for a name with a NUL character, `error keyError` for `LookupError`. -/
abbrev EncLookup := Str → Res Unit

/-- `ENCODING_MAP.get(s, s)`, dsv_dialects.py 20-22, 37, 147. -/
def encodingMap (s : Str) : Str := if s = "UTF-8-BOM".toList then "utf-8-sig".toList else s

/-- dsv_dialects.py 34-41. -/
def convertEncoding (lk : EncLookup) (s : J) : Res (J × Bool) :=
  match converter J.isStr (.str "utf-8".toList) false s with
  | (.str e, w) =>
    match lk (encodingMap e) with
    | .ok _ => .ok (.str e, w)
    | .error .keyError => .ok (.str "utf-8".toList, true)
    | .error x => .error x
  | (_, _) => .error .typeError      -- unhashable list in `ENCODING_MAP.get`

def trimStr : Trim → Str
  | .true_ => "true".toList
  | .false_ => "false".toList
  | .start => "start".toList
  | .end_ => "end".toList

/-- `attr.validators.in_(['true', 'false', 'start', 'end'])`, dsv_dialects.py 113. -/
def parseTrim (s : Str) : Option Trim :=
  if s = "true".toList then some .true_
  else if s = "false".toList then some .false_
  else if s = "start".toList then some .start
  else if s = "end".toList then some .end_
  else none

/-- dsv_dialects.py 114-116: booleans become `'true'`/`'false'`, then `converter((str, bool), 'false')`. -/
def convertTrim (v : J) : J × Bool :=
  let v' := match v with
    | .bool true => .str "true".toList
    | .bool false => .str "false".toList
    | v => v
  converter (fun j => j.isStr || j.isBool) (.str "false".toList) false v'

/-- `attr.validators.instance_of(str)`. -/
def asStr : J → Res Str | .str s => .ok s | _ => .error .typeError
/-- `attr.validators.optional(attr.validators.instance_of(str))`. -/
def asOptStr : J → Res (Option Str) | .null => .ok none | .str s => .ok (some s) | _ => .error .typeError
/-- `attr.validators.instance_of(bool)`. -/
def asBool : J → Res Bool | .bool b => .ok b | _ => .error .typeError
/-- `non_negative_int`, dsv_dialects.py 26-31. (`bool` values never get here: the converter replaces them.) -/
def asNat : J → Res Nat
  | .int i => if i < 0 then .error .valueError else .ok i.toNat
  | _ => .error .typeError
def asTrim : J → Res Trim
  | .str s => match parseTrim s with | some t => .ok t | none => .error .valueError
  | _ => .error .valueError

/-- The keyword arguments accepted by `Dialect(...)`, with the attribute defaults. -/
def Dialect.propNames : List Str :=
  ["encoding", "lineTerminators", "quoteChar", "doubleQuote", "skipRows", "commentPrefix", "header",
   "headerRowCount", "delimiter", "skipColumns", "skipBlankRows", "skipInitialSpace", "trim"].map String.toList

/-- `lineTerminators`: `converter(list, ['\r\n', '\n'])`, dsv_dialects.py 57-59. -/
def convertLineTerminators : J → List J × Bool
  | .arr l => (l, false)
  | _ => ([.str "\r\n".toList, .str "\n".toList], true)

/-- `Dialect(**kw)`: converters, then validators (dsv_dialects.py 44-116). Returns the object and the names
of the properties for which `Invalid value for property` was warned. Simplification: when several arguments
are invalid, which of the exceptions is raised first is not modelled precisely. -/
def Dialect.construct (lk : EncLookup) (kw : List (Str × J)) : Res (Dialect × List Str) :=
  let arg (n : String) (dflt : J) : J := (Dict.get n.toList kw).getD dflt
  let warn (n : String) (b : Bool) : List Str := if b then [n.toList] else []
  if kw.any (fun p => !Dialect.propNames.contains p.1) then .error .typeError   -- unexpected keyword
  else do
    let (encJ, w1) ← convertEncoding lk (arg "encoding" (.str "utf-8".toList))
    let (lts, w2) := convertLineTerminators (arg "lineTerminators" (.arr [.str "\r\n".toList, .str "\n".toList]))
    let (qc, w3) := converter J.isStr (.str ['"']) true (arg "quoteChar" (.str ['"']))
    let (dqJ, w4) := converter J.isBool (.bool true) false (arg "doubleQuote" (.bool true))
    let (srJ, w5) := converter J.isNonNegInt (.int 0) false (arg "skipRows" (.int 0))
    let (cpJ, w6) := converter J.isStr (.str ['#']) true (arg "commentPrefix" (.str ['#']))
    let (hdJ, w7) := converter J.isBool (.bool true) false (arg "header" (.bool true))
    let (hcJ, w8) := converter J.isNonNegInt (.int 1) false (arg "headerRowCount" (.int 1))
    let (dlJ, w9) := converter J.isStr (.str [',']) false (arg "delimiter" (.str [',']))
    let (scJ, w10) := converter J.isNonNegInt (.int 0) false (arg "skipColumns" (.int 0))
    let (sbJ, w11) := converter J.isBool (.bool false) false (arg "skipBlankRows" (.bool false))
    let (siJ, w12) := converter J.isBool (.bool false) false (arg "skipInitialSpace" (.bool false))
    let (trJ, w13) := convertTrim (arg "trim" (.str "false".toList))
    let enc ← asStr encJ
    let dq ← asBool dqJ
    let sr ← asNat srJ
    let cp ← asOptStr cpJ
    let hd ← asBool hdJ
    let hc ← asNat hcJ
    let dl ← asStr dlJ
    let sc ← asNat scJ
    let sb ← asBool sbJ
    let si ← asBool siJ
    let tr ← asTrim trJ
    return ({ encoding := enc, lineTerminators := lts, quoteChar := qc, doubleQuote := dq, skipRows := sr,
              commentPrefix := cp, header := hd, headerRowCount := hc, delimiter := dl, skipColumns := sc,
              skipBlankRows := sb, skipInitialSpace := si, trim := tr },
            warn "encoding" w1 ++ warn "lineTerminators" w2 ++ warn "quoteChar" w3 ++ warn "doubleQuote" w4 ++
            warn "skipRows" w5 ++ warn "commentPrefix" w6 ++ warn "header" w7 ++ warn "headerRowCount" w8 ++
            warn "delimiter" w9 ++ warn "skipColumns" w10 ++ warn "skipBlankRows" w11 ++
            warn "skipInitialSpace" w12 ++ warn "trim" w13)

/-- The attribute values as JSON, in the order of `attr.fields(Dialect)`. -/
def Dialect.fields (d : Dialect) : List (Str × J) :=
  [("encoding".toList, .str d.encoding),
   ("lineTerminators".toList, .arr d.lineTerminators),
   ("quoteChar".toList, d.quoteChar),
   ("doubleQuote".toList, .bool d.doubleQuote),
   ("skipRows".toList, .int d.skipRows),
   ("commentPrefix".toList, J.ofOptStr d.commentPrefix),
   ("header".toList, .bool d.header),
   ("headerRowCount".toList, .int d.headerRowCount),
   ("delimiter".toList, .str d.delimiter),
   ("skipColumns".toList, .int d.skipColumns),
   ("skipBlankRows".toList, .bool d.skipBlankRows),
   ("skipInitialSpace".toList, .bool d.skipInitialSpace),
   ("trim".toList, .str (trimStr d.trim))]

/-- `attr_defaults(Dialect)`, utils.py 38-45. -/
def Dialect.defaults : List (Str × J) := ({} : Dialect).fields

/-- `Dialect.asdict`, dsv_dialects.py 142-143 and utils.py 48-58. -/
def Dialect.asdict (d : Dialect) (omitDefaults : Bool := true) : List (Str × J) :=
  d.fields.filter (fun p => !(omitDefaults && decide (Dict.get p.1 Dialect.defaults = some p.2)))

/-- `Dialect.updated`, dsv_dialects.py 118-122: the attributes of the new object. It is constructed from all attributes
of the old one; then the new values are set without conversion or validation (so the result may have ill-typed
attributes and is given as attribute map, not as `Dialect`). -/
def Dialect.updated (lk : EncLookup) (d : Dialect) (kw : List (Str × J)) : Res (List (Str × J)) :=
  match Dialect.construct lk d.fields with
  | .error e => .error e
  | .ok (d', _) => .ok (Dict.update d'.fields kw)

/-- `escape_character`, dsv_dialects.py 124-126. -/
def Dialect.escapeCharacter (d : Dialect) : Option Char :=
  if d.quoteChar = .null then none else some (if d.doubleQuote then '"' else '\\')

/-- `trimmer`, dsv_dialects.py 133-140. -/
def Trim.apply : Trim → Str → Str
  | .true_, s => Py.strip s
  | .false_, s => s
  | .start, s => Py.lstrip s
  | .end_, s => Py.rstrip s

/-- `as_python_formatting_parameters` (dsv_dialects.py 149-160) passed as keywords to `csv.reader`/`csv.writer`:
the resulting format, or the exception raised by that or by `_csv.Dialect` (delimiter, quotechar must have
one character; `quotechar=None` without `quoting` means `QUOTE_NONE`). -/
def Dialect.toFmt (d : Dialect) : Res Fmt :=
  match d.lineTerminators with
  | [] => .error .indexError
  | lt :: _ =>
    match d.delimiter, d.quoteChar, lt with
    | [dl], .null, .str lt =>
      .ok { delimiter := dl, quotechar := none, escapechar := none, doublequote := d.doubleQuote,
            skipinitialspace := d.skipInitialSpace, lineterminator := lt, quoting := .none, strict := true }
    | [dl], .str [q], .str lt =>
      .ok { delimiter := dl, quotechar := some q,
            escapechar := if d.doubleQuote then none else d.escapeCharacter,
            doublequote := d.doubleQuote, skipinitialspace := d.skipInitialSpace, lineterminator := lt,
            quoting := .minimal, strict := true }
    | _, _, _ => .error .typeError

end Csvw
