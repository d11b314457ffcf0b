import Verif.Py.Basic
/-!
# Model of Python's `csv` module (CPython `Modules/_csv.c`)

`/repo/src/csvw/dsv.py` delegates all low-level parsing and serialization to `csv.reader` (dsv.py 179) and
`csv.writer` (dsv.py 99). This file models these two functions as they are in CPython 3.11.10; the differences
between CPython versions which matter for `csvw` (dsv.py 75-87, tests/test_csv_escapechar.py) are the two
flags of `CsvVer`. Simplification: `QUOTE_NONNUMERIC` is not modelled (no `csvw.Dialect` produces it).
-/

namespace Csvw.CsvLib

/-- Version dependent behaviour of `csv.writer`. -/
structure CsvVer where
  /-- CPython ≥ 3.10 (bpo-12178): `csv.writer` escapes the escape character itself. -/
  escEsc : Bool
  /-- Later patch releases (3.11.10 among them) quote/escape CR and LF even when not part of `lineterminator`,
  and quote empty fields if the delimiter is a space and `skipinitialspace` is set. -/
  quoteNl : Bool
  deriving DecidableEq, Repr

/-- The CPython 3.11.10 behaviour. -/
def CsvVer.py311 : CsvVer := ⟨true, true⟩
/-- The CPython 3.8/3.9 behaviour (`_csv.c` before bpo-12178). -/
def CsvVer.py38 : CsvVer := ⟨false, false⟩

inductive Quoting where
  | minimal | all | none
  deriving DecidableEq, Repr

/-- The formatting parameters of a `csv` dialect after validation by `_csv.Dialect`. -/
structure Fmt where
  delimiter : Char
  quotechar : Option Char
  escapechar : Option Char
  doublequote : Bool
  skipinitialspace : Bool
  lineterminator : Str
  quoting : Quoting
  strict : Bool
  deriving DecidableEq, Repr

/-- The `excel` dialect, used when no dialect and no keyword is given. -/
def Fmt.excel : Fmt :=
  { delimiter := ',', quotechar := some '"', escapechar := Option.none, doublequote := true,
    skipinitialspace := false, lineterminator := ['\r', '\n'], quoting := .minimal, strict := false }

/-! ## Writer -/

/-- Does character `c` need quoting or escaping (`_csv.c`, `join_append_data`)? -/
def special (v : CsvVer) (d : Fmt) (c : Char) : Bool :=
  c == d.delimiter || some c == d.escapechar || some c == d.quotechar ||
  (v.quoteNl && (c == '\n' || c == '\r')) || d.lineterminator.contains c

/-- One iteration of the loop of `join_append_data`: emitted characters and whether the field has to be quoted. -/
def emitChar (v : CsvVer) (d : Fmt) (c : Char) : Res (Str × Bool) :=
  if special v d c then
    let wantEscape : Bool :=
      if d.quoting = .none then true
      else if some c == d.quotechar then !d.doublequote
      else v.escEsc && some c == d.escapechar
    if wantEscape then
      match d.escapechar with
      | Option.none => .error .csvError      -- "need to escape, but no escapechar set"
      | some e => .ok ([e, c], false)
    else if some c == d.quotechar then .ok ([c, c], true)   -- doublequote
    else .ok ([c], true)
  else .ok ([c], false)

/-- The loop of `join_append_data` over the field. -/
def emitChars (v : CsvVer) (d : Fmt) : Str → Res (Str × Bool)
  | [] => .ok ([], false)
  | c :: cs =>
    match emitChar v d c with
    | .error e => .error e
    | .ok (a, q) =>
      match emitChars v d cs with
      | .error e => .error e
      | .ok (b, q') => .ok (a ++ b, q || q')

/-- `join_append`: a whole field, quoted if required. -/
def writeField (v : CsvVer) (d : Fmt) (s : Str) : Res Str :=
  match emitChars v d s with
  | .error e => .error e
  | .ok (body, q) =>
    -- an empty field with space delimiter and skipinitialspace must be quoted
    let q' := v.quoteNl && s.isEmpty && d.delimiter == ' ' && d.skipinitialspace
    if q' && d.quoting == .none then .error .csvError
    else if q || q' || d.quoting == .all then
      match d.quotechar with
      | some qc => .ok (qc :: body ++ [qc])
      | Option.none => .ok body     -- unreachable: `_csv.Dialect` requires a quotechar unless QUOTE_NONE
    else .ok body

def writeFields (v : CsvVer) (d : Fmt) : List Str → Res (List Str)
  | [] => .ok []
  | f :: fs =>
    match writeField v d f with
    | .error e => .error e
    | .ok a =>
      match writeFields v d fs with
      | .error e => .error e
      | .ok r => .ok (a :: r)

/-- `csv_writerow`: the text passed to `f.write` for one row. (`None` cells are written like `''`.) -/
def writeRow (v : CsvVer) (d : Fmt) (row : List Str) : Res Str :=
  match writeFields v d row with
  | .error e => .error e
  | .ok fields =>
    let rec_ := Py.join [d.delimiter] fields
    if rec_.isEmpty && !row.isEmpty then
      match d.quoting, d.quotechar with
      | .none, _ => .error .csvError          -- "single empty field record must be quoted"
      | _, some qc => .ok ([qc, qc] ++ d.lineterminator)
      | _, Option.none => .ok d.lineterminator -- unreachable, see `writeField`
    else .ok (rec_ ++ d.lineterminator)

/-- `csv.writer(f, …).writerows(rows)`: the complete text written. -/
def writeRows (v : CsvVer) (d : Fmt) : List (List Str) → Res Str
  | [] => .ok []
  | r :: rs =>
    match writeRow v d r with
    | .error e => .error e
    | .ok a =>
      match writeRows v d rs with
      | .error e => .error e
      | .ok b => .ok (a ++ b)

/-! ## Reader -/

/-- Parser states of `_csv.c`. -/
inductive St where
  | startRecord | startField | escapedChar | inField | inQuoted | escapeInQuoted | quoteInQuoted
  | eatCrnl | afterEscapedCrnl
  deriving DecidableEq, Repr

/-- Parser: state, current field, fields of the current record so far. -/
structure Parser where
  st : St
  field : Str
  fields : List Str
  deriving DecidableEq, Repr

/-- `parse_reset`. -/
def Parser.init : Parser := ⟨.startRecord, [], []⟩

/-- `csv.field_size_limit()`, default. -/
def fieldLimit : Nat := 131072

/-- `parse_add_char`. -/
def addChar (p : Parser) (st : St) (c : Char) : Res Parser :=
  if p.field.length ≥ fieldLimit then .error .csvError
  else .ok { p with st := st, field := p.field ++ [c] }

/-- `parse_save_field`, moving to `st`. -/
def saveField (p : Parser) (st : St) : Parser :=
  { st := st, field := [], fields := p.fields ++ [p.field] }

def isNl (c : Char) : Bool := c == '\n' || c == '\r'

/-- State `START_FIELD` (also the fall-through of `START_RECORD`); `none` is the end-of-line marker `EOL`. -/
def stepStartField (d : Fmt) (p : Parser) : Option Char → Res Parser
  | Option.none => .ok (saveField p .startRecord)
  | some c =>
    if isNl c then .ok (saveField p .eatCrnl)
    else if some c == d.quotechar && d.quoting != .none then .ok { p with st := .inQuoted }
    else if some c == d.escapechar then .ok { p with st := .escapedChar }
    else if c == ' ' && d.skipinitialspace then .ok { p with st := .startField }
    else if c == d.delimiter then .ok (saveField p .startField)
    else addChar p .inField c

/-- State `IN_FIELD` (also the fall-through of `AFTER_ESCAPED_CRNL`, which then keeps its state for
ordinary characters: `cur`). -/
def stepInField (d : Fmt) (p : Parser) (cur : St) : Option Char → Res Parser
  | Option.none => .ok (saveField p .startRecord)
  | some c =>
    if isNl c then .ok (saveField p .eatCrnl)
    else if some c == d.escapechar then .ok { p with st := .escapedChar }
    else if c == d.delimiter then .ok (saveField p .startField)
    else addChar p cur c

/-- `parse_process_char`. -/
def step (d : Fmt) (p : Parser) (tok : Option Char) : Res Parser :=
  match p.st with
  | .startRecord =>
    match tok with
    | Option.none => .ok p
    | some c => if isNl c then .ok { p with st := .eatCrnl } else stepStartField d p tok
  | .startField => stepStartField d p tok
  | .escapedChar =>
    match tok with
    | Option.none => addChar p .inField '\n'
    | some c => if isNl c then addChar p .afterEscapedCrnl c else addChar p .inField c
  | .afterEscapedCrnl =>
    match tok with
    | Option.none => .ok p
    | some _ => stepInField d p .afterEscapedCrnl tok
  | .inField => stepInField d p .inField tok
  | .inQuoted =>
    match tok with
    | Option.none => .ok p
    | some c =>
      if some c == d.escapechar then .ok { p with st := .escapeInQuoted }
      else if some c == d.quotechar && d.quoting != .none then
        .ok { p with st := if d.doublequote then .quoteInQuoted else .inField }
      else addChar p .inQuoted c
  | .escapeInQuoted =>
    match tok with
    | Option.none => addChar p .inQuoted '\n'
    | some c => addChar p .inQuoted c
  | .quoteInQuoted =>
    match tok with
    | Option.none => .ok (saveField p .startRecord)
    | some c =>
      if d.quoting != .none && some c == d.quotechar then addChar p .inQuoted c
      else if c == d.delimiter then .ok (saveField p .startField)
      else if isNl c then .ok (saveField p .eatCrnl)
      else if !d.strict then addChar p .inField c
      else .error .csvError                     -- "'%c' expected after '%c'"
  | .eatCrnl =>
    match tok with
    | Option.none => .ok { p with st := .startRecord }
    | some c => if isNl c then .ok p else .error .csvError -- "new-line character seen in unquoted field"

/-- Process the characters of one line followed by `EOL` (inner loop of `Reader_iternext`). -/
def stepToks (d : Fmt) (p : Parser) : List (Option Char) → Res Parser
  | [] => .ok p
  | t :: ts =>
    match step d p t with
    | .error e => .error e
    | .ok p' => stepToks d p' ts

def lineToks (line : Str) : List (Option Char) := line.map some ++ [Option.none]

/-- `Reader_iternext`: read lines until a record is complete. `Ok none` is `StopIteration`. -/
def nextRecord (d : Fmt) (p : Parser) : List Str → Res (Option (List Str × List Str))
  | [] =>
    if !p.field.isEmpty || p.st == .inQuoted then
      if d.strict then .error .csvError       -- "unexpected end of data"
      else .ok (some (p.fields ++ [p.field], []))
    else .ok Option.none
  | line :: rest =>
    match stepToks d p (lineToks line) with
    | .error e => .error e
    | .ok p' =>
      if p'.st = .startRecord then .ok (some (p'.fields, rest))
      else nextRecord d p' rest

/-- The rows obtained by iterating `csv.reader(lines, …)` until it stops, together with the exception
that ended the iteration, if any. `fuel` bounds the number of records (every record consumes a line). -/
def readRowsFuel (d : Fmt) : Nat → List Str → List (List Str) × Option PyErr
  | 0, _ => ([], Option.none)
  | n + 1, lines =>
    match nextRecord d .init lines with
    | .error e => ([], some e)
    | .ok Option.none => ([], Option.none)
    | .ok (some (row, rest)) =>
      let (rows, e) := readRowsFuel d n rest
      (row :: rows, e)

/-- Iterating `csv.reader(lines, …)` to the end. -/
def readRows (d : Fmt) (lines : List Str) : List (List Str) × Option PyErr :=
  readRowsFuel d (lines.length + 1) lines

/-- Lines of a text stream opened with `newline=''` (dsv.py 172): terminated by `\n`, `\r` or `\r\n`,
terminators kept. Worker with the current line (reversed). -/
def splitLinesGo : Str → Str → List Str
  | acc, [] => if acc.isEmpty then [] else [acc.reverse]
  | acc, '\r' :: '\n' :: cs => (('\n' :: '\r' :: acc).reverse) :: splitLinesGo [] cs
  | acc, c :: cs =>
    if isNl c then (c :: acc).reverse :: splitLinesGo [] cs
    else splitLinesGo (c :: acc) cs

def splitLines (text : Str) : List Str := splitLinesGo [] text

end Csvw.CsvLib
