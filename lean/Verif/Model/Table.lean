import Verif.Model.Column
import Verif.Model.Dsv
/-!
# Schemas and tables: writing and reading data

Model of `Schema` and `Table` in `/repo/src/csvw/metadata.py` 863–985, 1179–1460.
-/

namespace Csvw

/-- A `ForeignKey` with its `Reference` (863–891). Simplification: column references are lists of strings. -/
structure ForeignKey where
  columnReference : List Str
  resource : Option Str := none
  schemaReference : Option Str := none
  refColumns : List Str
  deriving DecidableEq, Repr

/-- A `Schema` (909–931). Simplification: `primaryKey` is `None` or a list of strings. -/
structure Schema where
  props : Descr := {}
  columns : List Column := []
  foreignKeys : List ForeignKey := []
  primaryKey : Option (List Str) := none
  rowTitles : List J := []
  deriving DecidableEq, Repr

namespace Schema

/-- The loop over the columns in `__attrs_post_init__` (933–951): `virtual` and `names` are the variables of the loop, `i` the
number of columns before. The result are the columns with their numbers. (Warnings are not recorded.) -/
def number (virtual : Bool) (names : List Str) (i : Nat) : List Column → Res (List Column)
  | [] => .ok []
  | c :: r =>
    if virtual && !c.virtual then .error .valueError
    else if c.virtual then
      (number true names (i + 1) r).map fun cs => { c with number := i + 1 } :: cs
    else match nonEmpty c.name with
      | some n =>
        if n ∈ names then .error .valueError
        else (number false (n :: names) (i + 1) r).map fun cs => { c with number := i + 1 } :: cs
      | none => (number false names (i + 1) r).map fun cs => { c with number := i + 1 } :: cs

/-- `columndict` (972–974). -/
def columndict (s : Schema) : List (Str × Column) := Dict.ofPairs (s.columns.map fun c => (c.header, c))

/-- A primary key which refers to a column without name is dropped (952–956). -/
def checkKey (s : Schema) : Schema :=
  if (s.primaryKey.getD []).any fun r => match Dict.get r s.columndict with
      | some c => decide (nonEmpty c.name = none)
      | none => false
  then { s with primaryKey := none } else s

/-- `Schema(...)` with `__attrs_post_init__` (933–956), given the converted arguments. -/
def construct (props : Descr) (columns : List Column) (foreignKeys : List ForeignKey) (primaryKey : Option (List Str)) :
    Res Schema :=
  match number false [] 0 columns with
  | .error e => .error e
  | .ok cs => .ok (checkKey { props, columns := cs, foreignKeys, primaryKey })

/-- The search by title or property URL in `get_column` (979–985). `INVALID` has no attribute `uri`. -/
def search (name : Str) : List Column → Res (Option Column)
  | [] => .ok none
  | c :: r =>
    if NatLang.first c.titles = some name then .ok (some c)
    else match c.props.propertyUrl with
      | .tmpl u => if u = name then .ok (some c) else search name r
      | .invalid => .error .attributeError
      | _ => search name r

/-- `get_column(name)` (976–986) with `strict=False`. -/
def getColumn (s : Schema) (name : Str) : Res (Option Column) :=
  match Dict.get name s.columndict with
  | some c => .ok (some c)
  | none => search name s.columns

/-- `get_column(name, strict=True)`: the column must be found by its header and have a name (977). -/
def getColumnStrict (s : Schema) (name : Str) : Res (Option Column) :=
  match Dict.get name s.columndict with
  | some c => if nonEmpty c.name = none then .error .assertionError else .ok (some c)
  | none => .error .assertionError

end Schema

/-- A `Table` (1180–1195) with the attributes of the containing table group which matter: inherited properties and dialect
(`none`: no group). -/
structure Table where
  props : Descr := {}
  schema : Schema := {}
  dialect : Option Dialect := none
  url : Str
  group : Option (Descr × Option Dialect) := none
  deriving DecidableEq, Repr

/-- A row as read: an `OrderedDict` from headers to values. -/
abbrev RowDict := List (Str × CVal)

namespace Table

/-- `_get_dialect` (1223–1224). The default dialect of `metadata.py` (187–208) has no comment prefix. -/
def getDialect (t : Table) : Dialect :=
  (t.dialect.or (t.group.bind Prod.snd)).getD { commentPrefix := none }

/-- The ancestors of the columns. -/
def parents (t : Table) : List Descr := t.schema.props :: t.props :: (t.group.map Prod.fst).toList

/-- The columns with their ancestors. -/
def ccols (t : Table) : List CCol := t.schema.columns.map fun c => ⟨c, t.parents⟩

/-- `non_virtual_cols` (1244). -/
def dataCols (t : Table) : List CCol := t.ccols.filter fun c => !c.col.virtual

/-- `colnames` (1333–1341). -/
def colnames (t : Table) : List Str := t.dataCols.map fun c => c.col.header

/-! ## Writing -/

/-- An item of the argument of `write`: a dict or a sequence. -/
inductive Item where
  | dict (d : RowDict)
  | seq (l : List CVal)
  deriving DecidableEq, Repr

/-- `[col.write(f col) for col in …]`. -/
def writeCells (ext : Ext) : List (CCol × CVal) → Res (List Val)
  | [] => .ok []
  | (c, v) :: r => match c.write ext v with
    | .error e => .error e
    | .ok w => match writeCells ext r with
      | .error e => .error e
      | .ok ws => .ok (w :: ws)

/-- The row for an item (1253–1264): a sequence which is too short raises `IndexError` (when the missing item is accessed,
after the columns before were written); in strict mode unknown keys raise `ValueError`. -/
def rowOf (ext : Ext) (t : Table) (strict : Bool) : Item → Res (List Val)
  | .seq l => match writeCells ext (t.dataCols.zip l) with
    | .error e => .error e
    | .ok ws => if l.length < t.dataCols.length then .error .indexError else .ok ws
  | .dict d =>
    if strict && (Dict.keys d).any fun k => !t.colnames.contains k then .error .valueError
    else writeCells ext (t.dataCols.map fun c => (c, (Dict.get c.col.header d).getD (.one .none)))

/-- A cell for `csv.writer`. -/
def cellOf (x : MExt) : Val → Dsv.Cell
  | .none => none
  | .str s => some s
  | v => some (x.strOf v)

/-- The loop over the items (1252–1266). -/
def writeItems (ext : Ext) (x : MExt) (ver : CsvLib.CsvVer) (cfg : Dsv.Cfg) (t : Table) (strict : Bool) :
    Dsv.WState → List Item → Res Dsv.WState
  | s, [] => .ok s
  | s, i :: r => match rowOf ext t strict i with
    | .error e => .error e
    | .ok ws => match Dsv.writerow ver cfg s (ws.map (cellOf x)) with
      | .error e => .error e
      | .ok s' => writeItems ext x ver cfg t strict s' r

/-- `write(items, fname=None, strict=strict)` (1226–1270): the text written. (With a file name, the text is the content of the
file and the number of items is returned; what is in the file after an exception, and zipping, are not modelled.) -/
def write (ext : Ext) (x : MExt) (ver : CsvLib.CsvVer) (t : Table) (strict : Bool) (items : List Item) : Res Str :=
  match Dsv.Cfg.ofDialect t.getDialect with
  | .error e => .error e
  | .ok cfg =>
    match (if t.getDialect.header then Dsv.writerow ver cfg {} (t.colnames.map some) else .ok {}) with
    | .error e => .error e
    | .ok s => (writeItems ext x ver cfg t strict s items).map Dsv.WState.out

/-! ## Reading -/

/-- An entry of `header_cols` (1401): the column's index, the name in the data file, and the column description. -/
structure HCol where
  j : Nat
  key : Str
  col : Option CCol
  deriving DecidableEq, Repr

/-- `virtualcols` (1334–1337). -/
def virtualCols (t : Table) : List (Str × PVal) :=
  t.schema.columns.filterMap fun c =>
    if c.virtual && decide (c.props.valueUrl ≠ .json .null) then some (c.header, c.props.valueUrl) else none

/-- `requiredcols` (1340–1341): the columns which are themselves marked as required. -/
def requiredCols (t : Table) : List Str :=
  (t.schema.columns.filter fun c => c.props.required.truthy).map Column.header

/-- `Column.fromvalue({'name': '_col.…'})` for the column with index `i`. -/
def freshCol (i : Nat) : CCol := ⟨{ name := some (colNumber (i + 1)) }, []⟩

/-- `[(h, self.tableSchema.get_column(h)) for h in header]` (1400). -/
def lookupCols (t : Table) : List Str → Res (List (Str × Option CCol))
  | [] => .ok []
  | h :: r => match t.schema.getColumn h with
    | .error e => .error e
    | .ok c => match lookupCols t r with
      | .error e => .error e
      | .ok cs => .ok ((h, c.map fun c => ⟨c, t.parents⟩) :: cs)

/-- `header_cols` (1381–1400) without the indices. -/
def matchCols (t : Table) (strict : Bool) (header : List Str) : Res (List (Str × Option CCol)) :=
  if header = t.colnames ∨ (header.length ≤ t.ccols.length ∧ strict = false) then
    .ok (header.zip (t.ccols.map some))
  else if strict = false ∧ t.ccols ≠ [] then
    .ok (header.mapIdx fun i h => match t.ccols[i]? with
      | some c => (h, some c)
      | none => (colNumber (i + 1), some (freshCol i)))
  else lookupCols t header

/-- Adding the indices (1401). -/
def indexed (l : List (Str × Option CCol)) : List HCol := l.mapIdx fun j p => ⟨j, p.1, p.2⟩

/-- `c and c.header == h` (1402). -/
def hasHeader (c : Option CCol) (h : Str) : Bool :=
  match c with
  | some c => decide (c.col.header = h)
  | none => false

/-- Are required columns missing (1402–1404)? -/
def missingCols (t : Table) (hs : List HCol) : Bool :=
  t.requiredCols.any fun h => !hs.any fun e => hasHeader e.col h

/-- The variables of the loop over the cells of a row: `res`, the keys of `required`, `error`, and whether a warning was
issued. -/
structure RowSt where
  res : RowDict := []
  required : List Str := []
  error : Bool := false
  warned : Bool := false
  deriving DecidableEq, Repr

/-- `required` (1407). -/
def requiredKeys (hs : List HCol) : List Str :=
  (hs.filter fun h => match h.col with
    | some c => c.col.props.required.truthy
    | none => false).map HCol.key

/-- `log_or_raise` (226–230): with a log, an error is noted, otherwise `ValueError` is raised. -/
def logOrRaise (log : Bool) (st : RowSt) : Res RowSt :=
  if log then .ok { st with error := true } else .error .valueError

/-- Storing the value of a column, or handling the `ValueError` (1419–1430). Other exceptions are not caught. -/
def storeCell (strict log : Bool) (st : RowSt) (c : CCol) (v : Str) (r : Res CVal × Bool) : Res RowSt :=
  match r with
  | (.ok w, b) => .ok { st with res := Dict.set c.col.header w st.res, warned := st.warned || b }
  | (.error .valueError, _) =>
    if strict then logOrRaise log st
    else .ok { st with res := Dict.set c.col.header (.one (.str v)) st.res, warned := true }
  | (.error e, _) => .error e

/-- One cell (1416–1438). -/
def cellStep (ext : Ext) (strict log : Bool) (st : RowSt) (h : HCol) (v : Str) : Res RowSt :=
  match h.col with
  | some c =>
    match storeCell strict log st c v (if strict then (c.read ext v, false) else c.readLax ext v) with
    | .error e => .error e
    | .ok st' => .ok { st' with required := st'.required.filter (· ≠ h.key), warned := st'.warned || c.readWarns ext v }
  | none => .ok { st with res := Dict.set h.key (.one (.str v)) st.res, warned := st.warned || strict }

/-- The loop over the cells (1416–1438): `zip(header_cols, row)`. -/
def cellLoop (ext : Ext) (strict log : Bool) : RowSt → List HCol → List Str → Res RowSt
  | st, h :: hs, v :: vs => match cellStep ext strict log st h v with
    | .error e => .error e
    | .ok st' => cellLoop ext strict log st' hs vs
  | st, _, _ => .ok st

/-- Required columns without cell (1440–1446). -/
def checkRequired (log : Bool) (st : RowSt) : Res RowSt :=
  if st.required.any fun k => !Dict.has k st.res then logOrRaise log st else .ok st

/-- Virtual columns (1452–1454). -/
def addVirtual (x : MExt) : RowDict → List (Str × PVal) → Res RowDict
  | res, [] => .ok res
  | res, (k, .tmpl t) :: r => match x.expand t (fun n => Dict.get n res) with
    | .error e => .error e
    | .ok s => addVirtual x (Dict.set k (.one (.str s)) res) r
  | _, (_, _) :: _ => .error .attributeError

/-- Columns not in the data (1448–1450). -/
def addMissing (res : RowDict) (names : List Str) : RowDict :=
  names.foldl (fun d k => Dict.setdefault k (.one .none) d) res

/-- One row (1406–1460): the dict, whether there was an error, and whether there was a warning. -/
def rowStep (ext : Ext) (x : MExt) (t : Table) (strict log : Bool) (hs : List HCol) (row : List Str) :
    Res (RowDict × Bool × Bool) :=
  match cellLoop ext strict log { required := requiredKeys hs } hs row with
  | .error e => .error e
  | .ok st => match checkRequired log st with
    | .error e => .error e
    | .ok st => match addVirtual x (addMissing st.res t.colnames) t.virtualCols with
      | .error e => .error e
      | .ok res => .ok (res, st.error, st.warned)

/-- What `iterdicts` does: the rows it yields, with line numbers, the exception it ends with, and whether it issued
warnings (`Invalid column value`, `Unspecified column`, …). -/
structure IterOut where
  rows : List (Int × RowDict) := []
  err : Option PyErr := none
  warned : Bool := false
  deriving DecidableEq, Repr

/-- If there are no header columns, they are made up for the first row with cells (1410–1415). -/
def rowCols (hs : List HCol) (row : List Str) : List HCol :=
  if hs = [] then row.mapIdx fun i _ => ⟨i, colNumber (i + 1), some (freshCol i)⟩ else hs

/-- The loop over the rows (1406–1460). `err`: the exception with which the reader ends. -/
def iterRows (ext : Ext) (x : MExt) (t : Table) (strict log : Bool) (err : Option PyErr) :
    List HCol → List (Int × List Str) → IterOut
  | _, [] => { err := err }
  | hs, (n, row) :: r =>
    match rowStep ext x t strict log (rowCols hs row) row with
    | .error e => { err := some e }
    | .ok (res, bad, w) =>
      let out := iterRows ext x t strict log err (rowCols hs row) r
      { rows := if bad then out.rows else (n, res) :: out.rows, err := out.err, warned := w || out.warned }

/-- `has_title(v)` (788–794): `none`: `False`, `some none`: `True`, `some (some tag)`: the language. -/
def hasTitle (c : Column) (v : Str) : Option (Option Str) :=
  if nonEmpty c.name = some v then some none
  else ((c.titles.getD []).find? fun p => p.2.contains v).map fun p => some ((nonEmpty p.1).getD "und".toList)

/-- `s.split('-')[0]`. -/
def primaryTag (s : Str) : Str := s.takeWhile (· ≠ '-')

/-- Warnings about the header in non-strict mode (1366–1375). -/
def headerWarns (t : Table) (header : List Str) : Bool :=
  (decide (t.schema.columns ≠ []) && decide (t.schema.columns.length < header.length)) ||
  (header.zip t.schema.columns).any fun (h, c) =>
    (decide (nonEmpty c.name = none) && decide (hasTitle c h = none)) ||
    match hasTitle c h with
    | some (some tag) => primaryTag tag ≠ "und".toList &&
        primaryTag tag ≠ (match t.props.lang with | .str s => primaryTag ((nonEmpty (some s)).getD "und".toList) | _ => "und".toList)
    | _ => false

/-- Reading after the header is known (1379–1460). -/
def iterBody (ext : Ext) (x : MExt) (t : Table) (strict log : Bool) (header : List Str)
    (rows : List (Int × List Str)) (err : Option PyErr) : IterOut :=
  match matchCols t strict header with
  | .error e => { err := some e }
  | .ok l =>
    if missingCols t (indexed l) then { err := some .valueError }
    else iterRows ext x t strict log err (indexed l) rows

/-- `iterdicts` given the rows of the data file (1360–1460). -/
def iterEvents (ext : Ext) (x : MExt) (t : Table) (strict log : Bool) (rows : List (Int × List Str))
    (err : Option PyErr) : IterOut :=
  if t.getDialect.header then
    match rows with
    | [] => { err := err }
    | (_, header) :: r =>
      let out := iterBody ext x t strict log header r err
      { out with warned := (!strict && headerWarns t header) || out.warned }
  else iterBody ext x t strict log t.colnames rows err

/-- `iterdicts(log=…, strict=…, with_metadata=True)` (1303–1460) for a data file with the given content. `log`: a log is
given. (How the file is found, fetched or unzipped is not modelled.) -/
def iterdicts (ext : Ext) (x : MExt) (t : Table) (strict log : Bool) (text : Str) : IterOut :=
  match Dsv.Cfg.ofDialect t.getDialect with
  | .error e => { err := some e }
  | .ok cfg =>
    let r := Dsv.collect cfg.dialect (Dsv.openText cfg text)
    iterEvents ext x t strict log r.1 r.2.1

/-! ## Primary keys -/

/-- Python's `==`, an external function on values (numbers, dates and URIs are equal by value, not by representation). -/
abbrev PyEq := CVal → CVal → Bool

/-- Can the value be an element of a set? -/
def hashable : CVal → Bool
  | .many _ => false
  | .one (.json (.arr _)) | .one (.json (.obj _)) => false
  | _ => true

/-- `operator.itemgetter(*key)(row)` (1286, 1290): a missing key raises `KeyError`. -/
def getKey (row : RowDict) : List Str → Res (List CVal)
  | [] => .ok []
  | k :: r => match Dict.get k row with
    | none => .error .keyError
    | some v => match getKey row r with
      | .error e => .error e
      | .ok vs => .ok (v :: vs)

/-- Equality of keys. -/
def keyEq (eq : PyEq) : List CVal → List CVal → Bool
  | [], [] => true
  | a :: as, b :: bs => eq a b && keyEq eq as bs
  | _, _ => false

/-- The loop of `check_primary_key` (1289–1298): `success`, or the exception. -/
def pkLoop (eq : PyEq) (log : Bool) (key : List Str) (err : Option PyErr) :
    List (List CVal) → Bool → List RowDict → Res Bool
  | _, ok, [] => match err with
    | none => .ok ok
    | some e => .error e
  | seen, ok, row :: r => match getKey row key with
    | .error e => .error e
    | .ok pk =>
      if !pk.all hashable then .error .typeError
      else if seen.any fun s => keyEq eq s pk then
        if log then pkLoop eq log key err seen false r else .error .valueError
      else pkLoop eq log key err (pk :: seen) ok r

/-- `check_primary_key(log)` (1280–1298) for a data file with the given content. -/
def checkPrimaryKey (ext : Ext) (x : MExt) (eq : PyEq) (t : Table) (log : Bool) (text : Str) : Res Bool :=
  match t.schema.primaryKey with
  | none | some [] => .ok true
  | some key =>
    let out := iterdicts ext x t true true text
    pkLoop eq log key out.err [] true (out.rows.map Prod.snd)

end Table
end Csvw
