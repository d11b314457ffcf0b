import Verif.Model.TableGroup
/-!
# SQLite databases

Model of `/repo/src/csvw/db.py`. The SQL engine is not part of the code: a database is modelled as the list of its tables, which
are lists of rows; statements are modelled by what they do with these, and engine features which matter (constraints, the order of
rows in a result, conversions by column affinity) by external functions (`SqlExt`). Simplifications: names are compared exactly (SQLite
ignores case), and quoting of names is not modelled (names do not contain backquotes).
-/

namespace Csvw.Db
open Csvw.Datatypes Csvw.Py

/-- SQL values; floating point numbers are opaque tokens. -/
inductive Sql where
  | null
  | int (i : Int)
  | real (token : Str)
  | text (s : Str)
  | blob (b : List UInt8)
  deriving DecidableEq, Repr

/-- Column types (`TYPE_MAP` 48–70). -/
inductive DbType where
  | text | integer | real | blob
  deriving DecidableEq, Repr

/-- A row of a table of the database: values by column. -/
abbrev Row := List (Str × Sql)

/-- A database table. -/
structure DbTable where
  name : Str
  columns : List (Str × DbType)
  rows : List Row := []
  deriving DecidableEq, Repr

/-- A database. -/
abbrev Database := List DbTable

/-- External functions of the SQL engine and of number conversion. -/
structure SqlExt where
  /-- `float(d)` and `decimal.Decimal(f)`. -/
  floatOfDec : Dec → Str
  decOfFloat : Str → Dec
  /-- The text of a floating point number in a column of type `TEXT`. -/
  realText : Str → Str
  /-- Values in columns of type `INTEGER` or `REAL`, if they are of another type. -/
  affinity : DbType → Sql → Sql
  /-- The order of the rows in the result of `SELECT * FROM table`. -/
  order : Str → List Row → List Row
  /-- Rows which the engine refuses (constraints), given the database before the statement, the table, its rows and the new row. -/
  refuse : Database → Str → List Row → Row → Bool

/-- `ColSpec` (127–149). `separator`: `none` if falsy. -/
structure ColSpec where
  name : Str
  base : Base := .string
  separator : Option Str := none
  required : Bool := false
  csvw : Option Datatype := none
  deriving DecidableEq, Repr

namespace ColSpec

/-- `db_type` (141–148). -/
def dbType (c : ColSpec) : DbType :=
  if c.separator ≠ none then .text
  else match c.base with
    | .string => .text
    | .integer => .integer
    | .boolean => .integer
    | .decimal => .real
    | .hexBinary => .blob
    | _ => .text

/-- A condition of a `CHECK` constraint (158–184): comparison of the column (or of a function of it) with a bound, and of its length. -/
inductive Cond where
  | ge (func : Option Str) (bound : Val)
  | le (func : Option Str) (bound : Val)
  | lenEq (n : Int)
  | lenGe (n : Int)
  | lenLe (n : Int)
  deriving DecidableEq, Repr

/-- The function which is applied to both sides of a comparison (163–166). -/
def func (c : ColSpec) : Option Str :=
  match c.base with
  | .date => some "date".toList
  | .datetime => some "datetime".toList
  | _ => none

/-- The condition for a length, unless it is 0 (177–182). -/
def lenCond (mk : Int → Cond) (n : Option Int) : List Cond :=
  match n with
  | some n => if n = 0 then [] else [mk n]
  | none => []

/-- `check` (150–183): the conditions joined by `AND`; lengths are only checked if there is neither minimum nor maximum. -/
def check (c : ColSpec) : List Cond :=
  match c.csvw with
  | none => []
  | some d =>
    if d.minimum ≠ none ∨ d.maximum ≠ none then
      (d.minimum.toList.map fun b => Cond.ge c.func b) ++ (d.maximum.toList.map fun b => Cond.le c.func b)
    else lenCond .lenEq d.length ++ lenCond .lenGe d.minLength ++ lenCond .lenLe d.maxLength

/-- The conditions which are no SQL expressions: the text of a bound which is no number is not quoted (171–176), unless there is a function.
Simplification: infinite floating point numbers (which would be taken for column names) are not considered. -/
def Cond.malformed : Cond → Bool
  | .ge none b | .le none b => match b with
    | .int _ | .flt _ | .dec (.fin ..) => false
    | _ => true
  | _ => false

end ColSpec

/-- `TableSpec` (195–213). Foreign keys: columns, referenced table, referenced columns. `manyToMany`: the association tables, by
column (these have no foreign key column of their own): name, names of the two columns, and the foreign keys. -/
structure AssocSpec where
  name : Str
  acol : Str
  bcol : Str
  atable : Str
  apk : Str
  btable : Str
  bpk : Str
  deriving DecidableEq, Repr

/-- See `AssocSpec`. -/
structure TableSpec where
  name : Str
  columns : List ColSpec := []
  foreignKeys : List (List Str × Str × List Str) := []
  manyToMany : List (Str × AssocSpec) := []
  primaryKey : Option (List Str) := none
  deriving DecidableEq, Repr

/-- `association_table` (266–286). -/
def associationTable (atable apk btable bpk : Str) : AssocSpec :=
  let a := atable ++ '_' :: apk
  let b := btable ++ '_' :: bpk
  { name := atable ++ '_' :: btable
    acol := if a = b then a ++ "_1".toList else a
    bcol := if a = b then b ++ "_2".toList else b
    atable, apk, btable, bpk }

/-- The association table as `TableSpec` (277–286). -/
def AssocSpec.toSpec (a : AssocSpec) : TableSpec :=
  { name := a.name
    columns := [{ name := a.acol }, { name := a.bcol }, { name := "context".toList }]
    foreignKeys := [([a.acol], a.atable, [a.apk]), ([a.bcol], a.btable, [a.bpk])] }

/-- `sorted(l)` of a list of strings. -/
def sorted (l : List Str) : List Str := l.mergeSort TableGroup.strLe

/-- The headers of columns with a separator of their own (230). -/
def listValued (t : Table) : List Str :=
  (t.schema.columns.filter fun c => c.props.separator.truthy).map Column.header

/-- One foreign key (231–256). -/
def addForeignKey (t : Table) (drop : Bool) (spec : TableSpec) (fk : ForeignKey) : Res TableSpec :=
  if fk.schemaReference ≠ none then .ok spec
  else
    let byList := match fk.columnReference with
      | [c] => if c ∈ listValued t then some c else none
      | _ => none
    match byList with
    | some c => match fk.refColumns, spec.primaryKey with
      | [rc], some [pk] => match fk.resource with
        | none => .error .attributeError
        | some r => .ok { spec with manyToMany := Dict.set c (associationTable spec.name pk r rc) spec.manyToMany }
      | _, _ => .error .assertionError
    | none => match fk.resource with
      | none => .error .attributeError
      | some r =>
        if drop && decide (r = spec.name) then .ok spec
        else .ok { spec with foreignKeys := spec.foreignKeys ++ [(sorted fk.columnReference, r, sorted fk.refColumns)] }

/-- The loop over the foreign keys (231–256). -/
def addForeignKeys (t : Table) (drop : Bool) : TableSpec → List ForeignKey → Res TableSpec
  | spec, [] => .ok spec
  | spec, fk :: r => match addForeignKey t drop spec fk with
    | .error e => .error e
    | .ok spec' => addForeignKeys t drop spec' r

/-- `ColSpec(…)` for a column (257–265). -/
def colSpec (c : CCol) : Res ColSpec :=
  match c.separator with
  | .error e => .error e
  | .ok sep => .ok
    { name := c.col.header
      base := match c.datatype with | some d => d.base | none => .string
      separator := sep
      required := c.required
      csvw := c.datatype }

/-- The loop over the columns (257–265). -/
def addColumns (spec : TableSpec) : List CCol → Res TableSpec
  | [] => .ok spec
  | c :: r =>
    if Dict.has c.col.header spec.manyToMany then addColumns spec r
    else match colSpec c with
      | .error e => .error e
      | .ok cs => addColumns { spec with columns := spec.columns ++ [cs] } r

/-- `TableSpec.from_table_metadata` (215–264). -/
def fromTable (t : Table) (drop : Bool) : Res TableSpec :=
  match addForeignKeys t drop { name := t.url, primaryKey := t.schema.primaryKey } t.schema.foreignKeys with
  | .error e => .error e
  | .ok spec => addColumns spec t.ccols

/-- The dict `tables` in `schema` (319–325). -/
def collectTables (drop : Bool) : List (Str × TableSpec) → List Table → Res (List (Str × TableSpec))
  | d, [] => .ok d
  | d, t :: r => match fromTable t drop with
    | .error e => .error e
    | .ok spec =>
      collectTables drop (Dict.update (Dict.set spec.name spec d) (spec.manyToMany.map fun p => (p.2.name, p.2.toSpec))) r

/-- Are all tables which the table references in `ordered`, except for itself (335)? -/
def ready (ordered : List (Str × TableSpec)) (p : Str × TableSpec) : Bool :=
  p.2.foreignKeys.all fun fk => Dict.has fk.2.1 ordered || decide (fk.2.1 = p.1)

/-- The loop which determines the order of the tables (327–338): one table is moved in each pass. -/
def orderLoop : Nat → List (Str × TableSpec) → List (Str × TableSpec) → Res (List (Str × TableSpec))
  | _, [], ordered => .ok ordered
  | 0, _ :: _, _ => .error .valueError
  | n + 1, p :: r, ordered => match (p :: r).find? (ready ordered) with
    | none => orderLoop n (p :: r) ordered
    | some q => orderLoop n (Dict.erase q.1 (p :: r)) (Dict.set q.1 q.2 ordered)

/-- `schema(tg, drop_self_referential_fks)` (307–343). -/
def schema (g : TableGroup) (drop : Bool) : Res (List TableSpec) :=
  match collectTables drop [] (Dict.values g.tabledict) with
  | .error e => .error e
  | .ok tables => (orderLoop 100 tables []).map Dict.values

/-! ## Writing -/

/-- Names of schema objects: `translate(table)`, `translate(table, column)`. -/
abbrev Translator := Str → Option Str → Str

/-- `name_translator` (391–404). -/
def nameTranslator : Translator := fun t c => match c with
  | some c => if c = [] then t else c
  | none => t

/-- The keyword arguments which `to_string` and `to_python` have by default, when called without any. -/
def noArgs (b : Base) : Derived :=
  match b.kind with
  | .boolean => .bool ["true".toList, "1".toList] ["false".toList, "0".toList]
  | .dateTime | .date | .time => .dt {}
  | .duration => .dur .null
  | .decimal | .integer | .float => .num {}
  | _ => .empty

/-- `DATATYPES[…].to_string(v)`; `babel` fails for `time` without a pattern. -/
def plainText (ext : Ext) (b : Base) (v : Val) : Res Str :=
  match b.kind with
  | .time => .error .attributeError
  | _ => toText ext b (noArgs b) v

/-- `col.convert(v)` (`TYPE_MAP` 48–70, 141–146) for a value which is not `None`. Simplification: `int` and `float` of other values than
Booleans and numbers are `TypeError`. `float(d)` of a signaling NaN is a `ValueError`; `nan` is stored as `NULL` by SQLite, and so is `None`
here. -/
def convert (ext : Ext) (sx : SqlExt) (b : Base) (v : Val) : Res Val :=
  match b with
  | .string | .integer | .hexBinary => .ok v
  | .boolean => match v with
    | .bool x => .ok (.int (if x then 1 else 0))
    | .int i => .ok (.int i)
    | _ => .error .typeError
  | .decimal => match v with
    | .dec (.nan _ signal _) => if signal then .error .valueError else .ok .none
    | .dec d => .ok (.flt (sx.floatOfDec d))
    | .flt f => .ok (if f = "nan".toList then .none else .flt f)
    | _ => .error .typeError
  | b => (plainText ext b v).map .str

/-- Binding a Python value to a parameter of a statement. (Simplification: the default adapters for `datetime` objects are
ignored.) -/
def bind : Val → Res Sql
  | .none => .ok .null
  | .str s => .ok (.text s)
  | .bool b => .ok (.int (if b then 1 else 0))
  | .int i => if -(2 ^ 63) ≤ i ∧ i < 2 ^ 63 then .ok (.int i) else .error .overflowError
  | .flt t => .ok (.real t)
  | .bytes b => .ok (.blob b)
  | .json (.str s) => .ok (.text s)
  | .json .null => .ok .null
  | _ => .error .dbError

/-- The JSON value of a Python value, for `json.dumps`. -/
def toJson : Val → Option J
  | .none => some .null
  | .str s => some (.str s)
  | .bool b => some (.bool b)
  | .int i => some (.int i)
  | .flt t => some (.flt t)
  | .json j => some j
  | _ => none

/-- The Python value of a JSON value, as given by `json.loads`. -/
def ofJson : J → Val
  | .null => .none
  | .str s => .str s
  | .bool b => .bool b
  | .int i => .int i
  | .flt t => .flt t
  | j => .json j

/-- `json.dumps` of a list. -/
def dumps (ext : Ext) (l : List Val) : Res Str :=
  match l.mapM toJson with
  | some js => .ok (ext.jsonDumps (.arr js))
  | none => .error .typeError

/-- The items of a list of strings as joined (557–558): `col.convert(vv) or ''`. Other items make `join` raise `TypeError`, if they
are not falsy. -/
def joinItem (ext : Ext) : Val → Res Str
  | .str s => .ok s
  | .json (.str s) => .ok s
  | v => if v.truthy ext then .error .typeError else .ok []

/-- All items. -/
def joinItems (ext : Ext) : List Val → Res (List Str)
  | [] => .ok []
  | v :: r => match joinItem ext v with
    | .error e => .error e
    | .ok s => match joinItems ext r with
      | .error e => .error e
      | .ok ss => .ok (s :: ss)

/-- The items of a Python list. -/
def asList : CVal → Option (List Val)
  | .many l => some l
  | .one (.json (.arr l)) => some (l.map ofJson)
  | .one _ => none

/-- The value stored for a value of a column (553–562). -/
def stored (ext : Ext) (sx : SqlExt) (c : ColSpec) (v : CVal) : Res Sql :=
  match asList v with
  | some l =>
    if c.base = .string then (joinItems ext l).map fun ss => .text (join (c.separator.getD [';']) ss)
    else (dumps ext l).map .text
  | none => match v with
    | .one .none | .one (.json .null) => .ok .null
    | .one v => match convert ext sx c.base v with
      | .error e => .error e
      | .ok w => bind w
    | .many _ => .error .typeError

/-- Binding a value of a row as is (547). -/
def bindCell : CVal → Res Sql
  | .one v => bind v
  | .many _ => .error .dbError

/-- Rows for association tables, in order: table, keys, row. -/
abbrev Refs := List (AssocSpec × List CVal)

/-- The state of the loop over the items of a row: `keys` (of the first row), `values`, `refs`. -/
structure RowState where
  keys : List Str := []
  values : List Sql := []
  refs : Refs := []
  deriving DecidableEq, Repr

/-- The items of a list-valued foreign key (547): `v or []`. -/
def refItems (ext : Ext) : CVal → Res (List CVal)
  | .many l => .ok (l.map .one)
  | .one (.json (.arr l)) => .ok (l.map fun j => .one (ofJson j))
  | .one (.str s) => .ok (s.map fun c => .one (.str [c]))
  | .one v => if v.truthy ext then .error .typeError else .ok []

/-- Is the value true in Python (`assert pk`)? -/
def cellTruthy (ext : Ext) : CVal → Bool
  | .one v => v.truthy ext
  | .many l => l ≠ []

/-- An item of a row (538–565). The context of a reference is the column name (491–504). -/
def itemStep (ext : Ext) (sx : SqlExt) (t : TableSpec) (skip : Bool) (pk : CVal) (st : RowState) (k : Str) (v : CVal) : Res RowState :=
  match Dict.get k t.manyToMany with
  | some at_ =>
    if !cellTruthy ext pk then .error .assertionError
    else match refItems ext v with
      | .error e => .error e
      | .ok l => .ok { st with refs := st.refs ++ l.map fun i => (at_, [pk, i, .one (.str k)]) }
  | none => match t.columns.reverse.find? (fun c => c.name = k) with
    | none => if skip then .ok st else .error .valueError
    | some c => match stored ext sx c v with
      | .error e => .error e
      | .ok w => .ok { st with keys := st.keys ++ [c.name], values := st.values ++ [w] }

/-- All items of a row. -/
def itemLoop (ext : Ext) (sx : SqlExt) (t : TableSpec) (skip : Bool) (pk : CVal) : RowState → RowDict → Res RowState
  | st, [] => .ok st
  | st, (k, v) :: r => match itemStep ext sx t skip pk st k v with
    | .error e => .error e
    | .ok st' => itemLoop ext sx t skip pk st' r

/-- `pk` (536–537). -/
def pkOf (t : TableSpec) (row : RowDict) : Res CVal :=
  match t.primaryKey with
  | some [k] => match Dict.get k row with
    | some v => .ok v
    | none => .error .keyError
  | _ => .ok (.one .none)

/-- One row (535–566). -/
def rowStep (ext : Ext) (sx : SqlExt) (t : TableSpec) (skip : Bool) (row : RowDict) : Res RowState :=
  match pkOf t row with
  | .error e => .error e
  | .ok pk => itemLoop ext sx t skip pk {} row

/-- All rows (535–566). -/
def rowLoop (ext : Ext) (sx : SqlExt) (t : TableSpec) (skip : Bool) : List RowDict → Res (List RowState)
  | [] => .ok []
  | row :: r => match rowStep ext sx t skip row with
    | .error e => .error e
    | .ok st => match rowLoop ext sx t skip r with
      | .error e => .error e
      | .ok sts => .ok (st :: sts)

/-- A value as stored in a column of the given type. -/
def affinity (sx : SqlExt) (ty : DbType) (v : Sql) : Sql :=
  match ty, v with
  | _, .null => .null
  | .text, .int i => .text (toString i).toList
  | .text, .real t => .text (sx.realText t)
  | .text, v => v
  | .integer, .int i => .int i
  | .real, .real t => .real t
  | .blob, v => v
  | ty, v => sx.affinity ty v

/-- The row inserted: columns which are not given are `NULL`. -/
def newRow (sx : SqlExt) (columns : List (Str × DbType)) (keys : List Str) (values : List Sql) : Row :=
  columns.map fun c => (c.1, affinity sx c.2 ((Dict.get c.1 (keys.zip values)).getD .null))

/-- `INSERT` of one row into a table; `all` is the database. -/
def insertRow (sx : SqlExt) (all : Database) (keys : List Str) (values : List Sql) (t : DbTable) : Res DbTable :=
  if values.length ≠ keys.length ∨ keys = [] ∨ ¬ keys.Nodup ∨ (keys.any fun k => !Dict.has k t.columns) then .error .dbError
  else
    let row := newRow sx t.columns keys values
    if sx.refuse all t.name t.rows row then .error .dbError else .ok { t with rows := t.rows ++ [row] }

/-- `executemany` for a table. -/
def insertRows (sx : SqlExt) (all : Database) (keys : List Str) : List (List Sql) → DbTable → Res DbTable
  | [], t => .ok t
  | v :: r, t => match insertRow sx all keys v t with
    | .error e => .error e
    | .ok t' => insertRows sx all keys r t'

/-- How SQLite compares names of tables and columns: upper and lower case ASCII letters are the same. -/
def foldName (s : Str) : Str := s.map Char.toLower

/-- Inserting rows into the table with the given name. -/
def insertIn (sx : SqlExt) (all : Database) (name : Str) (keys : List Str) (rows : List (List Sql)) : Database → Res Database
  | [] => if rows = [] then .ok [] else .error .dbError
  | t :: db =>
    if foldName t.name = foldName name then (insertRows sx all keys rows t).map (· :: db) else (insertIn sx all name keys rows db).map (t :: ·)

/-- `insert(db, translate, table, keys, *rows)` (86–117), with translated names. If rows are refused, they are tried again one by one
for debugging, and the exception is raised. -/
def insert (sx : SqlExt) (name : Str) (keys : List Str) (rows : List (List Sql)) (db : Database) : Res Database :=
  insertIn sx db name keys rows db

/-- Names which `quoted` (82–83) and `ColSpec.sql` (185–191) do not quote as SQLite requires: with a backtick or NUL. -/
def oddName (n : Str) : Bool := n.any fun c => c = '`' || c = '\x00'

/-- The statement for creating the table has a name which is not quoted properly. -/
def oddTable (tr : Translator) (t : TableSpec) : Bool :=
  oddName (tr t.name none) || (t.columns.any fun c => oddName (tr t.name (some c.name))) ||
    ((t.primaryKey.getD []).any fun k => oddName (tr t.name (some k))) ||
    (t.foreignKeys.any fun fk => (fk.1.any fun k => oddName (tr t.name (some k))) || oddName (tr fk.2.1 none) || fk.2.2.any fun k => oddName (tr fk.2.1 (some k)))

/-- `CREATE TABLE` fails (288–304): the name is reserved, there are no columns, two columns with the same name (except for case), a condition which is no SQL
expression, a primary or foreign key with an unknown column, or a foreign key without columns or with a different number of columns. -/
def badTable (tr : Translator) (t : TableSpec) : Bool :=
  let names := t.columns.map fun c => foldName (tr t.name (some c.name))
  names.isEmpty || !decide names.Nodup || (t.columns.any fun c => c.check.any ColSpec.Cond.malformed) ||
    ((t.primaryKey.getD []).any fun k => !names.contains (foldName (tr t.name (some k)))) ||
    (t.foreignKeys.any fun fk => fk.1.any fun k => !names.contains (foldName (tr t.name (some k)))) ||
    "sqlite_".toList.isPrefixOf (foldName (tr t.name none)) ||
    (t.foreignKeys.any fun fk => fk.1.isEmpty || fk.1.length ≠ fk.2.2.length)

/-- `CREATE TABLE IF NOT EXISTS` (288–304). (What constraints do is part of `SqlExt.refuse`; what the statement means, see `Model/Sql.lean`.) Not modelled: names
with a backtick or NUL, and a table which exists with a statement which is no SQL. -/
def create (tr : Translator) (db : Database) (t : TableSpec) : Res Database :=
  let name := tr t.name none
  let cols := t.columns.map fun c => (tr t.name (some c.name), c.dbType)
  if oddTable tr t then .error .notImplemented
  else if db.any fun u => foldName u.name = foldName name then
    if t.columns.any fun c => c.check.any ColSpec.Cond.malformed then .error .notImplemented else .ok db
  else if badTable tr t then .error .dbError
  else .ok (db ++ [{ name, columns := cols }])

/-- Creating all tables (523–524). -/
def createAll (tr : Translator) : Database → List TableSpec → Res Database
  | db, [] => .ok db
  | db, t :: r => match create tr db t with
    | .error e => .error e
    | .ok db' => createAll tr db' r

/-- Inserting the rows of one table (533–567). -/
def writeTable (ext : Ext) (sx : SqlExt) (tr : Translator) (skip : Bool) (t : TableSpec) (rows : List RowDict) (db : Database) :
    Res (Database × Refs) :=
  match rowLoop ext sx t skip rows with
  | .error e => .error e
  | .ok sts =>
    let keys := (sts.head?.map RowState.keys).getD []
    match insert sx (tr t.name none) (keys.map fun k => tr t.name (some k)) (sts.map RowState.values) db with
    | .error e => .error e
    | .ok db' => .ok (db', sts.flatMap RowState.refs)

/-- The loop over the tables (529–567). -/
def writeTables (ext : Ext) (sx : SqlExt) (tr : Translator) (skip : Bool) (items : List (Str × List RowDict)) :
    Database → Refs → List TableSpec → Res (Database × Refs)
  | db, refs, [] => .ok (db, refs)
  | db, refs, t :: r => match Dict.get t.name items with
    | none => writeTables ext sx tr skip items db refs r
    | some rows => match writeTable ext sx tr skip t rows db with
      | .error e => .error e
      | .ok (db', refs') => writeTables ext sx tr skip items db' (refs ++ refs') r

/-- All cells of the row of an association table. -/
def bindAll : List CVal → Res (List Sql)
  | [] => .ok []
  | v :: r => match bindCell v with
    | .error e => .error e
    | .ok w => match bindAll r with
      | .error e => .error e
      | .ok ws => .ok (w :: ws)

/-- The keys of `refs` (545): name and columns. -/
def atKey (a : AssocSpec) : Str × List Str := (a.name, [a.acol, a.bcol, "context".toList])

/-- Inserting into the association tables (569–570), in the given order: rows of the same table remain in order. (The code groups the
rows by table.) -/
def writeRefs (sx : SqlExt) (tr : Translator) : Refs → Database → Res Database
  | [], db => .ok db
  | (a, row) :: r, db => match bindAll row with
    | .error e => .error e
    | .ok vs => match insert sx (tr a.name none) ((atKey a).2.map fun k => tr a.name (some k)) [vs] db with
      | .error e => .error e
      | .ok db' => writeRefs sx tr r db'

/-- `write(**items)` (516–572) into a new database: the database afterwards. -/
def write (ext : Ext) (sx : SqlExt) (tr : Translator) (skip : Bool) (tables : List TableSpec) (items : List (Str × List RowDict)) :
    Res Database :=
  match createAll tr [] tables with
  | .error e => .error e
  | .ok db => match writeTables ext sx tr skip items db [] tables with
    | .error e => .error e
    | .ok (db', refs) => writeRefs sx tr refs db'

/-- Creating the tables (523–524) with the database after an exception: each table is created by a statement of its own, outside of
any transaction. -/
def createSome (tr : Translator) : Database → List TableSpec → Database × Option PyErr
  | db, [] => (db, none)
  | db, t :: r => match create tr db t with
    | .error e => (db, some e)
    | .ok db' => createSome tr db' r

/-- The statements after the tables were created and committed (527–572): what is in the database after them. If there is an exception,
the rows inserted before are not committed. -/
def insertAll (ext : Ext) (sx : SqlExt) (tr : Translator) (skip : Bool) (tables : List TableSpec) (items : List (Str × List RowDict))
    (db : Database) : Database × Option PyErr :=
  match writeTables ext sx tr skip items db [] tables with
  | .error e => (db, some e)
  | .ok (db', refs) => match writeRefs sx tr refs db' with
    | .error e => (db, some e)
    | .ok db'' => (db'', none)

/-- `write` into an open database with content `old` (522–572): the content afterwards and the exception, if any. -/
def writeDb (ext : Ext) (sx : SqlExt) (tr : Translator) (skip : Bool) (tables : List TableSpec) (items : List (Str × List RowDict))
    (old : Database) : Database × Option PyErr :=
  match createSome tr old tables with
  | (db, some e) => (db, some e)
  | (db, none) => insertAll ext sx tr skip tables items db

/-- `write` with respect to the database file (516–572): `old` is its content, if it exists; an existing file is deleted (520–521). -/
def writeFile (ext : Ext) (sx : SqlExt) (tr : Translator) (skip force : Bool) (tables : List TableSpec)
    (items : List (Str × List RowDict)) (old : Option Database) : Option Database × Option PyErr :=
  if old ≠ none ∧ force = false then (old, some .valueError)
  else match writeDb ext sx tr skip tables items [] with
    | (db, e) => (some db, e)

/-- `write` without file name: the database in memory is kept (399–404), so that rows are added to those of earlier calls. -/
def writeMemory (ext : Ext) (sx : SqlExt) (tr : Translator) (skip : Bool) (tables : List TableSpec) (items : List (Str × List RowDict))
    (old : Option Database) : Database × Option PyErr :=
  writeDb ext sx tr skip tables items (old.getD [])

/-! ## Reading -/

/-- The Python value of an SQL value. -/
def ofSql : Sql → Val
  | .null => .none
  | .int i => .int i
  | .real t => .flt t
  | .text s => .str s
  | .blob b => .bytes b

/-- `col.read(v)`/`convert[k][1](v)` (`TYPE_MAP` 48–70, 451–456) for a value which is not `NULL`. Simplification: other types than those
stored by `write` are `TypeError`. -/
def unconvert (ext : Ext) (sx : SqlExt) (b : Base) (v : Sql) : Res Val :=
  match b with
  | .string | .integer | .hexBinary => .ok (ofSql v)
  | .boolean => match v with
    | .int i => .ok (.bool (i ≠ 0))
    | _ => .error .typeError
  | .decimal => match v with
    | .real t => .ok (.dec (sx.decOfFloat t))
    | .int i => .ok (.dec (.fin (decide (i < 0)) i.natAbs 0))
    | _ => .error .typeError
  | b => match v with
    | .text s => toPython ext b (noArgs b) s
    | _ => .error .typeError

/-- Is the SQL value false in Python (472)? -/
def sqlFalsy : Sql → Bool
  | .null => true
  | .int i => i = 0
  | .real _ => false
  | .text s => s = []
  | .blob b => b = []

/-- A value of a column (469–478). -/
def loaded (ext : Ext) (sx : SqlExt) (c : ColSpec) (v : Sql) : Res CVal :=
  match c.separator with
  | some sep =>
    if v = .null then .ok (.one .none)
    else if sqlFalsy v then .ok (.many [])
    else match v with
      | .text s =>
        if c.base = .string then .ok (.many ((split sep s).map .str))
        else match ext.jsonLoads s with
          | .error e => .error e
          | .ok (.arr l) => .ok (.many (l.map ofJson))
          | .ok j => .ok (.one (ofJson j))
      | _ => .error .attributeError
  | none => if v = .null then .ok (.one .none) else (unconvert ext sx c.base v).map .one

/-- The dict for a row (466–478): the columns are those of the database table; `convert` and `seps` are looked up by name, where of
several columns with this name the last one is found; without any there is a `KeyError`. -/
def loadRow (ext : Ext) (sx : SqlExt) (tr : Translator) (t : TableSpec) : Row → Res RowDict
  | [] => .ok []
  | (k, v) :: r => match t.columns.reverse.find? (fun c => tr t.name (some c.name) = k) with
    | none => .error .keyError
    | some c => match loaded ext sx c v with
      | .error e => .error e
      | .ok w => match loadRow ext sx tr t r with
        | .error e => .error e
        | .ok d => .ok ((k, w) :: d)

/-- The text of an SQL value. (Simplification: other values than text do not occur in columns of type `TEXT`.) -/
def sqlText : Sql → Option Str
  | .text s => some s
  | _ => none

/-- `group_concat(b, ' ')` (413–414): `NULL`s are skipped; `none` if there is nothing else. -/
def groupConcat (l : List Sql) : Option Str :=
  match l.filterMap sqlText with
  | [] => none
  | ss => some (join [' '] ss)

/-- `s.split()`. -/
def splitSpace (s : Str) : List Str :=
  (s.foldr (fun c acc => if isSpace c then [] :: acc else match acc with
    | [] => [[c]]
    | w :: ws => (c :: w) :: ws) [[]]).filter (· ≠ [])

/-- The values of a column of some rows. -/
def column (k : Str) (rows : List Row) : List Sql := rows.map fun r => (Dict.get k r).getD .null

/-- `select_many_to_many(db, table, context)` (406–421): the keys for each key of the first column. In `group_concat`, rows are in the
order of their insertion. A quote in the name of the column makes the statement invalid. -/
def selectManyToMany (tr : Translator) (a : AssocSpec) (context : Str) (db : Database) : Res (List (Sql × List Str)) :=
  if '\'' ∈ context then .error .dbError
  else match db.find? (fun t => foldName t.name = foldName (tr a.name none)) with
    | none => .error .dbError
    | some t =>
      let rows := t.rows.filter fun r => Dict.get "context".toList r = some (.text context)
      let keys := (column (tr a.name (some a.acol)) rows).eraseDups
      keys.mapM fun k =>
        let mine := rows.filter fun r => Dict.get (tr a.name (some a.acol)) r = some k
        match groupConcat (column (tr a.name (some a.bcol)) mine) with
        | none => .error .attributeError
        | some s =>
          let ctx := split ['|', '|'] (join ['|', '|'] (mine.map fun _ => context))
          .ok (k, ((splitSpace s).zip ctx).map Prod.fst)

/-- `refs` (459–461) for the row with primary key `pk`: the lists by column, if there are rows for it. -/
def refsFor (tr : Translator) (t : TableSpec) (db : Database) (pk : CVal) : List (Str × AssocSpec) → Res RowDict
  | [] => .ok []
  | (col, a) :: r => match selectManyToMany tr a col db with
    | .error e => .error e
    | .ok l => match refsFor tr t db pk r with
      | .error e => .error e
      | .ok d => match l.find? (fun p => CVal.one (ofSql p.1) = pk) with
        | none => .ok d
        | some p => .ok ((tr t.name (some col), .many (p.2.map .str)) :: d)

/-- The primary key of a row (479–480). -/
def loadKey (tr : Translator) (t : TableSpec) (d : RowDict) : Res CVal :=
  match t.primaryKey with
  | some [k] => match Dict.get (tr t.name (some k)) d with
    | some v => .ok v
    | none => .error .keyError
  | _ => .ok (.one .none)

/-- One row with the list-valued foreign keys (466–484). Unhashable primary keys are `TypeError`. -/
def loadFull (ext : Ext) (sx : SqlExt) (tr : Translator) (t : TableSpec) (db : Database) (row : Row) : Res RowDict :=
  match loadRow ext sx tr t row with
  | .error e => .error e
  | .ok d =>
    match loadKey tr t d with
    | .error e => .error e
    | .ok pk =>
      if !Table.hashable pk then .error .typeError
      else match refsFor tr t db pk t.manyToMany with
        | .error e => .error e
        | .ok refs => .ok (Dict.update (Dict.update d (t.manyToMany.map fun p => (p.1, .many []))) refs)

/-- All rows. -/
def loadRows (ext : Ext) (sx : SqlExt) (tr : Translator) (t : TableSpec) (db : Database) : List Row → Res (List RowDict)
  | [] => .ok []
  | r :: rs => match loadFull ext sx tr t db r with
    | .error e => .error e
    | .ok d => match loadRows ext sx tr t db rs with
      | .error e => .error e
      | .ok ds => .ok (d :: ds)

/-- Reading one table (440–484). -/
def readTable (ext : Ext) (sx : SqlExt) (tr : Translator) (t : TableSpec) (db : Database) : Res (List RowDict) :=
  match db.find? (fun u => foldName u.name = foldName (tr t.name none)) with
  | none => .error .dbError
  | some u => loadRows ext sx tr t db (sx.order u.name u.rows)

end Csvw.Db
