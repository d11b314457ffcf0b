import Verif.Spec.Database
import Verif.Model.Db
/-!
# Specification of constraints of SQL tables

What the constraints in the `CREATE TABLE` statements of a database schema mean, and which data is valid.
-/

namespace Csvw.Spec
open Csvw Csvw.Db Csvw.Py Csvw.Datatypes

/-! ## Constraints of SQL -/

/-- Comparisons of the engine which are not spelled out here. -/
structure SqlCmp where
  ge : DbType → Option Str → Sql → Val → Prop
  le : DbType → Option Str → Sql → Val → Prop
  /-- The length of the text of a number. -/
  len : Sql → Int

/-- `length(x)`: characters before the first NUL, or bytes. -/
def SqlCmp.length (cmp : SqlCmp) : Sql → Int
  | .text s => ((s.takeWhile (· ≠ '\x00')).length : Int)
  | .blob b => (b.length : Int)
  | v => cmp.len v

/-- Is the value (which is not `NULL`) in a column of the type at least the bound? In a column of type `INTEGER`, integers are compared
as numbers; in a column of type `TEXT`, a number is converted to text, and texts are compared. -/
def SqlCmp.AtLeast (cmp : SqlCmp) (ty : DbType) (f : Option Str) (v : Sql) (b : Val) : Prop :=
  match f, ty, v, b with
  | none, .integer, .int i, .int n => n ≤ i
  | none, .text, .text s, .int n => StrLE (toString n).toList s
  | f, ty, v, b => cmp.ge ty f v b

/-- Is the value at most the bound? -/
def SqlCmp.AtMost (cmp : SqlCmp) (ty : DbType) (f : Option Str) (v : Sql) (b : Val) : Prop :=
  match f, ty, v, b with
  | none, .integer, .int i, .int n => i ≤ n
  | none, .text, .text s, .int n => StrLE s (toString n).toList
  | f, ty, v, b => cmp.le ty f v b

/-- Is the condition true for a value which is not `NULL`? -/
def SqlCmp.Holds (cmp : SqlCmp) (ty : DbType) (v : Sql) : ColSpec.Cond → Prop
  | .ge f b => cmp.AtLeast ty f v b
  | .le f b => cmp.AtMost ty f v b
  | .lenEq n => cmp.length v = n
  | .lenGe n => n ≤ cmp.length v
  | .lenLe n => cmp.length v ≤ n

/-- The value of a row in the column for `k`. -/
def sqlCell (tr : Translator) (t : TableSpec) (row : Row) (k : Str) : Option Sql := Dict.get (tr t.name (some k)) row

/-- `NOT NULL`. -/
def NotNullMet (tr : Translator) (t : TableSpec) (row : Row) : Prop :=
  ∀ c ∈ t.columns, c.required = true → sqlCell tr t row c.name ≠ some .null

/-- `CHECK`: met also by `NULL`. -/
def ChecksMet (cmp : SqlCmp) (tr : Translator) (t : TableSpec) (row : Row) : Prop :=
  ∀ c ∈ t.columns, ∀ v, sqlCell tr t row c.name = some v → v ≠ .null → ∀ cond ∈ c.check, cmp.Holds c.dbType v cond

/-- `PRIMARY KEY`: no other row has the same key, unless it contains `NULL`; an integer key is an integer. -/
def PrimaryKeyMet (tr : Translator) (t : TableSpec) (rows : List Row) (row : Row) : Prop :=
  ∀ pk, t.primaryKey = some pk → pk ≠ [] →
    (∀ r ∈ rows, (∀ k ∈ pk, sqlCell tr t row k ≠ some .null) → pk.map (sqlCell tr t r) ≠ pk.map (sqlCell tr t row)) ∧
    (∀ k, pk = [k] → (∃ c ∈ t.columns, c.name = k ∧ c.dbType = .integer) →
      sqlCell tr t row k = some .null ∨ ∃ i, sqlCell tr t row k = some (.int i))

/-- The rows of a table of a database. -/
def RowsOf (db : Database) (name : Str) (r : Row) : Prop := ∃ d ∈ db, d.name = name ∧ r ∈ d.rows

/-- The type of the column for `k`. -/
def typeOf (t : TableSpec) (k : Str) : DbType := ((t.columns.find? fun c => c.name = k).map ColSpec.dbType).getD .blob

/-- `FOREIGN KEY`: the columns referenced are the primary key of the table referenced, and it has such a row, unless the key
contains `NULL`. For a reference to the table itself, the new row is taken into account. The affinity of the columns referenced is applied to the
values before they are compared. -/
def ForeignKeysMet (sx : SqlExt) (tr : Translator) (tables : List TableSpec) (db : Database) (t : TableSpec) (rows : List Row) (row : Row) :
    Prop :=
  ∀ fk ∈ t.foreignKeys, ∃ p ∈ tables, p.name = fk.2.1 ∧ (∃ pk, p.primaryKey = some pk ∧ pk.Perm fk.2.2) ∧
    ((∃ k ∈ fk.1, sqlCell tr t row k = some .null) ∨
     ∃ r, (if fk.2.1 = t.name then r ∈ rows ++ [row] else RowsOf db (tr p.name none) r) ∧ fk.1.length = fk.2.2.length ∧
       ∀ q ∈ fk.1.zip fk.2.2, sqlCell tr p r q.2 = (sqlCell tr t row q.1).map (affinity sx (typeOf p q.2)))

/-- All constraints of a table for a new row. -/
def ConstraintsMet (sx : SqlExt) (cmp : SqlCmp) (tr : Translator) (tables : List TableSpec) (db : Database) (t : TableSpec) (rows : List Row)
    (row : Row) : Prop :=
  NotNullMet tr t row ∧ ChecksMet cmp tr t row ∧ PrimaryKeyMet tr t rows row ∧ ForeignKeysMet sx tr tables db t rows row

/-- The engine refuses exactly the rows which violate constraints. -/
def Enforces (sx : SqlExt) (cmp : SqlCmp) (tr : Translator) (tables : List TableSpec) : Prop :=
  ∀ db, ∀ t ∈ tables, ∀ rows row,
    sx.refuse db (tr t.name none) rows row = true ↔ ¬ ConstraintsMet sx cmp tr tables db t rows row

/-! ## Valid data -/

/-- Datatypes of strings which are kept as they are. -/
def TextBase (b : Base) : Prop := b.kind = .string ∨ b.kind = .any ∨ b.kind = .normalized ∨ b.kind = .nmtoken

/-- Datatypes for which constraints are the same in CSVW and in SQL. -/
def ExactBase (b : Base) : Prop := TextBase b ∨ b = .integer ∨ b = .boolean ∨ b = .hexBinary

/-- A value of a datatype: strings do not contain NUL, integers have 64 bits, decimal numbers are numbers. -/
def ValueOf (b : Base) : Val → Prop
  | .str s => TextBase b ∧ '\x00' ∉ s
  | .int i => b.kind = .integer ∧ -(2 ^ 63) ≤ i ∧ i < 2 ^ 63
  | .bool _ => b = .boolean
  | .bytes _ => b.kind = .hex ∨ b.kind = .base64
  | .dt _ => b.kind = .dateTime ∨ b.kind = .date
  | .dur _ => b.kind = .duration
  | .uri _ => b.kind = .uri
  | .flt _ => b.kind = .float
  | .dec x => b = .decimal ∧ ∀ neg signal payload, x ≠ .nan neg signal payload
  | _ => False

/-- An item of a list: a string or nothing in a column of strings, else anything which can be written as JSON. -/
def ItemOf (b : Base) (w : Val) : Prop :=
  if b = .string then w = .none ∨ ∃ s, w = .str s else (toJson w).isSome = true

/-- Neither bounds nor lengths. -/
def Unlimited (d : Datatype) : Prop :=
  d.minimum = none ∧ d.maximum = none ∧ d.length = none ∧ d.minLength = none ∧ d.maxLength = none

/-- A column the constraints of which can be expressed in SQL: without bounds and lengths, or else not list-valued and of one of the
exact datatypes with only bounds for integers and lengths for strings and bytes. -/
def ColumnFits (c : ColSpec) : Prop :=
  ∀ d, c.csvw = some d → Unlimited d ∨
    (c.separator = none ∧ d.base = c.base ∧
      ((c.base = .integer ∧ (∀ b, d.minimum = some b → ∃ n, b = .int n) ∧ (∀ b, d.maximum = some b → ∃ n, b = .int n) ∧
         d.length = none ∧ d.minLength = none ∧ d.maxLength = none) ∨
       ((TextBase c.base ∨ c.base = .hexBinary) ∧ d.minimum = none ∧ d.maximum = none)))

/-- The value is valid for the column. -/
def CellValid (ext : Ext) (c : ColSpec) (v : CVal) : Prop :=
  (v = .one .none ∧ c.required = false) ∨
  (c.separator = none ∧ ∃ w, v = .one w ∧ ValueOf c.base w ∧ ∀ d, c.csvw = some d → d.validate ext w = .ok w) ∨
  (c.separator ≠ none ∧ ∃ l, v = .many l ∧ ∀ w ∈ l, ItemOf c.base w)

/-- The items of a row which are stored in the table itself, not in an association table. -/
def ownItems (t : TableSpec) (row : RowDict) : RowDict := row.filter fun p => !Dict.has p.1 t.manyToMany

/-- The rows of a table, if there is data for it. -/
def tableData (items : List (Str × List RowDict)) (t : TableSpec) : Option (List RowDict) :=
  (Dict.get t.name items).map (List.map (ownItems t))

/-- The rows are valid for the table: they have the same keys, which are columns; required columns are among them; the values are
valid; no two rows have the same primary key, the values of which are not null. -/
structure RowsValid (ext : Ext) (t : TableSpec) (rows : List RowDict) : Prop where
  keys : ∀ row ∈ rows, Dict.keys row ≠ [] ∧ (Dict.keys row).Nodup ∧ (∀ k ∈ Dict.keys row, ∃ c ∈ t.columns, c.name = k) ∧
    ∀ row' ∈ rows, Dict.keys row' = Dict.keys row
  cells : ∀ row ∈ rows, ∀ c ∈ t.columns, ∀ v, Dict.get c.name row = some v → CellValid ext c v
  required : ∀ row ∈ rows, ∀ c ∈ t.columns, c.required = true → c.name ∈ Dict.keys row
  primary : ∀ pk, t.primaryKey = some pk → pk ≠ [] →
    (∀ row ∈ rows, ∀ k ∈ pk, ∃ w, w ≠ .none ∧ Dict.get k row = some (.one w)) ∧
    rows.Pairwise fun row row' => ∃ k ∈ pk, Dict.get k row ≠ Dict.get k row'

/-- Null or absent. -/
def NullIn (row : RowDict) (k : Str) : Prop := Dict.get k row = none ∨ Dict.get k row = some (.one .none)

/-- The references are valid: every foreign key references the primary key of a table which comes before (or the table itself), and if there is
data, by columns of the same datatype, and the row referenced exists (in the table itself: not after the row). -/
def ReferencesValid (tables : List TableSpec) (items : List (Str × List RowDict)) : Prop :=
  ∀ before t after, tables = before ++ t :: after → ∀ fk ∈ t.foreignKeys, ∃ p ∈ before ++ [t], p.name = fk.2.1 ∧
    (∃ pk, p.primaryKey = some pk ∧ pk.Perm fk.2.2) ∧ fk.1.length = fk.2.2.length ∧ fk.1 ≠ [] ∧
    ∀ rows, tableData items t = some rows →
      (∀ q ∈ fk.1.zip fk.2.2, ∀ c ∈ t.columns, ∀ c' ∈ p.columns, c.name = q.1 → c'.name = q.2 → c.base = c'.base) ∧
      ∀ earlier row later, rows = earlier ++ row :: later →
        (∃ k ∈ fk.1, NullIn row k) ∨
        ∃ row', row' ∈ (if fk.2.1 = t.name then earlier ++ [row] else (tableData items p).getD []) ∧
          ∀ q ∈ fk.1.zip fk.2.2, Dict.get q.1 row = Dict.get q.2 row'

/-- The list-valued references are valid: they are from a table with a primary key of one column, the values of which are true (in the sense of
Python: neither empty nor 0), to the primary key of a table, which has all rows referenced; there is no data for the association table. -/
def LinksValid (ext : Ext) (tables : List TableSpec) (items : List (Str × List RowDict)) : Prop :=
  ∀ t ∈ tables, ∀ k a, Dict.get k t.manyToMany = some a →
    a.toSpec ∈ tables ∧ Dict.get a.name items = none ∧ a.atable = t.name ∧ t.primaryKey = some [a.apk] ∧
    ∃ p ∈ tables, p.name = a.btable ∧ p.primaryKey = some [a.bpk] ∧
      ∀ rows, Dict.get t.name items = some rows → ∀ row ∈ rows,
        (∃ w, Dict.get a.apk row = some (.one w) ∧ w.truthy ext = true) ∧
        ∀ v, (k, v) ∈ row → v = .one .none ∨
          ∃ l, v = .many l ∧ ∀ w ∈ l, ∃ row' ∈ (tableData items p).getD [], Dict.get a.bpk row' = some (.one w)

/-- A name which can be quoted by backticks. -/
def PlainName (n : Str) : Prop := '`' ∉ n ∧ '\x00' ∉ n

/-- The names of a table, its columns and the tables and columns it references can be quoted; its name is not reserved; foreign keys have columns, as many as those
referenced. -/
structure PlainTable (tr : Translator) (t : TableSpec) : Prop where
  name : PlainName (tr t.name none) ∧ ¬ "sqlite_".toList <+: foldName (tr t.name none)
  columns : ∀ c ∈ t.columns, PlainName (tr t.name (some c.name))
  foreign : ∀ fk ∈ t.foreignKeys, fk.1 ≠ [] ∧ fk.1.length = fk.2.2.length ∧ PlainName (tr fk.2.1 none) ∧ ∀ k ∈ fk.2.2, PlainName (tr fk.2.1 (some k))

/-- A database schema and data which is valid for it. -/
structure Loadable (ext : Ext) (tr : Translator) (tables : List TableSpec) (items : List (Str × List RowDict)) : Prop where
  names : (tables.map fun t => foldName (tr t.name none)).Nodup
  columns : ∀ t ∈ tables, t.columns ≠ [] ∧ (t.columns.map fun c => foldName (tr t.name (some c.name))).Nodup ∧ ∀ c ∈ t.columns, ColumnFits c
  keys : ∀ t ∈ tables, ∀ k ∈ t.primaryKey.getD [], ∃ c ∈ t.columns, c.name = k ∧ c.separator = none ∧ ExactBase c.base
  foreign : ∀ t ∈ tables, ∀ fk ∈ t.foreignKeys, ∀ k ∈ fk.1, ∃ c ∈ t.columns, c.name = k ∧ c.separator = none
  apart : ∀ t ∈ tables, ∀ c ∈ t.columns, c.name ∉ Dict.keys t.manyToMany
  rows : ∀ t ∈ tables, ∀ rows, tableData items t = some rows → RowsValid ext t rows
  references : ReferencesValid tables items
  links : LinksValid ext tables items
  plain : ∀ t ∈ tables, PlainTable tr t

end Csvw.Spec
