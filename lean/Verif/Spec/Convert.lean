import Verif.Spec.SqlConstraints
import Verif.Props.C44
/-!
# Specification: tables and data which can be converted to SQL
-/

namespace Csvw.Spec
open Csvw Csvw.Db Csvw.Py Csvw.Datatypes Csvw.Props

/-! ## Descriptions -/

/-- The datatype of the values of a column. -/
def columnBase (c : CCol) : Base := match c.datatype with | some d => d.base | none => .string

/-- The values of the column can be stored, and the constraints expressed: without separator, the datatype is neither `time` nor `json`; with a separator,
the items can be written as JSON; there are no bounds and lengths, or the column has no separator and only bounds for values of datatype `integer`, or lengths for strings or
`hexBinary`. A column which is required is marked itself. -/
structure ColumnConvertible (c : CCol) : Prop where
  plain : c.separator = .ok none → (columnBase c).kind ≠ .time ∧ (columnBase c).kind ≠ .json
  list : ∀ s, c.separator = .ok (some s) → (columnBase c).kind ∈ [.any, .string, .normalized, .nmtoken, .boolean, .integer, .float]
  limits : ∀ d, c.datatype = some d → Unlimited d ∨ (c.separator = .ok none ∧
    ((d.base = .integer ∧ (∀ b, d.minimum = some b → ∃ n, b = .int n) ∧ (∀ b, d.maximum = some b → ∃ n, b = .int n) ∧
         d.length = none ∧ d.minLength = none ∧ d.maxLength = none) ∨
       ((TextBase d.base ∨ d.base = .hexBinary) ∧ d.minimum = none ∧ d.maximum = none)))
  required : c.required = true → c.col.props.required.truthy = true

/-- The column with the given name: not list-valued, of a datatype which is the same in SQL. -/
def KeyColumn (t : Table) (k : Str) (c : CCol) : Prop :=
  c ∈ t.ccols ∧ c.col.header = k ∧ c.separator = .ok none ∧ ExactBase (columnBase c)

/-- The table can be converted. -/
structure TableConvertible (g : TableGroup) (t : Table) : Prop where
  noVirtual : ∀ c ∈ t.schema.columns, c.virtual = false
  headers : (t.schema.columns.map fun c => foldName c.header).Nodup ∧ ∀ c ∈ t.schema.columns, c.header ≠ []
  columns : ∀ c ∈ t.ccols, ColumnConvertible c
  stored : ∃ c ∈ t.ccols, c.separator = .ok none
  key : ∀ k ∈ t.schema.primaryKey.getD [], ∃ c, KeyColumn t k c
  /-- Foreign keys which are not list-valued reference the primary key of a table, by columns of the same datatypes; the order of the columns is
  compatible with sorting. -/
  foreign : ∀ fk ∈ t.schema.foreignKeys, PlainKey t true fk → ∃ r u pk, fk.resource = some r ∧ TableNamed g r u ∧
    u.schema.primaryKey = some pk ∧ pk.Perm fk.refColumns ∧ fk.columnReference.length = fk.refColumns.length ∧ fk.columnReference ≠ [] ∧
    OrderPreserving (fk.columnReference.zip fk.refColumns) ∧
    ∀ q ∈ fk.columnReference.zip fk.refColumns, ∃ c c', KeyColumn t q.1 c ∧ KeyColumn u q.2 c' ∧ columnBase c = columnBase c'
  /-- List-valued ones reference the primary key of a table. The names of the columns of the association table differ (not only by case). -/
  links : ∀ fk ∈ t.schema.foreignKeys, fk.schemaReference = none → ListValuedKey t fk → ∃ r u k, fk.resource = some r ∧ TableNamed g r u ∧
    fk.refColumns = [k] ∧ u.schema.primaryKey = some [k] ∧
    ∀ pk, t.schema.primaryKey = some [pk] → foldName (t.url ++ '_' :: pk) = foldName (r ++ '_' :: k) → t.url ++ '_' :: pk = r ++ '_' :: k

/-- The names of a table in SQL and of its columns can be quoted by backticks; the name of the table is not reserved. -/
def PlainNames (s : TableSpec) : Prop :=
  PlainName s.name ∧ ¬ "sqlite_".toList <+: foldName s.name ∧ ∀ c ∈ s.columns, PlainName c.name

/-! ## Data -/

/-- Values which SQLite can store (see `ValueOf`). -/
def Safe : Val → Prop
  | .str s => '\x00' ∉ s
  | .int i => -(2 ^ 63) ≤ i ∧ i < 2 ^ 63
  | .dec x => ∀ neg signal payload, x ≠ .nan neg signal payload
  | _ => True

/-- The rows of a table as read. -/
structure RowsConvertible (ext : Ext) (g : TableGroup) (items : List (Str × List RowDict)) (t : Table) (rows : List RowDict) : Prop where
  safe : ∀ row ∈ rows, ∀ p ∈ row, ∀ w, p.2 = .one w → Safe w
  /-- No other columns. -/
  described : ∀ row ∈ rows, ∀ k ∈ Dict.keys row, ∃ c ∈ t.schema.columns, c.header = k
  /-- Primary keys are not null and unique. -/
  key : ∀ pk, t.schema.primaryKey = some pk → pk ≠ [] →
    (∀ row ∈ rows, ∀ k ∈ pk, Dict.get k row ≠ some (.one .none)) ∧
    rows.Pairwise fun row row' => ∃ k ∈ pk, Dict.get k row ≠ Dict.get k row'
  /-- References are null or to a row. -/
  foreign : ∀ fk ∈ t.schema.foreignKeys, PlainKey t true fk → ∀ r, fk.resource = some r → ∀ row ∈ rows,
    (∃ k ∈ fk.columnReference, Dict.get k row = some (.one .none)) ∨
    ∃ row' ∈ (Dict.get r items).getD [], ∀ q ∈ fk.columnReference.zip fk.refColumns, Dict.get q.1 row = Dict.get q.2 row'
  /-- List-valued references are to rows; the key of the row itself is not 0 or empty. -/
  links : ∀ fk ∈ t.schema.foreignKeys, fk.schemaReference = none → ListValuedKey t fk → ∀ r, fk.resource = some r → ∀ row ∈ rows,
    (∀ pk, t.schema.primaryKey = some [pk] → ∀ w, Dict.get pk row = some (.one w) → w.truthy ext = true) ∧
    ∀ c k, fk.columnReference = [c] → fk.refColumns = [k] → ∀ l, Dict.get c row = some (.many l) → ∀ w ∈ l,
      ∃ row' ∈ (Dict.get r items).getD [], Dict.get k row' = some (.one w)

end Csvw.Spec
