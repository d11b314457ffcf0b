import Verif.Model.ToJson
import Verif.Spec.Dsv
/-!
# Specification vocabulary: JSON output
-/

namespace Csvw.Spec.ToJson
open Csvw.ToJson JsonLd

/-- A property of an object. -/
def prop (k : String) : Out → Option Out
  | .obj m => Dict.get k.toList m
  | _ => none

/-- The object for the row read as number `n`, from line `line` of the data file. -/
structure RowObject (url : Str) (n : Nat) (line : Int) (described : List (List (Str × Out))) (o : Out) : Prop where
  url : prop "url" o = some (.json (.str (url ++ "#row=".toList ++ (toString line).toList)))
  rownum : prop "rownum" o = some (.json (.int n))
  describes : prop "describes" o = some (.list (described.map .obj))

/-- No URI templates are used: neither in the description of the table, nor in those of its columns or its table group. -/
structure NoTemplates (t : Table) : Prop where
  about : ∀ d ∈ t.parents, d.aboutUrl = .json .null
  property : ∀ d ∈ t.parents, d.propertyUrl = .json .null
  value : ∀ d ∈ t.parents, d.valueUrl = .json .null
  columns : ∀ c ∈ t.schema.columns, c.props.aboutUrl = .json .null ∧ c.props.propertyUrl = .json .null ∧ c.props.valueUrl = .json .null

/-- The value is `None`, an empty string, or one of the null values. -/
def Null (null : List Str) (v : CVal) : Prop := v = .one .none ∨ v = .one (.str []) ∨ ∃ s ∈ null, v = .one (.str s)

/-- The column with header `k`; of several ones, the last. -/
def columnOf (t : Table) (k : Str) : Option CCol := t.ccols.reverse.find? fun c => c.col.header = k

/-- The null values for a column (those of the table for data without a column). -/
def nullFor (t : Table) : Option CCol → List Str
  | some c => c.null
  | none => inheritNull (t.props :: (t.group.map Prod.fst).toList)

/-- Not shown: cells of columns whose output is suppressed, null values, and empty lists of columns with a separator. -/
def Omitted (t : Table) (k : Str) (v : CVal) : Prop :=
  (∃ c, columnOf t k = some c ∧ (c.col.suppressOutput = true ∨ (c.col.props.separator.truthy = true ∧ v = .many []))) ∨
  Null (nullFor t (columnOf t k)) v

/-- The literal for a floating point number: numbers which JSON does not have are given by name. -/
structure FloatLiteral (jx : JExt) (t : Str) (w : Val) : Prop where
  nan : jx.isNan t = true → w = .str ['N', 'a', 'N']
  posInf : jx.isNan t = false → jx.isInf t = true → jx.isNeg t = false → w = .str ['I', 'N', 'F']
  negInf : jx.isNan t = false → jx.isInf t = true → jx.isNeg t = true → w = .str ['-', 'I', 'N', 'F']
  finite : jx.isNan t = false → jx.isInf t = false → w = .flt t

/-- The JSON-LD literal for a value which is neither a date nor a time: numbers are numbers (decimals the nearest floating point number), strings and
booleans stay; binary data and durations are given as in the data file, by the datatype of the column. -/
inductive Literal (ext : Ext) (jx : JExt) (dt : Option Datatype) : Val → Val → Prop where
  | none : Literal ext jx dt .none .none
  | bool (b : Bool) : Literal ext jx dt (.bool b) (.bool b)
  | str (s : Str) : Literal ext jx dt (.str s) (.str s)
  | int (i : Int) : Literal ext jx dt (.int i) (.int i)
  | json (j : J) : Literal ext jx dt (.json j) (.json j)
  | flt {t : Str} {w : Val} : FloatLiteral jx t w → Literal ext jx dt (.flt t) w
  | dec {d : Dec} {w : Val} : FloatLiteral jx (jx.decFloat d) w → Literal ext jx dt (.dec d) w
  | uri (t : Str) : Literal ext jx dt (.uri t) (.str (ext.uriStr t))
  | bytes {b : List UInt8} {d : Datatype} {s : Str} : dt = some d → d.formatted ext (.bytes b) = .ok s → Literal ext jx dt (.bytes b) (.str s)
  | dur {t : Str} {d : Datatype} {s : Str} : dt = some d → d.formatted ext (.dur t) = .ok s → Literal ext jx dt (.dur t) (.str s)

/-- The datatype of the column itself. -/
def datatypeOf : Option CCol → Option Datatype
  | some c => match c.col.props.datatype with
    | .dtype d => some d
    | _ => none
  | none => none

/-- Empty values are no titles: null, an empty string or list, zero and false. -/
def NoTitle (ext : Ext) : CVal → Prop
  | .many l => l = []
  | .one .none => True
  | .one (.str s) => s = []
  | .one (.bool b) => b = false
  | .one (.int i) => i = 0
  | .one (.dec d) => ∃ neg e, d = .fin neg 0 e
  | .one (.bytes b) => b = []
  | .one (.dt _) => False
  | .one (.flt t) => ext.floatTrue t = false
  | .one (.dur t) => ext.durTrue t = false
  | .one (.uri _) => False
  | .one (.json j) => j = .null ∨ j = .bool false ∨ j = .int 0 ∨ (∃ r, j = .flt r ∧ ext.floatTrue r = false) ∨ j = .str [] ∨ j = .arr [] ∨ j = .obj []

/-- The titles of a row: the non-empty values of the cells which are named, in this order; one title is not given as a list. -/
def TitlesOf (ext : Ext) (names : List Str) (row : RowDict) (o : Option Out) : Prop :=
  (names = [] → o = none) ∧
  (names ≠ [] → ∃ vs : List CVal, (∀ has : CVal → Bool, (∀ v, has v = true ↔ ¬ NoTitle ext v) →
      vs = (names.flatMap fun k => (Dict.get k row).toList).filter has) ∧
    o = some (match vs with
      | [v] => .prop (.of v)
      | vs => .list (vs.map fun v => .prop (.of v))))

end Csvw.Spec.ToJson
