import Verif.Spec.Clean
import Verif.Spec.Dsv
import Verif.Model.Metadata2
/-!
# What is kept of a description

The attributes of the objects which are made from descriptions, in terms of the items of the JSON objects. (From the model: the records of the
attributes, and for parts of a description their own conversion.)
-/

namespace Csvw.Spec

/-- The inherited properties, common properties and properties with `@` have the given values. -/
structure DescrKept (ext : Ext) (x : MExt) (other : Base → Derived → J → Res Val) (m : List (Str × J)) (d : Descr) : Prop where
  common : ∀ k v, (k, v) ∈ m → CommonProperty k → (k, v) ∈ d.common
  at_ : ∀ k v, ('@' :: k, v) ∈ m → (k, v) ∈ d.atProps
  aboutUrl : ∀ s, Has m "aboutUrl" (.str s) → d.aboutUrl = .tmpl s
  propertyUrl : ∀ s, Has m "propertyUrl" (.str s) → d.propertyUrl = .tmpl s
  valueUrl : ∀ s, Has m "valueUrl" (.str s) → d.valueUrl = .tmpl s
  datatype : ∀ v, Has m "datatype" v → ¬ Falsy v → ∃ dt, Datatype.fromvalue ext x other v = .ok dt ∧ d.datatype = .dtype dt
  default : ∀ s, Has m "default" (.str s) → d.default = s
  lang : ∀ v, Has m "lang" v → d.lang = v
  null : (∀ s, Has m "null" (.str s) → d.null = [s]) ∧ ∀ l, Has m "null" (.arr (l.map .str)) → d.null = l
  ordered : ∀ v, Has m "ordered" v → d.ordered = v
  required : ∀ v, Has m "required" v → d.required = v
  separator : ∀ v, Has m "separator" v → d.separator = v
  textDirection : ∀ v, Has m "textDirection" v → d.textDirection = v

structure ColumnKept (ext : Ext) (x : MExt) (other : Base → Derived → J → Res Val) (m : List (Str × J)) (c : Column) : Prop where
  props : DescrKept ext x other m c.props
  name : ∀ s, Has m "name" (.str s) → c.name = some s
  virtual : ∀ b, Has m "virtual" (.bool b) → c.virtual = b
  suppressOutput : ∀ b, Has m "suppressOutput" (.bool b) → c.suppressOutput = b
  title : ∀ t, Has m "titles" (.str t) → c.titles = some [(none, [t])]
  titles : ∀ l, Has m "titles" (.arr (l.map .str)) → c.titles = some [(none, l)]
  titlesIn : ∀ o, Has m "titles" (.obj o) → ∃ n, c.titles = some n ∧
    (∀ k t, (k, .str t) ∈ o → (some k, [t]) ∈ n) ∧ ∀ k l, (k, .arr (l.map .str)) ∈ o → (some k, l) ∈ n

structure SchemaKept (ext : Ext) (x : MExt) (other : Base → Derived → J → Res Val) (m : List (Str × J)) (s : Schema) : Prop where
  props : DescrKept ext x other m s.props
  columns : ∀ cs, Has m "columns" (.arr (cs.map .obj)) → All2 (ColumnKept ext x other) cs s.columns
  foreignKeys : ∀ fs, Has m "foreignKeys" (.arr (fs.map .obj)) → All2 (fun f k => ForeignKey.fromdict f = .ok k) fs s.foreignKeys
  primaryKey : (∀ r, Has m "primaryKey" (.str r) → s.primaryKey = some [r]) ∧ ∀ l, Has m "primaryKey" (.arr (l.map .str)) → s.primaryKey = some l
  rowTitles : ∀ l, Has m "rowTitles" (.arr l) → s.rowTitles = l

/-- The dialect has the given values. (Boolean values of `trim` become texts; a `headerRowCount` implies `header`.) -/
structure DialectKept (m : List (Str × J)) (d : Dialect) : Prop where
  encoding : ∀ s, Has m "encoding" (.str s) → d.encoding = s
  lineTerminators : ∀ l, Has m "lineTerminators" (.arr l) → d.lineTerminators = l
  quoteChar : ∀ v, Has m "quoteChar" v → (∀ l, v ≠ .arr l) → d.quoteChar = v
  doubleQuote : ∀ b, Has m "doubleQuote" (.bool b) → d.doubleQuote = b
  skipRows : ∀ n : Nat, Has m "skipRows" (.int n) → d.skipRows = n
  commentPrefix : ∀ s, Has m "commentPrefix" (.str s) → d.commentPrefix = some s
  header : ∀ b, Has m "header" (.bool b) → d.header = b ∨ (d.header = true ∧ ∃ c, Has m "headerRowCount" c ∧ ¬ Falsy c)
  headerRowCount : ∀ n : Nat, Has m "headerRowCount" (.int n) → d.headerRowCount = n
  delimiter : ∀ s, Has m "delimiter" (.str s) → d.delimiter = s
  skipColumns : ∀ n : Nat, Has m "skipColumns" (.int n) → d.skipColumns = n
  skipBlankRows : ∀ b, Has m "skipBlankRows" (.bool b) → d.skipBlankRows = b
  skipInitialSpace : ∀ b, Has m "skipInitialSpace" (.bool b) → d.skipInitialSpace = b
  trim : ∀ s, Has m "trim" (.str s) → trimStr d.trim = s

structure LikeKept (ext : Ext) (x : MExt) (other : Base → Derived → J → Res Val) (m : List (Str × J)) (t : TableLike) : Prop where
  props : DescrKept ext x other m t.props
  dialect : ∀ o, Has m "dialect" (.obj o) → ∃ d, t.dialect = some d ∧ DialectKept o d
  notes : ∀ v, Has m "notes" v → t.notes = v
  tableDirection : ∀ s, Has m "tableDirection" (.str s) → t.tableDirection = s
  schema : ∀ o, Has m "tableSchema" (.obj o) → SchemaKept ext x other o t.schema
  transformations : ∀ v, Has m "transformations" v → t.transformations = v
  url : ∀ s, Has m "url" (.str s) → t.url = some s

structure TableKept (ext : Ext) (x : MExt) (other : Base → Derived → J → Res Val) (m : List (Str × J)) (t : TableD) : Prop where
  like : LikeKept ext x other m t.like
  suppressOutput : ∀ v, Has m "suppressOutput" v → t.suppressOutput = v

structure GroupKept (ext : Ext) (x : MExt) (other : Base → Derived → J → Res Val) (m : List (Str × J)) (g : GroupD) : Prop where
  like : LikeKept ext x other m g.like
  tables : ∀ ts, Has m "tables" (.arr (ts.map .obj)) → All2 (TableKept ext x other) ts g.tables

end Csvw.Spec
