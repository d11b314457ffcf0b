import Verif.Model.Metadata2
import Verif.Spec.Dsv
/-!
# Specification vocabulary: equality of descriptions up to order and empty values

JSON objects and arrays which are empty are not written; properties with such values are absent afterwards.
-/

namespace Csvw.Spec

/-- An empty JSON array or object. -/
def EmptyValue (j : J) : Prop := j = .arr [] ∨ j = .obj []

/-- `m'` has the items of `m`, in any order, except those with empty values. -/
def SameItems (m m' : List (Str × J)) : Prop := ∀ k v, Dict.get k m' = some v ↔ (Dict.get k m = some v ∧ ¬ EmptyValue v)

/-- The same value, or `null` instead of an empty one. -/
def SameValue (v v' : J) : Prop := v' = v ∨ EmptyValue v ∧ v' = .null

/-- Datatypes which only differ in the order of `@`-properties and common properties. -/
def SameDatatype (a b : Datatype) : Prop :=
  ∃ at' common', b = { a with atProps := at', common := common' } ∧ SameItems a.atProps at' ∧ SameItems a.common common'

/-- Values of properties. -/
inductive SamePVal : PVal → PVal → Prop where
  | json {v v' : J} : SameValue v v' → SamePVal (.json v) (.json v')
  | tmpl (s : Str) : SamePVal (.tmpl s) (.tmpl s)
  | dtype {a b : Datatype} : SameDatatype a b → SamePVal (.dtype a) (.dtype b)

/-- The properties which all descriptions share. -/
structure SameDescr (a b : Descr) : Prop where
  aboutUrl : b.aboutUrl = a.aboutUrl
  datatype : SamePVal a.datatype b.datatype
  default : b.default = a.default
  lang : b.lang = a.lang
  null : b.null = a.null
  ordered : SameValue a.ordered b.ordered
  propertyUrl : b.propertyUrl = a.propertyUrl
  required : SameValue a.required b.required
  separator : SameValue a.separator b.separator
  textDirection : SameValue a.textDirection b.textDirection
  valueUrl : b.valueUrl = a.valueUrl
  common : SameItems a.common b.common
  atProps : SameItems a.atProps b.atProps

/-- Titles; no titles at all may be represented in three ways. -/
def SameTitles (t t' : Option NatLang) : Prop := t' = t ∨ t' = none ∧ (t = some [] ∨ t = some [(none, [])])

structure SameColumn (a b : Column) : Prop where
  props : SameDescr a.props b.props
  name : b.name = a.name
  titles : SameTitles a.titles b.titles
  virtual : b.virtual = a.virtual
  suppressOutput : b.suppressOutput = a.suppressOutput
  number : b.number = a.number

structure SameSchema (a b : Schema) : Prop where
  props : SameDescr a.props b.props
  columns : All2 SameColumn a.columns b.columns
  foreignKeys : b.foreignKeys = a.foreignKeys
  primaryKey : b.primaryKey = a.primaryKey ∨ a.primaryKey = some [] ∧ b.primaryKey = none
  rowTitles : b.rowTitles = a.rowTitles

/-- The same value, or an empty array instead of an empty object. -/
def SameListValue (v v' : J) : Prop := v' = v ∨ EmptyValue v ∧ v' = .arr []

/-- The part which descriptions of tables and of table groups have in common. A dialect which is the default may become absent. -/
structure SameLike (a b : TableLike) : Prop where
  props : SameDescr a.props b.props
  dialect : b.dialect = a.dialect ∨ a.dialect = some { commentPrefix := none } ∧ b.dialect = none
  notes : SameListValue a.notes b.notes
  tableDirection : b.tableDirection = a.tableDirection
  schema : SameSchema a.schema b.schema
  transformations : SameListValue a.transformations b.transformations
  url : b.url = a.url

/-- A number equal to `False` may become `False`; empty arrays and objects, too. -/
structure SameTable (a b : TableD) : Prop where
  like : SameLike a.like b.like
  suppressOutput : b.suppressOutput = a.suppressOutput ∨
    (a.suppressOutput.zero = true ∨ EmptyValue a.suppressOutput) ∧ b.suppressOutput = .bool false

structure SameGroup (a b : GroupD) : Prop where
  like : SameLike a.like b.like
  tables : All2 SameTable a.tables b.tables

/-! ## Descriptions which can be written -/

/-- Writing and reading again gives the bound. -/
def BoundSurvives (ext : Ext) (dt : Datatype) (b : Option Val) : Prop :=
  ∀ v, b = some v → v ≠ .json (.arr []) ∧ v ≠ .json (.obj []) ∧ ∃ s, dt.formatted ext v = .ok s ∧ dt.parse ext s = .ok v

/-- The datatype can be written: the bounds can be formatted and parsed, and the format is not an empty array or object. -/
structure DtWritable (ext : Ext) (dt : Datatype) : Prop where
  minimum : BoundSurvives ext dt dt.minimum
  maximum : BoundSurvives ext dt dt.maximum
  minInclusive : BoundSurvives ext dt dt.minInclusive
  maxInclusive : BoundSurvives ext dt dt.maxInclusive
  minExclusive : BoundSurvives ext dt dt.minExclusive
  maxExclusive : BoundSurvives ext dt dt.maxExclusive
  format : ¬ EmptyValue dt.format

/-- The description can be written: no invalid URI templates, and the datatype can be written. -/
structure DescrWritable (ext : Ext) (d : Descr) : Prop where
  aboutUrl : d.aboutUrl ≠ .invalid
  propertyUrl : d.propertyUrl ≠ .invalid
  valueUrl : d.valueUrl ≠ .invalid
  datatype : ∀ dt, d.datatype = .dtype dt → DtWritable ext dt

/-- The same for tables and table groups; the quote character must be a string or `None`. -/
structure LikeWritable (ext : Ext) (t : TableLike) : Prop where
  props : DescrWritable ext t.props
  schema : DescrWritable ext t.schema.props
  columns : ∀ c ∈ t.schema.columns, DescrWritable ext c.props
  quoteChar : ∀ d, t.dialect = some d → d.quoteChar = .null ∨ ∃ s, d.quoteChar = .str s

end Csvw.Spec
