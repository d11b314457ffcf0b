import Verif.Model.Metadata2
import Verif.Spec.Dsv
/-!
# Specification vocabulary: what a frictionless data package says about its tables

A JSON object is the list of its items; `m.get k` is the value of property `k`, `none` if absent.
-/

namespace Csvw.Spec.Frictionless

/-- The value of a property of a JSON object. -/
abbrev prop (k : String) (m : List (Str × J)) : Option J := Dict.get k.toList m

/-- The CSVW datatype for each type of fields; other types (e.g. `any`) are strings. -/
def typeTable : List (String × String) :=
  [("string", "string"), ("number", "number"), ("integer", "integer"), ("boolean", "boolean"), ("object", "json"), ("array", "json"),
   ("date", "date"), ("time", "time"), ("datetime", "datetime"), ("year", "gYear"), ("yearmonth", "gYearMonth"), ("duration", "duration"),
   ("geojson", "json")]

/-- A field of this type and format has this CSVW datatype. -/
def baseOf (type format : Option J) : String :=
  if type = some (.str "string".toList) ∧ format = some (.str "binary".toList) then "binary"
  else if type = some (.str "string".toList) ∧ format = some (.str "uri".toList) then "anyURI"
  else match typeTable.find? fun p => type = some (.str p.1.toList) with
    | some p => p.2
    | none => "string"

/-- The value of a constraint of a field. -/
def constraint (k : String) (field : List (Str × J)) : Option J :=
  match prop "constraints" field with
  | some (.obj cs) => Dict.get k.toList cs
  | _ => none

/-- The description of the datatype says the same as the constraints: length constraints given as integers, minimum and maximum. -/
structure Constrained (field : List (Str × J)) (s : DatatypeSpec) : Prop where
  base : s.base = .str (baseOf (prop "type" field) (prop "format" field)).toList
  minLength : ∀ n, constraint "minLength" field = some (.int n) → s.minLength = some n
  maxLength : ∀ n, constraint "maxLength" field = some (.int n) → s.maxLength = some n
  noMinLength : constraint "minLength" field = none → s.minLength = none
  noMaxLength : constraint "maxLength" field = none → s.maxLength = none
  length : s.length = none
  minimum : s.minimum = (constraint "minimum" field).getD .null
  maximum : s.maximum = (constraint "maximum" field).getD .null
  others : s.minInclusive = .null ∧ s.maxInclusive = .null ∧ s.minExclusive = .null ∧ s.maxExclusive = .null
  /-- A pattern is the format of a string; no pattern, no format. -/
  pattern : baseOf (prop "type" field) (prop "format" field) = "string" → s.format = (constraint "pattern" field).getD .null
  noFormat : (baseOf (prop "type" field) (prop "format" field) = "boolean" → prop "trueValues" field = none ∨ prop "falseValues" field = none) →
    prop "decimalChar" field = none → prop "groupChar" field = none →
    constraint "pattern" field = none → s.format = .null
  /-- The first of the values for true, and of those for false. -/
  boolean : ∀ t f r r', baseOf (prop "type" field) (prop "format" field) = "boolean" → prop "trueValues" field = some (.arr (.str t :: r)) →
    prop "falseValues" field = some (.arr (.str f :: r')) → s.format = .str (t ++ '|' :: f)
  /-- The decimal point and the thousands separator of numbers. -/
  number : ∀ k d, baseOf (prop "type" field) (prop "format" field) ∈ ["number", "integer"] → k ∈ ["decimalChar", "groupChar"] →
    prop k field = some (.str d) → d ≠ [] → ∃ m, s.format = .obj m ∧ prop k m = some (.str d)

/-- The column is the one for the field. -/
structure FieldColumn (ext : Ext) (other : Base → Derived → J → Res Val) (field : List (Str × J)) (c : Column) : Prop where
  name : ∃ j, prop "name" field = some j ∧ ∀ n, j = .str n → c.name = some n
  virtual : c.virtual = false
  datatype : ∃ s dt, c.props.datatype = .dtype dt ∧ Datatype.construct ext other s = .ok dt ∧ Constrained field s
  title : ∀ t, prop "title" field = some (.str t) → t ≠ [] → c.titles = some [(none, [t])]
  propertyUrl : ∀ u, prop "rdfType" field = some (.str u) → c.props.propertyUrl = .tmpl u
  description : ∀ d, prop "description" field = some (.str d) → Dict.get "dc:description".toList c.props.common = some (.arr [.str d])

/-- Of the resources of the package, the last one with a path which has the name `n` has the path `p`. -/
def PathOf (resources : List J) (n p : J) : Prop :=
  ∃ before rsc after, resources = before ++ .obj rsc :: after ∧ prop "name" rsc = some n ∧ prop "path" rsc = some p ∧
    ∀ r, .obj r ∈ after → prop "name" r = some n → prop "path" r = none

/-- One or several names of columns. -/
inductive Names : J → List Str → Prop where
  | one (s : Str) : Names (.str s) [s]
  | many (l : List Str) : Names (.arr (l.map .str)) l

/-- The foreign key of the table is the one of the frictionless schema of the resource `self`. An empty name of the resource referred to
means `self`. -/
inductive SameKey (resources : List J) (self : List (Str × J)) : J → ForeignKey → Prop where
  | mk {fk ref : List (Str × J)} {jf jr n path : J} {fields refFields : List Str} {res : Option Str} (hf : prop "fields" fk = some jf)
      (hn : Names jf fields) (hr : prop "reference" fk = some (.obj ref)) (hrf : prop "fields" ref = some jr) (hrn : Names jr refFields)
      (hrs : prop "resource" ref = some n)
      (hp : PathOf resources (if n.truthy then n else (prop "name" self).getD .null) path) (hres : path = .ofOptStr res) :
      SameKey resources self (.obj fk) { columnReference := fields, resource := res, schemaReference := none, refColumns := refFields }

/-- The resource is a CSV file with a schema. -/
def Tabular (rsc : List (Str × J)) : Prop :=
  prop "path" rsc ≠ none ∧ (∃ j, prop "schema" rsc = some j ∧ j.truthy = true) ∧ prop "scheme" rsc = some (.str "file".toList) ∧
    prop "format" rsc = some (.str "csv".toList)

instance (rsc : List (Str × J)) : Decidable (Tabular rsc) := by
  unfold Tabular
  cases h : prop "schema" rsc with
  | none => exact isFalse (by simp)
  | some j =>
    have : (∃ j', some j = some j' ∧ j'.truthy = true) ↔ j.truthy = true := by simp
    rw [this]
    infer_instance

/-- The resources of a package. -/
def resources (pkg : List (Str × J)) : List J :=
  match prop "resources" pkg with
  | some (.arr l) => l
  | _ => []

/-- Those which are CSV files with a schema. -/
def tabular (rs : List J) : List (List (Str × J)) :=
  rs.filterMap fun
    | .obj r => if Tabular r then some r else none
    | _ => none

/-- The dialect of the resource: in newer packages it is the property `csv` of the dialect. -/
def csvDialect (rsc : List (Str × J)) : List (Str × J) :=
  match prop "dialect" rsc with
  | some (.obj d) => match prop "csv" d with
    | some (.obj d') => d'
    | _ => d
  | _ => []

/-- The dialect of the table is the one of the resource. -/
structure SameDialect (lk : EncLookup) (rsc : List (Str × J)) (d : Dialect) : Prop where
  delimiter : (∀ s, prop "delimiter" (csvDialect rsc) = some (.str s) → d.delimiter = s) ∧
    (prop "delimiter" (csvDialect rsc) = none → d.delimiter = ",".toList)
  quoteChar : (∀ s, prop "quoteChar" (csvDialect rsc) = some (.str s) → d.quoteChar = .str s) ∧
    (prop "quoteChar" (csvDialect rsc) = some .null → d.quoteChar = .null) ∧
    (prop "quoteChar" (csvDialect rsc) = none → d.quoteChar = .str "\"".toList)
  doubleQuote : (∀ b, prop "doubleQuote" (csvDialect rsc) = some (.bool b) → d.doubleQuote = b) ∧
    (prop "doubleQuote" (csvDialect rsc) = none → d.doubleQuote = true)
  skipInitialSpace : (∀ b, prop "skipInitialSpace" (csvDialect rsc) = some (.bool b) → d.skipInitialSpace = b) ∧
    (prop "skipInitialSpace" (csvDialect rsc) = none → d.skipInitialSpace = false)
  header : (∀ b, prop "header" (csvDialect rsc) = some (.bool b) → d.header = b) ∧
    (prop "header" (csvDialect rsc) = none → d.header = true)
  comment : (∀ s, prop "commentChar" (csvDialect rsc) = some (.str s) → d.commentPrefix = some s) ∧
    (prop "commentChar" (csvDialect rsc) = none → d.commentPrefix = none)
  encoding : (∀ s, prop "encoding" rsc = some (.str s) → s ≠ [] → lk (encodingMap s) = .ok () → d.encoding = s) ∧
    (prop "encoding" rsc = none → d.encoding = "utf-8".toList)
  others : d.skipRows = 0 ∧ d.headerRowCount = 1 ∧ d.skipColumns = 0 ∧ d.skipBlankRows = false ∧ d.trim = .false_ ∧
    d.lineTerminators = [.str "\r\n".toList, .str "\n".toList]

/-- The table is the one for the resource. -/
structure ResourceTable (ext : Ext) (other : Base → Derived → J → Res Val) (lk : EncLookup) (resources : List J) (rsc : List (Str × J))
    (t : TableD) : Prop where
  url : ∃ p, prop "path" rsc = some (.str p) ∧ t.like.url = some p
  columns : ∃ schema fields, prop "schema" rsc = some (.obj schema) ∧ prop "fields" schema = some (.arr fields) ∧
    All2 (fun j c => ∃ f, j = .obj f ∧ FieldColumn ext other f c) fields t.like.schema.columns
  primaryKey : ∀ schema j l, prop "schema" rsc = some (.obj schema) → prop "primaryKey" schema = some j → Names j l →
    (∀ c ∈ t.like.schema.columns, c.name ≠ none ∧ c.name ≠ some []) → t.like.schema.primaryKey = some l
  null : ∀ schema l, prop "schema" rsc = some (.obj schema) → prop "missingValues" schema = some (.arr (l.map .str)) →
    t.like.schema.props.null = l
  noForeignKeys : ∀ schema, prop "schema" rsc = some (.obj schema) → prop "foreignKeys" schema = none → t.like.schema.foreignKeys = []
  foreignKeys : ∀ schema l, prop "schema" rsc = some (.obj schema) → prop "foreignKeys" schema = some (.arr l) →
    All2 (SameKey resources rsc) l t.like.schema.foreignKeys
  dialect : ∃ d, t.like.dialect = some d ∧ SameDialect lk rsc d

end Csvw.Spec.Frictionless
