import Verif.Spec.Common
import Verif.Spec.Dates
import Verif.Model.Datatypes
/-!
# Descriptions without problems

What a JSON description must look like to be read without warnings: no unknown properties, and only values of the right kind. Stated by
the items of the JSON objects, independent of the functions which read them. (From the model: the JSON values, the record `Ext` of external
functions with the compiler of regular expressions and the checker of JSON schemas, and `EncLookup` for names of encodings.)
-/

namespace Csvw.Spec

/-- The object has this property with this value. -/
def Has (m : List (Str × J)) (k : String) (v : J) : Prop := (k.toList, v) ∈ m

/-- Values which count as absent. -/
def Falsy (j : J) : Prop :=
  j = .null ∨ j = .bool false ∨ j = .int 0 ∨ j = .flt "0.0".toList ∨ j = .flt "-0.0".toList ∨ j = .str [] ∨ j = .arr [] ∨ j = .obj []

/-- A string. -/
def IsText (j : J) : Prop := ∃ s, j = .str s
/-- `null` or a string. -/
def IsTextOrNull (j : J) : Prop := j = .null ∨ IsText j
/-- A list of strings. -/
def IsTexts (j : J) : Prop := ∃ l : List Str, j = .arr (l.map .str)
/-- A boolean. -/
def IsFlag (j : J) : Prop := ∃ b, j = .bool b
/-- An integer which is not negative. -/
def IsNumber (j : J) : Prop := ∃ n : Nat, j = .int n
/-- A language tag, as string. -/
def IsTag (tag : Str → Prop) (j : J) : Prop := ∃ s, j = .str s ∧ tag s

/-- The value, or all values in (nested) lists, are of some kind. -/
inductive Listed (P : J → Prop) : J → Prop where
  | one {j : J} : P j → Listed P j
  | list {l : List J} : (∀ j ∈ l, Listed P j) → Listed P (.arr l)

/-! ## Names of properties -/

def inheritedNames : List String :=
  ["aboutUrl", "datatype", "default", "lang", "null", "ordered", "propertyUrl", "required", "separator", "textDirection", "valueUrl"]
def datatypeNames : List String :=
  ["base", "format", "length", "minLength", "maxLength", "minimum", "maximum", "minInclusive", "maxInclusive", "minExclusive", "maxExclusive"]
def columnNames : List String := inheritedNames ++ ["name", "suppressOutput", "titles", "virtual"]
def schemaNames : List String := inheritedNames ++ ["columns", "foreignKeys", "primaryKey", "rowTitles"]
def tableLikeNames : List String := inheritedNames ++ ["dialect", "notes", "tableDirection", "tableSchema", "transformations", "url"]
def tableNames : List String := tableLikeNames ++ ["suppressOutput"]
def groupNames : List String := tableLikeNames ++ ["tables"]

/-! ## Common properties -/

/-- In all objects nested in the value, `@id`s are strings and `@language`s language tags. -/
structure CommonClean (tag : Str → Prop) (v : J) : Prop where
  id : ∀ o, Nested o v → ∀ w, Has o "@id" w → IsText w
  language : ∀ o, Nested o v → ∀ w, Has o "@language" w → IsTag tag w

/-- The properties of an object, as far as they do not depend on its kind. -/
structure AnyClean (tag : Str → Prop) (m : List (Str × J)) : Prop where
  common : ∀ k v, (k, v) ∈ m → CommonProperty k → CommonClean tag v
  id : ∀ v, Has m "@id" v → IsText v

/-- … and its own properties have one of the names. -/
structure PropsClean (tag : Str → Prop) (names : List String) (m : List (Str × J)) : Prop where
  any : AnyClean tag m
  own : ∀ k v, (k, v) ∈ m → OwnProperty k → ∃ n ∈ names, k = n.toList

/-! ## Datatypes -/

def stringBases : List String :=
  ["string", "QName", "gDay", "gMonth", "gMonthDay", "gYear", "gYearMonth", "xml", "html", "anyURI", "NMTOKEN", "normalizedString"]
def decimalBases : List String :=
  ["decimal", "integer", "int", "unsignedInt", "unsignedShort", "unsignedLong", "unsignedByte", "short", "long", "byte", "nonNegativeInteger",
   "positiveInteger", "nonPositiveInteger", "negativeInteger"]
/-- The names of datatypes. -/
def allBases : List String :=
  stringBases ++ decimalBases ++ ["any", "json", "base64Binary", "binary", "hexBinary", "boolean", "datetime", "dateTime", "dateTimeStamp", "date",
    "time", "duration", "dayTimeDuration", "yearMonthDuration", "float", "number", "double"]

/-- The pattern consists of (strings of) the allowed characters. (A pattern should be a string. A list passes as well, or an object, of which
the keys are looked at.) -/
inductive PatternClean : J → Prop where
  | text {s : Str} : (∀ c ∈ s, c ∈ "#0.,;%‰E-+".toList) → PatternClean (.str s)
  | list {l : List J} : (∀ j ∈ l, ∃ c ∈ "#0.,;%‰E-+".toList, j = .str [c]) → PatternClean (.arr l)
  | keys {m : List (Str × J)} : (∀ k v, (k, v) ∈ m → ∃ c ∈ "#0.,;%‰E-+".toList, k = [c]) → PatternClean (.obj m)

/-- The format fits the datatype `b`: it is a regular expression which can be compiled, two texts separated by a vertical bar, a date format, a
number pattern or a JSON schema. -/
structure FormatClean (ext : Ext) (b : String) (f : J) : Prop where
  regex : b ∈ stringBases → Falsy f ∨ (∃ s, f = .str s ∧ ext.re s ≠ none) ∨ (¬ IsText f ∧ ext.re (ext.pyStr f) ≠ none)
  flags : b = "boolean" → Falsy f ∨ ∃ t g, f = .str (t ++ '|' :: g) ∧ '|' ∉ t ∧ '|' ∉ g
  date : b = "date" → Falsy f ∨ ∃ s, (f = .str s ∨ f = .obj [("pattern".toList, .str s)]) ∧ ∃ F mk, IsFormat false s F mk
  number : b ∈ decimalBases → Falsy f ∨ (∃ m, f = .obj m ∧ ∀ p, Has m "pattern" p → PatternClean p) ∨ ((∀ m, f ≠ .obj m) ∧ PatternClean f)
  json : b = "json" → Falsy f ∨ ext.jsonBad f = false

/-- The datatype named by an object. -/
def BaseOf (m : List (Str × J)) (b : String) : Prop := Has m "base" (.str b.toList) ∨ (b = "string" ∧ ∀ v, ¬ Has m "base" v)

/-- The description of a datatype. -/
structure DatatypeClean (ext : Ext) (tag : Str → Prop) (m : List (Str × J)) : Prop where
  props : PropsClean tag datatypeNames m
  base : ∀ v, Has m "base" v → ∃ b ∈ allBases, v = .str b.toList
  format : ∀ b f, BaseOf m b → Has m "format" f → FormatClean ext b f
  /-- The special values are no numbers. -/
  bounds : ∀ b ∈ decimalBases, BaseOf m b → ∀ n ∈ ["minimum", "maximum", "minInclusive", "maxInclusive", "minExclusive", "maxExclusive"],
    ∀ s ∈ ["INF", "-INF", "NaN"], ¬ Has m n (.str s.toList)

/-! ## Inherited properties -/

/-- The values of inherited properties. (Nothing is required of `required`.) -/
structure InheritedClean (ext : Ext) (tag : Str → Prop) (m : List (Str × J)) : Prop where
  urls : ∀ n ∈ ["aboutUrl", "propertyUrl", "valueUrl"], ∀ v, Has m n v → IsTextOrNull v
  datatype : ∀ v, Has m "datatype" v → Falsy v ∨ (∃ b ∈ allBases, v = .str b.toList) ∨ ∃ d, v = .obj d ∧ DatatypeClean ext tag d
  default : ∀ v, Has m "default" v → IsText v
  lang : ∀ v, Has m "lang" v → IsTag tag v
  null : ∀ v, Has m "null" v → IsTextOrNull v ∨ IsTexts v
  ordered : ∀ v, Has m "ordered" v → v = .null ∨ Listed IsFlag v
  separator : ∀ v, Has m "separator" v → v = .null ∨ Listed IsText v
  textDirection : ∀ v, Has m "textDirection" v → v = .null ∨ Listed (fun j => ∃ d ∈ ["ltr", "rtl", "auto", "inherit"], j = .str d.toList) v

/-! ## Columns -/

/-- Titles: a string, a list of strings, or such values for language tags. -/
def TitlesClean (tag : Str → Prop) (v : J) : Prop :=
  IsTextOrNull v ∨ IsTexts v ∨ ∃ m, v = .obj m ∧ ∀ k t, (k, t) ∈ m → tag k ∧ (IsText t ∨ IsTexts t)

structure ColumnClean (ext : Ext) (tag : Str → Prop) (m : List (Str × J)) : Prop where
  props : PropsClean tag columnNames m
  inherited : InheritedClean ext tag m
  name : ∀ v, Has m "name" v → IsTextOrNull v
  flags : ∀ n ∈ ["suppressOutput", "virtual"], ∀ v, Has m n v → IsFlag v
  titles : ∀ v, Has m "titles" v → TitlesClean tag v

/-- The column has this name. -/
def Named (m : List (Str × J)) (n : Str) : Prop := Has m "name" (.str n) ∧ n ≠ []
/-- The column has this title, the first one without language. -/
def Titled (m : List (Str × J)) (t : Str) : Prop := t ≠ [] ∧ (Has m "titles" (.str t) ∨ ∃ l, Has m "titles" (.arr (.str t :: l)))
/-- The header of a column: its name, else its title, else `dflt`. -/
def Headed (m : List (Str × J)) (dflt h : Str) : Prop :=
  Named m h ∨ ((∀ n, ¬ Named m n) ∧ (Titled m h ∨ ((∀ t, ¬ Titled m t) ∧ h = dflt)))

/-! ## Schemas -/

/-- Whitespace, as for the regular expression `\s`. -/
def Blank (c : Char) : Prop := Py.isSpace c = true

structure SchemaClean (ext : Ext) (tag : Str → Prop) (m : List (Str × J)) : Prop where
  props : PropsClean tag schemaNames m
  inherited : InheritedClean ext tag m
  /-- All columns are descriptions without problems, … -/
  columns : ∀ v, Has m "columns" v → ∃ cs : List (List (Str × J)), v = .arr (cs.map .obj) ∧ ∀ c ∈ cs, ColumnClean ext tag c
  /-- … their names do not start with an underscore and have no whitespace, … -/
  names : ∀ cs : List (List (Str × J)), Has m "columns" (.arr (cs.map .obj)) → ∀ c ∈ cs, ∀ n, Named c n → (∀ r, n ≠ '_' :: r) ∧ ∀ a ∈ n, ¬ Blank a
  /-- … and their headers are different, except for virtual columns. (There is only one header for all the columns with neither name nor title.) -/
  headers : ∀ cs : List (List (Str × J)), Has m "columns" (.arr (cs.map .obj)) →
    cs.Pairwise fun c c' => ¬ Has c' "virtual" (.bool true) → ∀ h, Headed c "_col.None".toList h → ¬ Headed c' "_col.None".toList h
  /-- All foreign keys are objects. (An empty object counts as empty list.) -/
  foreignKeys : ∀ v, Has m "foreignKeys" v → v = .null ∨ v = .obj [] ∨ ∃ fs : List (List (Str × J)), v = .arr (fs.map .obj)
  /-- If the last column with a header which is part of the primary key exists, it has a name. (Columns have numbers as headers, then.) -/
  primaryKey : ∀ (cs : List (List (Str × J))) v r, Has m "columns" (.arr (cs.map .obj)) → Has m "primaryKey" v →
    (v = .str r ∨ ∃ l, v = .arr l ∧ .str r ∈ l) → ∀ i c, cs[i]? = some c → Headed c ("_col.".toList ++ (toString (i + 1)).toList) r →
    (∀ j c', i < j → cs[j]? = some c' → ¬ Headed c' ("_col.".toList ++ (toString (j + 1)).toList) r) → ∃ n, Named c n

/-! ## Tables and groups -/

/-- The encoding is known. -/
def KnownEncoding (lk : EncLookup) (e : Str) : Prop := lk (if e = "UTF-8-BOM".toList then "utf-8-sig".toList else e) = .ok ()

structure DialectClean (lk : EncLookup) (tag : Str → Prop) (m : List (Str × J)) : Prop where
  props : AnyClean tag m
  encoding : ∀ v, Has m "encoding" v → ∃ e, v = .str e ∧ KnownEncoding lk e
  texts : ∀ v, Has m "delimiter" v → IsText v
  optional : ∀ v, Has m "commentPrefix" v → IsTextOrNull v
  /-- A list passes. -/
  quoteChar : ∀ v, Has m "quoteChar" v → v = .null ∨ Listed IsText v
  lineTerminators : ∀ v, Has m "lineTerminators" v → ∃ l, v = .arr l
  flags : ∀ n ∈ ["doubleQuote", "header", "skipBlankRows", "skipInitialSpace"], ∀ v, Has m n v →
    IsFlag v ∨ (n = "header" ∧ ∃ c, Has m "headerRowCount" c ∧ ¬ Falsy c)
  counts : ∀ n ∈ ["skipRows", "headerRowCount", "skipColumns"], ∀ v, Has m n v → IsNumber v
  trim : ∀ v, Has m "trim" v → IsFlag v ∨ ∃ t ∈ ["true", "false", "start", "end"], v = .str t.toList

/-- The values of the properties of tables and groups of tables. (Nothing is required of `notes`. A schema which is neither an object nor an
integer nor a boolean is ignored without notice.) -/
structure TableLikeClean (ext : Ext) (lk : EncLookup) (tag : Str → Prop) (m : List (Str × J)) : Prop where
  inherited : InheritedClean ext tag m
  dialect : ∀ v, Has m "dialect" v → IsTextOrNull v ∨ ∃ d, v = .obj d ∧ DialectClean lk tag d
  tableDirection : ∀ v, Has m "tableDirection" v → ∃ d ∈ ["rtl", "ltr", "auto"], v = .str d.toList
  tableSchema : ∀ v, Has m "tableSchema" v → (∀ o, v = .obj o → SchemaClean ext tag o) ∧ (∀ i, v ≠ .int i) ∧ ∀ b, v ≠ .bool b
  /-- The only properties of transformations which are known are the inherited ones, and `_parent`. -/
  transformations : ∀ v, Has m "transformations" v → ∃ l, v = .arr l ∧ ∀ o, .obj o ∈ l → PropsClean tag ("_parent" :: inheritedNames) o
  context : ∀ l, Has m "@context" (.arr l) → ∀ o, .obj o ∈ l → ∀ v, Has o "@language" v → IsTag tag v

structure TableClean (ext : Ext) (lk : EncLookup) (tag : Str → Prop) (m : List (Str × J)) : Prop where
  props : PropsClean tag tableNames m
  like : TableLikeClean ext lk tag m

structure GroupClean (ext : Ext) (lk : EncLookup) (tag : Str → Prop) (m : List (Str × J)) : Prop where
  props : PropsClean tag groupNames m
  like : TableLikeClean ext lk tag m
  /-- All tables are descriptions without problems. (An empty object or text counts as empty list.) -/
  tables : ∀ v, Has m "tables" v → v = .obj [] ∨ v = .str [] ∨ ∃ ts : List (List (Str × J)), v = .arr (ts.map .obj) ∧ ∀ t ∈ ts, TableClean ext lk tag t

end Csvw.Spec
