import Verif.Py.Json
import Verif.Py.Dict
import Verif.Model.Datatypes
import Verif.Model.Dialect
/-!
# Common properties, partitioning of descriptions, natural language properties

Model of `/repo/src/csvw/metadata.py` 45–173, 322–470.
-/

namespace Csvw

/-- `NAMESPACES` (45–94). -/
def namespaces : List (String × String) :=
  [("csvw", "http://www.w3.org/ns/csvw#"), ("rdf", "http://www.w3.org/1999/02/22-rdf-syntax-ns#"),
   ("rdfs", "http://www.w3.org/2000/01/rdf-schema#"), ("xsd", "http://www.w3.org/2001/XMLSchema#"),
   ("dc", "http://purl.org/dc/terms/"), ("dcat", "http://www.w3.org/ns/dcat#"),
   ("prov", "http://www.w3.org/ns/prov#"), ("schema", "http://schema.org/"),
   ("as", "https://www.w3.org/ns/activitystreams#"), ("cc", "http://creativecommons.org/ns#"),
   ("ctag", "http://commontag.org/ns#"), ("dc11", "http://purl.org/dc/elements/1.1/"),
   ("dctypes", "http://purl.org/dc/dcmitype/"), ("dqv", "http://www.w3.org/ns/dqv#"),
   ("duv", "https://www.w3.org/ns/duv#"), ("foaf", "http://xmlns.com/foaf/0.1/"),
   ("gr", "http://purl.org/goodrelations/v1#"), ("grddl", "http://www.w3.org/2003/g/data-view#"),
   ("ical", "http://www.w3.org/2002/12/cal/icaltzd#"), ("jsonld", "http://www.w3.org/ns/json-ld#"),
   ("ldp", "http://www.w3.org/ns/ldp#"), ("ma", "http://www.w3.org/ns/ma-ont#"),
   ("oa", "http://www.w3.org/ns/oa#"), ("odrl", "http://www.w3.org/ns/odrl/2/"), ("og", "http://ogp.me/ns#"),
   ("org", "http://www.w3.org/ns/org#"), ("owl", "http://www.w3.org/2002/07/owl#"),
   ("qb", "http://purl.org/linked-data/cube#"), ("rdfa", "http://www.w3.org/ns/rdfa#"),
   ("rev", "http://purl.org/stuff/rev#"), ("rif", "http://www.w3.org/2007/rif#"),
   ("rr", "http://www.w3.org/ns/r2rml#"), ("sd", "http://www.w3.org/ns/sparql-service-description#"),
   ("sioc", "http://rdfs.org/sioc/ns#"), ("skos", "http://www.w3.org/2004/02/skos/core#"),
   ("skosxl", "http://www.w3.org/2008/05/skos-xl#"), ("sosa", "http://www.w3.org/ns/sosa/"),
   ("ssn", "http://www.w3.org/ns/ssn/"), ("time", "http://www.w3.org/2006/time#"),
   ("v", "http://rdf.data-vocabulary.org/#"), ("vcard", "http://www.w3.org/2006/vcard/ns#"),
   ("void", "http://rdfs.org/ns/void#"), ("wdr", "http://www.w3.org/2007/05/powder#"),
   ("wrds", "http://www.w3.org/2007/05/powder-s#"), ("xhv", "http://www.w3.org/1999/xhtml/vocab#"),
   ("xml", "http://www.w3.org/XML/1998/namespace")]

/-- `CSVW_TERMS` (95–173). -/
def csvwTerms : List String :=
  ["Cell", "Column", "Datatype", "Dialect", "Direction", "ForeignKey", "JSON", "NumericFormat", "Row",
   "Schema", "Table", "TableGroup", "TableReference", "Transformation", "aboutUrl", "base", "columnReference",
   "columns", "commentPrefix", "datatype", "decimalChar", "default", "delimiter", "describes", "dialect",
   "doubleQuote", "encoding", "foreignKeys", "format", "groupChar", "header", "headerRowCount", "json", "lang",
   "length", "lineTerminators", "maxExclusive", "maxInclusive", "maxLength", "maximum", "minExclusive",
   "minInclusive", "minLength", "minimum", "name", "notes", "null", "ordered", "pattern", "primaryKey",
   "propertyUrl", "quoteChar", "reference", "referencedRows", "required", "resource", "row", "rowTitles",
   "rownum", "schemaReference", "scriptFormat", "separator", "skipBlankRows", "skipColumns",
   "skipInitialSpace", "skipRows", "source", "suppressOutput", "tableDirection", "tableSchema", "tables",
   "targetFormat", "textDirection", "titles", "transformations", "trim", "uriTemplate", "url", "valueUrl",
   "virtual"]

/-- `utils.is_url` (utils.py 15–16): `re.match(r'https?://', s)`. -/
def isUrl (s : Str) : Bool := "http://".toList.isPrefixOf s || "https://".toList.isPrefixOf s

/-- The value of a cell: a scalar (`Val.none` for `None`) or a list of scalars. -/
inductive CVal where
  | one (v : Val)
  | many (l : List Val)
  deriving DecidableEq, Repr, Inhabited

/-- External functions of the metadata classes. Nothing is assumed about them unless a theorem says so. -/
structure MExt where
  /-- `language_tags.tags.check` for a string. -/
  tagOk : Str → Bool
  /-- `int(v)` for a JSON value other than `None` and integers (505). -/
  intOf : J → Res Int
  /-- `uritemplate.URITemplate(t).expand(**row)`: keyword arguments are a map from names to values. (A column called `self` makes Python raise a
  TypeError before the call: that is left to this function, which sees every name.) -/
  expand : Str → (Str → Option CVal) → Res Str
  /-- `str(v)` as applied by `csv.writer` to objects which are neither strings nor `None`. -/
  strOf : Val → Str

/-! ## Common properties -/

/-- `isinstance(v, (str, bool, int, decimal.Decimal))` (398). -/
def isLiteral : J → Bool
  | .str _ | .bool _ | .int _ => true
  | _ => false

/-- A string which is allowed as `@type` (415–424). -/
def typeTermOk (s : Str) : Bool :=
  isUrl s || (namespaces.any fun p => s = p.1.toList || (p.1.toList ++ [':']).isPrefixOf s) ||
    csvwTerms.any fun t => s = t.toList

/-- The test of the value of `@type` (412–426). -/
def typeOk : J → Bool
  | .str s => !("_:".toList.isPrefixOf s) && typeTermOk s
  | .arr _ | .obj _ => true
  | _ => false

/-- `valid_id_property` (375–381): `error`: the value starts with `_`; a value which is not a string becomes `None`. -/
def validId : J → Res J
  | .str s => if ['_'].isPrefixOf s then .error .valueError else .ok (.str s)
  | _ => .ok .null

/-- `f(m[k])` if `k in m`. -/
def onKey (k : Str) (m : List (Str × J)) (f : J → Bool) : Bool :=
  match Dict.get k m with
  | none => true
  | some v => f v

/-- `valid_id_property` does not raise. -/
def idOk (v : J) : Bool :=
  match validId v with
  | .ok _ => true
  | .error _ => false

/-- The tests on an object itself (385–426) which raise `ValueError`. -/
def commonObjOk (m : List (Str × J)) : Bool :=
  ((Dict.keys m).all fun k => !(['@'].isPrefixOf k) || k = "@id".toList || k = "@language".toList ||
    k = "@type".toList || k = "@value".toList) &&
  onKey "@value".toList m (fun v => decide (m.length ≤ 1) || (decide (m.length = 2) &&
    (Dict.has "@language".toList m || Dict.has "@type".toList m) && isLiteral v)) &&
  (!Dict.has "@language".toList m || Dict.has "@value".toList m) &&
  onKey "@id".toList m idOk &&
  onKey "@type".toList m typeOk

/-- Is the value of `@language` kept (409–411)? -/
def langKept (x : MExt) : J → Bool
  | .str s => x.tagOk s
  | _ => false

/-- The value of `@id` after `valid_id_property` (407–408). -/
def idValue : J → J
  | .str s => .str s
  | _ => .null

mutual
/-- `valid_common_property` (384–431). The code changes `@id` and deletes `@language` in place before the recursive calls
for all items; here this is done while recursing. (Warnings are not recorded.) -/
def validCommon (x : MExt) : J → Res J
  | .obj m => if commonObjOk m then (validCommonMap x m).map .obj else .error .valueError
  | .arr l => (validCommonList x l).map .arr
  | j => .ok j
/-- The items of an object (427). -/
def validCommonMap (x : MExt) : List (Str × J) → Res (List (Str × J))
  | [] => .ok []
  | (k, v) :: r =>
    if k = "@id".toList then
      match validCommonMap x r with
      | .ok r' => .ok ((k, idValue v) :: r')
      | .error e => .error e
    else if k = "@language".toList && !langKept x v then validCommonMap x r
    else match validCommon x v with
      | .error e => .error e
      | .ok v' => match validCommonMap x r with
        | .ok r' => .ok ((k, v') :: r')
        | .error e => .error e
/-- The items of a list (428–429). -/
def validCommonList (x : MExt) : List J → Res (List J)
  | [] => .ok []
  | v :: r => match validCommon x v with
    | .error e => .error e
    | .ok v' => match validCommonList x r with
      | .ok r' => .ok (v' :: r')
      | .error e => .error e
end

/-! ## `DescriptionBase.partition_properties` -/

/-- Common properties, `@`-properties (without the `@`), the other properties; the names of the properties for which a
warning `Invalid property …` was issued. -/
structure Parts where
  common : List (Str × J) := []
  atProps : List (Str × J) := []
  own : List (Str × J) := []
  warned : List Str := []
  deriving DecidableEq, Repr

/-- The loop of `partition_properties` (452–466). -/
def partitionLoop (x : MExt) (fields : List Str) (typeName : Str) (strict : Bool) :
    List (Str × J) → Parts → Res Parts
  | [], p => .ok p
  | (k, v) :: r, p =>
    if ['@'].isPrefixOf k then
      match (if k = "@id".toList then validId v else .ok v) with
      | .error e => .error e
      | .ok v' =>
        if k = "@type".toList && decide (v' ≠ .str typeName) then .error .valueError
        else partitionLoop x fields typeName strict r { p with atProps := Dict.set (k.drop 1) v' p.atProps }
    else if k.contains ':' then
      match validCommon x v with
      | .error e => .error e
      | .ok v' => partitionLoop x fields typeName strict r { p with common := Dict.set k v' p.common }
    else if strict && !fields.contains k then
      partitionLoop x fields typeName strict r { p with warned := p.warned ++ [k] }
    else partitionLoop x fields typeName strict r { p with own := Dict.set k v p.own }

/-- The keyword arguments used for the other parts in `dict(common_props=c, at_props=a, **dd)` (467). -/
def partNames : List Str := ["common_props".toList, "at_props".toList]

/-- `partition_properties(d, type_name, strict)` (444–467); `none`: it returns `None`, for a truthy value which is not an
object. (An own property called `common_props` or `at_props` is a duplicate keyword argument: `TypeError`.) -/
def partitionProperties (x : MExt) (fields : List Str) (typeName : Str) (strict : Bool) (d : J) : Res (Option Parts) :=
  match d with
  | .obj m => match partitionLoop x fields typeName strict m {} with
    | .error e => .error e
    | .ok p => if p.own.any fun q => partNames.contains q.1 then .error .typeError else .ok (some p)
  | d => if d.truthy then .ok none else .ok (some {})

/-! ## `NaturalLanguage` -/

/-- A `NaturalLanguage` object: language tags (`none`: no language) with lists of strings. -/
abbrev NatLang := List (Option Str × List Str)

/-- The strings in a list. -/
def strsOf : List J → List Str
  | [] => []
  | .str s :: r => s :: strsOf r
  | _ :: r => strsOf r

/-- The titles of one language (344–351). -/
def titlesOf : J → List Str
  | .arr l => strsOf l
  | j => strsOf [j]

/-- `NaturalLanguage(value)` (327–353). -/
def NatLang.construct (x : MExt) : J → Res NatLang
  | .str s => .ok [(none, [s])]
  | .arr l => if l.all J.isStr then .ok [(none, strsOf l)] else .ok []
  | .obj m =>
    if m.all fun p => x.tagOk p.1 then .ok (Dict.ofPairs (m.map fun p => (some p.1, titlesOf p.2)))
    else .error .valueError
  | _ => .error .valueError

/-- One string alone, otherwise the list (357–359, 361). -/
def unlist : List Str → J
  | [s] => .str s
  | l => .arr (l.map .str)

/-- `asdict()` (355–362). -/
def NatLang.asdict (n : NatLang) : J :=
  match n with
  | [(none, l)] => unlist l
  | n => .obj (Dict.ofPairs (n.map fun p => (p.1.getD "und".toList, unlist p.2)))

/-- `add(string, lang)` (364–367). -/
def NatLang.add (n : NatLang) (s : Str) (lang : Option Str) : NatLang :=
  Dict.set lang ((Dict.get lang n).getD [] ++ [s]) n

/-- `getfirst(lang)` (372–373): `none` is `None`. -/
def NatLang.getfirst (n : NatLang) (lang : Option Str := none) : Res (Option Str) :=
  match Dict.get lang n with
  | none => .ok none
  | some [] => .error .indexError
  | some (s :: _) => .ok (some s)

end Csvw
