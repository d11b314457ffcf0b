import Verif.Model.Metadata2
/-!
# Frictionless data packages

Model of `/repo/src/csvw/frictionless.py` 15–219. Simplification: values which the specification of data packages does not allow (e.g.
a field which is no object, or `constraints` which are no object) are not modelled (`notImplemented`); the order of errors is not
modelled.
-/

namespace Csvw.Frictionless

/-- `d[k]`. -/
def item (k : String) (m : List (Str × J)) : Res J :=
  match Dict.get k.toList m with
  | none => .error .keyError
  | some v => .ok v

/-- A JSON object. -/
def asObj : J → Res (List (Str × J))
  | .obj m => .ok m
  | _ => .error .notImplemented

/-- A JSON array. -/
def asArr : J → Res (List J)
  | .arr l => .ok l
  | _ => .error .notImplemented

/-- A function for all items of an array. -/
def forAll {α : Type} (f : J → Res α) : List J → Res (List α)
  | [] => .ok []
  | a :: r => match f a with
    | .error e => .error e
    | .ok b => (forAll f r).map (b :: ·)

/-- `if k in m: res[k'] = m[k]`: the item which is added. -/
def optItem (k k' : String) (m : List (Str × J)) : List (Str × J) :=
  match Dict.get k.toList m with
  | some v => [(k'.toList, v)]
  | none => []

/-! ## Columns -/

/-- `v[0]` in `'{}|{}'.format(v[0], …)` (44–45) for a list whose first item is a string. -/
def firstStr : J → Res Str
  | .arr (.str s :: _) => .ok s
  | _ => .error .notImplemented

/-- `{'base': b}` (29). -/
def baseOnly (b : String) : List (Str × J) := [("base".toList, .str b.toList)]

/-- The datatype of a string field (41–42). -/
def stringType (spec : List (Str × J)) : List (Str × J) :=
  if (argOf "format" spec).truthy then baseOnly "string" ++ [("dc:format".toList, argOf "format" spec)] else baseOnly "string"

/-- The datatype of a boolean field (43–45). -/
def booleanType (spec : List (Str × J)) : Res (List (Str × J)) :=
  if (argOf "trueValues" spec).truthy && (argOf "falseValues" spec).truthy then do
    let t ← firstStr (argOf "trueValues" spec)
    let f ← firstStr (argOf "falseValues" spec)
    return baseOnly "boolean" ++ [("format".toList, .str (t ++ '|' :: f))]
  else .ok (baseOnly "boolean")

/-- The format of a numeric field (53–57). -/
def numberFormat (spec : List (Str × J)) : List (Str × J) :=
  (["decimalChar", "groupChar"].filter fun p => (argOf p spec).truthy).map fun p => (p.toList, argOf p spec)

/-- The datatype of a numeric field (46–57); `bareNumber` raises `NotImplementedError`. -/
def numberType (b : String) (spec : List (Str × J)) : Res (List (Str × J)) :=
  if argOf "bareNumber" spec = .bool true then .error .notImplemented
  else if Dict.has "decimalChar".toList spec || Dict.has "groupChar".toList spec then
    .ok (baseOnly b ++ [("format".toList, .obj (numberFormat spec))])
  else .ok (baseOnly b)

/-- The datatype for the type of a field (30–63), before constraints are added. -/
def fieldType (spec : List (Str × J)) : Res (List (Str × J)) :=
  match Dict.get "type".toList spec with
  | none => .ok (baseOnly "string")
  | some (.str t) =>
    if t = "string".toList then
      if argOf "format" spec = .str "binary".toList then .ok (baseOnly "binary")
      else if argOf "format" spec = .str "uri".toList then .ok (baseOnly "anyURI")
      else .ok (stringType spec)
    else if t = "year".toList then .ok (baseOnly "gYear")
    else if t = "yearmonth".toList then .ok (baseOnly "gYearMonth")
    else if t = "boolean".toList then booleanType spec
    else if t = "number".toList then numberType "number" spec
    else if t = "integer".toList then numberType "integer" spec
    else if t = "date".toList then .ok (baseOnly "date")
    else if t = "time".toList then .ok (baseOnly "time")
    else if t = "datetime".toList then .ok (baseOnly "datetime")
    else if t = "duration".toList then .ok (baseOnly "duration")
    else if t = "object".toList || t = "array".toList then .ok (baseOnly "json" ++ [("dc:format".toList, .str "application/json".toList)])
    else if t = "geojson".toList then .ok (baseOnly "json" ++ [("dc:format".toList, .str "application/geo+json".toList)])
    else .ok (baseOnly "string")
  | some (.arr _) | some (.obj _) => .error .typeError
  | some _ => .ok (baseOnly "string")

/-- Copy a constraint (74–75). -/
def addConstraint (cs : List (Str × J)) (dt : List (Str × J)) (prop : String) : List (Str × J) :=
  match Dict.get prop.toList cs with
  | some v => Dict.set prop.toList v dt
  | none => dt

/-- A pattern is used as format unless there is one (76–77). -/
def addPattern (cs : List (Str × J)) (dt : List (Str × J)) : List (Str × J) :=
  match Dict.get "pattern".toList cs with
  | some v => if Dict.has "format".toList dt then dt else Dict.set "format".toList v dt
  | none => dt

/-- One step of the loop over the constraints (73–77). -/
def constrain (cs : List (Str × J)) (dt : List (Str × J)) (prop : String) : List (Str × J) := addPattern cs (addConstraint cs dt prop)

/-- The constraints which are copied (73). -/
def constraintNames : List String := ["required", "minLength", "maxLength", "minimum", "maximum"]

/-- `spec.get('constraints', {})` (72). -/
def constraintsOf (spec : List (Str × J)) : Res (List (Str × J)) :=
  match Dict.get "constraints".toList spec with
  | none => .ok []
  | some j => asObj j

/-- The optional items of a column (65–70). -/
def columnItems (spec : List (Str × J)) : List (Str × J) :=
  (if (argOf "title" spec).truthy then [("titles".toList, .arr [argOf "title" spec])] else []) ++
  ((match Dict.get "description".toList spec with | some v => [("dc:description".toList, .arr [v])] | none => []) ++
  optItem "rdfType" "propertyUrl" spec)

/-- `convert_column_spec` (15–80). -/
def convertColumn (j : J) : Res J := do
  let spec ← asObj j
  let name ← item "name" spec
  let dt ← fieldType spec
  let cs ← constraintsOf spec
  return .obj (("name".toList, name) :: ("datatype".toList, .obj (constraintNames.foldl (constrain cs) dt)) :: columnItems spec)

/-! ## Schemas -/

/-- A key of a dictionary must be hashable. -/
def hashable : J → Bool
  | .arr _ | .obj _ => false
  | _ => true

/-- `resource_map[k]`. (Names are strings; other keys are only equal if they are the same JSON value.) -/
def lookup (k : J) (rm : List (J × J)) : Res J :=
  if hashable k then match Dict.get k rm with
    | some v => .ok v
    | none => .error .keyError
  else .error .typeError

/-- `convert_foreignKey` (83–95). -/
def convertForeignKey (rscName : J) (rm : List (J × J)) (j : J) : Res J := do
  let fk ← asObj j
  let fields ← item "fields" fk
  let rj ← item "reference" fk
  let r ← asObj rj
  let refFields ← item "fields" r
  let name ← item "resource" r
  let resource ← lookup (if name.truthy then name else rscName) rm
  return .obj [("columnReference".toList, fields),
    ("reference".toList, .obj [("columnReference".toList, refFields), ("resource".toList, resource)])]

/-- The foreign keys of a schema (121–122). -/
def convertForeignKeys (rscName : J) (rm : List (J × J)) (schema : List (Str × J)) : Res (List (Str × J)) :=
  match Dict.get "foreignKeys".toList schema with
  | none => .ok []
  | some j => do
    let l ← asArr j
    let fks ← forAll (convertForeignKey rscName rm) l
    return [("foreignKeys".toList, .arr fks)]

/-- `convert_table_schema` (98–123). -/
def convertSchema (rscName : J) (rm : List (J × J)) (j : J) : Res J := do
  let schema ← asObj j
  let fj ← item "fields" schema
  let fields ← asArr fj
  let columns ← forAll convertColumn fields
  let fks ← convertForeignKeys rscName rm schema
  return .obj (("columns".toList, .arr columns) ::
    (optItem "missingValues" "null" schema ++ (optItem "primaryKey" "primaryKey" schema ++ fks)))

/-! ## Dialects -/

/-- `rsc.get('dialect', {})`, or the `csv` dialect in it (132–135). -/
def dialectOf (rsc : List (Str × J)) : Res (List (Str × J)) :=
  match Dict.get "dialect".toList rsc with
  | none => .ok []
  | some j => do
    let d ← asObj j
    match Dict.get "csv".toList d with
    | none => return d
    | some j => asObj j

/-- Copy a property of the dialect (141–149). -/
def copyProp (d : List (Str × J)) (res : List (Str × J)) (prop : String) : List (Str × J) :=
  match Dict.get prop.toList d with
  | some v => Dict.set prop.toList v res
  | none => res

/-- `convert_dialect` (126–152). -/
def convertDialect (rsc : List (Str × J)) : Res J := do
  let d ← dialectOf rsc
  let res : List (Str × J) := if (argOf "delimiter" d).truthy then [("delimiter".toList, argOf "delimiter" d)] else []
  let res := if (argOf "encoding" rsc).truthy then Dict.set "encoding".toList (argOf "encoding" rsc) res else res
  let res := ["delimiter", "quoteChar", "doubleQuote", "skipInitialSpace", "header"].foldl (copyProp d) res
  return .obj (match Dict.get "commentChar".toList d with
    | some v => Dict.set "commentPrefix".toList v res
    | none => res)

/-! ## Data packages -/

/-- The properties of a package and those of a table group (183–195). -/
def packageProps : List (String × String) :=
  [("id", "dc:identifier"), ("licenses", "dc:license"), ("title", "dc:title"), ("homepage", "dcat:accessURL"),
   ("description", "dc:description"), ("sources", "dc:source"), ("contributors", "dc:contributor"), ("profile", "dc:conformsTo"),
   ("keywords", "dc:subject"), ("created", "dc:created")]

/-- Copy a property of the package (195–196). -/
def copyMeta (pkg : List (Str × J)) (md : List (Str × J)) (p : String × String) : List (Str × J) :=
  match Dict.get p.1.toList pkg with
  | some v => Dict.set p.2.toList v md
  | none => md

/-- The name of the package is used as identifier or title (198–202). -/
def nameMeta (pkg : List (Str × J)) (md : List (Str × J)) : List (Str × J) :=
  match Dict.get "name".toList pkg with
  | none => md
  | some n =>
    if !Dict.has "id".toList pkg then Dict.set "dc:identifier".toList n md
    else if !Dict.has "title".toList pkg then Dict.set "dc:title".toList n md
    else md

/-- The resources with a path (205). -/
def withPath : List J → Res (List (List (Str × J)))
  | [] => .ok []
  | j :: r => match asObj j with
    | .error e => .error e
    | .ok m => (withPath r).map fun l => if Dict.has "path".toList m then m :: l else l

/-- `resource_map` (206). -/
def resourceMap : List (List (Str × J)) → Res (List (J × J))
  | [] => .ok []
  | m :: r => do
    let rest ← resourceMap r
    match Dict.get "name".toList m with
    | none => return rest
    | some n => if hashable n then return (n, argOf "path" m) :: rest else .error .typeError

/-- The test of line 209–211. -/
def isTabular (rsc : List (Str × J)) : Bool :=
  (argOf "schema" rsc).truthy && decide (argOf "scheme" rsc = .str "file".toList) && decide (argOf "format" rsc = .str "csv".toList)

/-- The table for a resource (214–218). -/
def convertResource (rm : List (J × J)) (rsc : List (Str × J)) : Res J := do
  let schema ← convertSchema (argOf "name" rsc) rm (argOf "schema" rsc)
  let dialect ← convertDialect rsc
  return .obj [("url".toList, argOf "path" rsc), ("tableSchema".toList, schema), ("dialect".toList, dialect)]

/-- `resources` (205). -/
def resourcesOf (pkg : List (Str × J)) : Res (List (List (Str × J))) :=
  match Dict.get "resources".toList pkg with
  | none => .ok []
  | some j => do
    let l ← asArr j
    withPath l

/-- The tables (207–219). -/
def convertResources (rm : List (J × J)) : List (List (Str × J)) → Res (List J)
  | [] => .ok []
  | m :: r => if isTabular m then do
      let t ← convertResource rm m
      let ts ← convertResources rm r
      return t :: ts
    else convertResources rm r

/-- The package metadata (176–202); `dumps` is `json.dumps`. -/
def packageMeta (dumps : J → Str) (pkg : List (Str × J)) : List (Str × J) :=
  nameMeta pkg (packageProps.foldl (copyMeta pkg)
    [("@context".toList, .str "http://www.w3.org/ns/csvw".toList), ("dc:replaces".toList, .str (dumps (.obj pkg)))])

/-- The JSON description of the table group (176–219). Of several resources with the same name, the last one counts for references. -/
def convertPackage (dumps : J → Str) (pkg : List (Str × J)) : Res J := do
  let rs ← resourcesOf pkg
  let rm ← resourceMap rs
  let ts ← convertResources (Dict.ofPairs rm) rs
  return .obj (packageMeta dumps pkg ++ (if ts = [] then [] else [("tables".toList, .arr ts)]))

/-- `DataPackage(spec).to_tablegroup()` (173–224) for a JSON object. -/
def toTablegroup (ext : Ext) (x : MExt) (other : Base → Derived → J → Res Val) (lk : EncLookup) (dumps : J → Str) (pkg : J) : Res GroupD := do
  let m ← asObj pkg
  let md ← convertPackage dumps m
  GroupD.fromvalue ext x other lk md

end Csvw.Frictionless
