import Verif.Model.Open
import Verif.Model.Csvw
/-!
# Warnings about descriptions, and `csvwvalidate`

Model of the calls of `warnings.warn` while descriptions are read: `/repo/src/csvw/utils.py` 19–28 and `/repo/src/csvw/metadata.py` 265–272,
331–349, 375–379, 409, 462–464, 617–619, 680–692, 750–755, 898–905, 919–956, 965–969, 988–1004, 1060–1075, 1463–1470, 1746, 1760; of
`CSVW(url, validate=True)` (1644–1688); and of `csvwvalidate` in `/repo/src/csvw/__main__.py` 63–89.

The functions tell whether a warning is issued, provided that no exception is raised.
-/

namespace Csvw.Warn

mutual
/-- `utils.converter` (utils.py 19–28) for an item of a list: `ok` is the test in 25. -/
def item (ok : J → Bool) : J → Bool
  | .arr l => items ok l
  | j => !ok j
/-- … for the items of a list (21). -/
def items (ok : J → Bool) : List J → Bool
  | [] => false
  | j :: r => item ok j || items ok r
end

/-- `utils.converter` (utils.py 19–28) with `allow_list=True`. -/
def conv (ok : J → Bool) (allowNone : Bool) : J → Bool
  | .arr l => items ok l
  | .null => !allowNone && !ok .null
  | j => !ok j

/-- A test of an argument which has a default value. -/
def given (k : String) (f : J → Bool) (m : List (Str × J)) : Bool :=
  match Dict.get k.toList m with
  | some v => f v
  | none => false

mutual
/-- `valid_common_property` (384–431): values of `@id` which are no strings (377), invalid language tags (409). -/
def common (x : MExt) : J → Bool
  | .obj m => commonMap x m
  | .arr l => commonList x l
  | _ => false
def commonMap (x : MExt) : List (Str × J) → Bool
  | [] => false
  | (k, v) :: r =>
    (if k = "@id".toList then !v.isStr else if k = "@language".toList then !langKept x v || common x v else common x v) || commonMap x r
def commonList (x : MExt) : List J → Bool
  | [] => false
  | v :: r => common x v || commonList x r
end

/-- `partition_properties` (452–466) for an object. -/
def parts (x : MExt) (fields : List Str) (strict : Bool) (m : List (Str × J)) : Bool :=
  m.any fun e =>
    if ['@'].isPrefixOf e.1 then decide (e.1 = "@id".toList) && !e.2.isStr
    else if e.1.contains ':' then common x e.2
    else strict && !fields.contains e.1

/-- A bound, parsed (558–562): special values of decimal numbers. -/
def bound (b : Base) (d : Derived) : J → Bool
  | .str s => match b.kind, Datatypes.numFmtOf d with
    | .decimal, .ok f | .integer, .ok f => Datatypes.decWarns f s
    | _, _ => false
  | _ => false

/-- The names of datatypes (523). -/
def isBase : J → Bool
  | .str s => (Base.ofName s).isSome
  | _ => false

/-- `Datatype(…)` (520–524, 557–619). -/
def datatypeSpec (ext : Ext) (s : DatatypeSpec) : Bool :=
  conv isBase true s.base ||
  match Datatype.convBase s.base with
  | .error _ => false
  | .ok b => Datatypes.derivedWarns ext b s.format || match Datatypes.derived ext b s.format with
    | .error _ => false
    | .ok d => ([s.minimum, s.maximum, s.minInclusive, s.maxInclusive, s.minExclusive, s.maxExclusive].any (bound b d)) ||
        match Datatype.badPattern b s.format with
        | .ok bad => bad
        | .error _ => false

/-- `Datatype.fromvalue` (538–555). -/
def datatype (ext : Ext) (x : MExt) : J → Bool
  | .str s => datatypeSpec ext { base := .str s }
  | .obj m => parts x datatypeFields true m || datatypeSpec ext
      { base := (Dict.get "base".toList m).getD (.str "string".toList), format := argOf "format" m, minimum := argOf "minimum" m,
        maximum := argOf "maximum" m, minInclusive := argOf "minInclusive" m, maxInclusive := argOf "maxInclusive" m,
        minExclusive := argOf "minExclusive" m, maxExclusive := argOf "maxExclusive" m }
  | _ => false

/-- `uri_template_property` (265–272). -/
def tmpl (j : J) : Bool := !(decide (j = .null) || j.isStr)

/-- `converter_null` (680–684). -/
def null : J → Bool
  | .null | .str _ => false
  | .arr l => !l.all J.isStr
  | _ => true

/-- The inherited properties (708–734), given as keyword arguments. -/
def descr (ext : Ext) (x : MExt) (m : List (Str × J)) : Bool :=
  tmpl (argOf "aboutUrl" m) || ((argOf "datatype" m).truthy && datatype ext x (argOf "datatype" m)) ||
  given "default" (fun j => !j.isStr) m || given "lang" (fun j => !langKept x j) m || given "null" null m ||
  conv J.isBool true (argOf "ordered" m) || tmpl (argOf "propertyUrl" m) || conv J.isStr true (argOf "separator" m) ||
  conv isTextDirection true (argOf "textDirection" m) || tmpl (argOf "valueUrl" m)

/-- Titles in one language (346–349). -/
def titlesIn : J → Bool
  | .arr l => !l.all J.isStr
  | j => !j.isStr

/-- `converter_titles` (750–755), `NaturalLanguage(v)` (327–353). -/
def titles (x : MExt) : J → Bool
  | .null | .str _ => false
  | .arr l => !l.all J.isStr
  | .obj m => !(m.all fun e => x.tagOk e.1) || m.any fun e => titlesIn e.2
  | _ => true

/-- `Column.fromvalue` for an object (469–470, 759–781). -/
def column (ext : Ext) (x : MExt) (m : List (Str × J)) : Bool :=
  parts x columnFields true m || descr ext x m || conv J.isStr true (argOf "name" m) || given "suppressOutput" (conv J.isBool false) m ||
  titles x (argOf "titles" m) || given "virtual" (conv J.isBool false) m

/-- An object? -/
def isObj : J → Bool
  | .obj _ => true
  | _ => false

/-- `columns` (919–923). -/
def columns (ext : Ext) (x : MExt) : J → Bool
  | .arr l => l.any fun j => match j with
    | .obj m => column ext x m
    | _ => true
  | _ => true

/-- `foreignKeys` (898–905, 924–926). Items other than objects lead to a warning in 26 (utils.py) or 904. -/
def foreignKeys : J → Bool
  | .arr l => l.any fun j => !isObj j
  | .obj m => decide (m ≠ [])
  | _ => false

/-- `col.header` before the column has its number (943, 950). -/
def rawHeader (c : Column) : Str := ((nonEmpty c.name).or (nonEmpty (NatLang.first c.titles))).getD "_col.None".toList

/-- `col.name.startswith('_') or re.search(r'\s', col.name)` (936). -/
def badName (c : Column) : Bool :=
  match nonEmpty c.name with
  | some n => decide (n.head? = some '_') || n.any Py.isSpace
  | none => false

/-- The loop over the columns (933–951): invalid and duplicate names. -/
def names (virtual : Bool) (seen : List Str) : List Column → Bool
  | [] => false
  | c :: r => badName c ||
    if virtual || c.virtual then names true seen r
    else seen.contains (rawHeader c) || names false (rawHeader c :: seen) r

/-- A primary key with a column without name (952–956), for the schema with its columns numbered. -/
def key (s : Schema) (primaryKey : Option (List Str)) : Bool :=
  (primaryKey.getD []).any fun r => match Dict.get r s.columndict with
    | some c => decide (nonEmpty c.name = none)
    | none => false

/-- `Schema(…)` (909–956): the conversions, and the checks of the columns. -/
def schemaObj (ext : Ext) (x : MExt) (other : Base → Derived → J → Res Val) (m : List (Str × J)) : Bool :=
  parts x schemaFields true m || descr ext x m || given "columns" (columns ext x) m || foreignKeys (argOf "foreignKeys" m) ||
  match Schema.fromvalue ext x other (.obj m), convKey (argOf "primaryKey" m) with
  | .ok s, .ok k => names false [] s.columns || key s k
  | _, _ => false

/-- `Schema.fromvalue` (958–970). -/
def schema (ext : Ext) (x : MExt) (other : Base → Derived → J → Res Val) : J → Bool
  | .obj m => schemaObj ext x other m
  | .int _ | .bool _ => true
  | _ => false

/-- `dialect` (988–997, 1033–1036). (A list as `quoteChar` passes the converter; its items are converted.) -/
def dialect (lk : EncLookup) (x : MExt) : J → Bool
  | .null | .str _ => false
  | .obj m => parts x descriptionFields false m || match dialectProps x m with
    | .error _ => false
    | .ok kw => conv J.isStr true (argOf "commentPrefix" kw) || given "quoteChar" (conv J.isStr true) kw ||
      match Dialect.constructMeta lk kw with
      | .ok (_, w) => decide (w ≠ [])
      | .error _ => false
  | _ => true

/-- The admissible values of `tableDirection` (1041). -/
def isDirection (j : J) : Bool := decide (j = .str "rtl".toList) || decide (j = .str "ltr".toList) || decide (j = .str "auto".toList)

/-- `transformations` (1000–1004). -/
def transformations (x : MExt) : J → Bool
  | .arr l => l.any fun j => match j with
    | .obj m => parts x descriptionFields true m
    | _ => false
  | _ => true

/-- `@context` (1062–1075). -/
def context (x : MExt) : J → Bool
  | .arr l => l.any fun j => match j with
    | .obj m => given "@language" (fun v => !langKept x v) m
    | _ => false
  | _ => false

/-- `TableLike(…)` (1008–1079). -/
def like (ext : Ext) (x : MExt) (other : Base → Derived → J → Res Val) (lk : EncLookup) (m : List (Str × J)) : Bool :=
  descr ext x m || dialect lk x (argOf "dialect" m) || given "tableDirection" (conv isDirection false) m ||
  schema ext x other (argOf "tableSchema" m) || given "transformations" (transformations x) m || context x (argOf "@context" m)

/-- `Table.fromvalue` for an object (469–470). -/
def table (ext : Ext) (x : MExt) (other : Base → Derived → J → Res Val) (lk : EncLookup) (m : List (Str × J)) : Bool :=
  parts x tableFields true m || like ext x other lk m

/-- `converter_tables` (1463–1470). -/
def tables (ext : Ext) (x : MExt) (other : Base → Derived → J → Res Val) (lk : EncLookup) : J → Bool
  | .arr l => l.any fun j => match j with
    | .obj m => table ext x other lk m
    | _ => true
  | .obj m => decide (m ≠ [])
  | .str s => decide (s ≠ [])
  | _ => false

/-- `TableGroup.fromvalue` for an object (469–470). -/
def group (ext : Ext) (x : MExt) (other : Base → Derived → J → Res Val) (lk : EncLookup) (m : List (Str × J)) : Bool :=
  parts x groupFields true m || like ext x other lk m || given "tables" (tables ext x other lk) m

/-! ## Opening a data set with validation -/

/-- Finding the metadata (1653–1661, 1746, 1760). -/
def document (w : Locate.World) (url : Str) (mdUrl : Option Str) : Bool :=
  match w.getJson ((nonEmpty mdUrl).getD url) with
  | .error .valueError => match Locate.locateMetadata w url with
    | .ok f => f.warned
    | .error _ => false
  | _ => false

/-- `CSVW(url, md_url, validate=True)` (1644–1688): is `self.warnings` not empty? (The `@base` which is set for URLs (1092–1104) has no
influence.) -/
def init (ext : Ext) (x : MExt) (other : Base → Derived → J → Res Val) (lk : EncLookup) (w : Locate.World) (url : Str)
    (mdUrl : Option Str) : Bool :=
  document w url mdUrl ||
  match Opened.document w url mdUrl with
  | .ok (.obj m, _) => match Dict.get "tables".toList m with
    | none => table ext x other lk m
    | some _ => group ext x other lk m
  | _ => false

end Warn

/-- The described table for reading, if it is not in a group. -/
def TableD.single (t : TableD) : Table :=
  { props := t.like.props, schema := t.like.schema, dialect := t.like.dialect, url := t.like.url.getD [] }

/-- The `CSVW` object (1644–1688), as used by `is_valid`; `warned`: are there warnings? -/
def Opened.dataset (o : Opened) (warned : Bool) : Dataset :=
  { desc := match o.desc with
      | .table t => .inl t.single
      | .group g => .inr g.group
    warned }

/-- `csvwvalidate` (`/repo/src/csvw/__main__.py` 63–89): the exit status. Exceptions other than `ValueError` are not caught. What is printed
is not modelled. -/
def csvwvalidate (ext : Ext) (x : MExt) (other : Base → Derived → J → Res Val) (lk : EncLookup) (o : OpenExt) (w : Locate.World) (eq : Table.PyEq)
    (data : Str → Str) (url : Str) : Res Nat :=
  match Opened.init ext x other lk o w url none with
  | .error .valueError => .ok 2
  | .error e => .error e
  | .ok op => match (op.dataset (Warn.init ext x other lk w url none)).isValid ext x eq data with
    | .error .valueError => .ok 2
    | .error e => .error e
    | .ok (true, _) => .ok 0
    | .ok (false, _) => .ok 1

end Csvw
