import Verif.Model.Metadata
/-!
# Tables and table groups from and to JSON

Model of `TableLike`, `Table` and `TableGroup` in `/repo/src/csvw/metadata.py` 988–1079, 1180–1220, 1463–1495 with the `Dialect` of
`metadata.py` 187–208. Schemas and dialects given by links are not modelled here (`notImplemented`); see `Model/Links`.
-/

namespace Csvw

/-! ## Dialects -/

/-- `Dialect(**kw)` of `metadata.py` (187–208): the default of `commentPrefix`, also for invalid values, is `None`. -/
def Dialect.constructMeta (lk : EncLookup) (kw : List (Str × J)) : Res (Dialect × List Str) :=
  Dialect.construct lk (Dict.set "commentPrefix".toList (converter J.isStr .null true (argOf "commentPrefix" kw)).1 kw)

/-- The default dialect of `metadata.py`. -/
def Dialect.metaDefault : Dialect := { commentPrefix := none }

/-- `Dialect.asdict()` (dsv_dialects.py 142–143, utils.py 48–58) for the `Dialect` of `metadata.py`. -/
def Dialect.asdictMeta (d : Dialect) : List (Str × J) :=
  d.fields.filter fun p => !decide (Dict.get p.1 Dialect.metaDefault.fields = some p.2)

/-- `dialect_props` (988–997) for an object: its own properties, where a truthy `headerRowCount` implies `header`. -/
def dialectProps (x : MExt) (m : List (Str × J)) : Res (List (Str × J)) :=
  match partitionProperties x descriptionFields "Dialect".toList false (.obj m) with
  | .error e => .error e
  | .ok none => .error .typeError
  | .ok (some p) => .ok (if (argOf "headerRowCount" p.own).truthy then Dict.set "header".toList (.bool true) p.own else p.own)

/-- `dialect` (1033–1036): values other than objects, strings and `None` count as empty objects (989–991). -/
def convDialect (lk : EncLookup) (x : MExt) : J → Res (Option Dialect)
  | .null => .ok none
  | .str _ => .error .notImplemented
  | .obj m => do
    let kw ← dialectProps x m
    let (d, _) ← Dialect.constructMeta lk kw
    return some d
  | _ => (Dialect.constructMeta lk []).map fun r => some r.1

/-! ## `TableLike` -/

/-- A `TableLike` (1008–1079); the file name is not modelled. -/
structure TableLike where
  props : Descr := {}
  dialect : Option Dialect := none
  notes : J := .arr []
  tableDirection : Str := "auto".toList
  schema : Schema := {}
  transformations : J := .arr []
  url : Option Str := none
  deriving DecidableEq, Repr

/-- The names of the attributes of `TableLike` (1033–1053). -/
def likeFields : List Str :=
  descriptionFields ++ ["dialect", "notes", "tableDirection", "tableSchema", "transformations", "url", "_fname"].map String.toList

/-- `tableDirection` (1038–1042). (A list passes the converter but not the validator.) -/
def convDirection : Option J → Res Str
  | none => .ok "auto".toList
  | some j => match (converter (fun j => decide (j = .str "rtl".toList) || decide (j = .str "ltr".toList) || decide (j = .str "auto".toList))
      (.str "auto".toList) false j).1 with
    | .str s => .ok s
    | _ => .error .valueError

/-- The test of an item of `transformations` (1003–1004). Simplification: objects with common properties, which are changed in place,
are not modelled. -/
def checkTransformation (x : MExt) (j : J) : Res Unit :=
  match partitionProperties x descriptionFields "Template".toList true j with
  | .error e => .error e
  | .ok (some p) => if p.common = [] then .ok () else .error .notImplemented
  | .ok none => .ok ()

/-- `transformations` (1000–1004, 1046–1049): the value is kept. Objects and strings are iterated over (their keys or characters are no
objects, so that nothing is tested). -/
def convTransformations (x : MExt) : Option J → Res J
  | none => .ok (.arr [])
  | some (.arr l) => (mapRes (checkTransformation x) l).map fun _ => .arr l
  | some (.obj m) => .ok (.obj m)
  | some (.str s) => .ok (.str s)
  | some _ => .error .typeError

/-- The tests of an `@context` array (1062–1077); invalid language tags are removed. Simplification: `tags.check` of values other than
strings is not modelled. -/
def cleanContext (x : MExt) : List J → Res (List J)
  | [] => .ok []
  | .obj m :: r =>
    if m.any fun e => !["@base".toList, "@language".toList].contains e.1 then .error .valueError
    else match Dict.get "@language".toList m with
      | none => (cleanContext x r).map (.obj m :: ·)
      | some (.str s) =>
        if x.tagOk s then (cleanContext x r).map (.obj m :: ·)
        else (cleanContext x r).map (.obj (Dict.erase "@language".toList m) :: ·)
      | some _ => .error .notImplemented
  | .str s :: r => if s = "http://www.w3.org/ns/csvw".toList then (cleanContext x r).map (.str s :: ·) else .error .valueError
  | j :: r => (cleanContext x r).map (j :: ·)

/-- The part of `__attrs_post_init__` concerning `@`-properties (1060–1077). Simplification: an `@id` which is no string, replaced by the
base URL, is not modelled. -/
def postInit (x : MExt) (a : List (Str × J)) : Res (List (Str × J)) :=
  if Dict.get "id".toList a = some .null then .error .notImplemented
  else match Dict.get "context".toList a with
    | some (.arr l) => (cleanContext x l).map fun l' => Dict.set "context".toList (.arr l') a
    | _ => .ok a

/-- `TableLike(**…)` (1008–1079). -/
def TableLike.ofParts (ext : Ext) (x : MExt) (other : Base → Derived → J → Res Val) (lk : EncLookup) (p : Parts) : Res TableLike := do
  let d ← Descr.ofParts ext x other p
  let dialect ← convDialect lk x (argOf "dialect" p.own)
  let tableDirection ← convDirection (Dict.get "tableDirection".toList p.own)
  let schema ← Schema.fromvalue ext x other (argOf "tableSchema" p.own)
  let transformations ← convTransformations x (Dict.get "transformations".toList p.own)
  let url ← convLink (argOf "url" p.own)
  let atProps ← postInit x d.atProps
  return { props := { d with atProps }, dialect, notes := (Dict.get "notes".toList p.own).getD (.arr []), tableDirection, schema,
           transformations, url }

/-- The dialect as item of `asdict` (utils.py 55–57). -/
def dialectJson : Option Dialect → J
  | none => .null
  | some d => .obj d.asdictMeta

/-- The items of `asdict` for the attributes of `TableLike` except the inherited properties (473–490). The schema is always written
without defaults (utils.py 56). -/
def TableLike.items (ext : Ext) (t : TableLike) : Res (List (String × J × J)) := do
  let schema ← t.schema.asdict ext true
  return [("dialect", dialectJson t.dialect, .null), ("notes", t.notes, .arr []),
    ("tableDirection", .str t.tableDirection, .str "auto".toList), ("tableSchema", schema, .null),
    ("transformations", t.transformations, .arr []), ("url", .ofOptStr t.url, .null)]

/-! ## Tables -/

/-- The description of a table (1180–1218). -/
structure TableD where
  like : TableLike := {}
  suppressOutput : J := .bool false
  deriving DecidableEq, Repr

def tableFields : List Str := likeFields ++ ["suppressOutput".toList]

/-- `Table(**…)` (1195, 1214–1218): a URL is required. -/
def TableD.ofParts (ext : Ext) (x : MExt) (other : Base → Derived → J → Res Val) (lk : EncLookup) (p : Parts) : Res TableD := do
  let like ← TableLike.ofParts ext x other lk p
  if like.url = none then .error .valueError
  else return { like, suppressOutput := (Dict.get "suppressOutput".toList p.own).getD (.bool false) }

/-- `Table.fromvalue` (469–470). -/
def TableD.fromvalue (ext : Ext) (x : MExt) (other : Base → Derived → J → Res Val) (lk : EncLookup) : J → Res TableD :=
  fromParts x tableFields "Table" (TableD.ofParts ext x other lk)

/-- Numbers equal to `False` in Python. -/
def J.zero : J → Bool
  | .int i => decide (i = 0)
  | .flt s => !(J.flt s).truthy
  | _ => false

/-- `Table.asdict` (492–500). The value of `suppressOutput` is compared with `False` (utils.py 54), to which `0` is equal. -/
def TableD.asdict (ext : Ext) (od : Bool) (t : TableD) : Res J := do
  let items ← t.like.props.items ext od
  let l ← t.like.items ext
  return .obj (asdictOf t.like.props.atProps t.like.props.common (items ++ attrItems od
    (l ++ [("suppressOutput", t.suppressOutput, if t.suppressOutput.zero then t.suppressOutput else .bool false)])))

/-! ## Table groups -/

/-- The description of a table group (1474–1495). -/
structure GroupD where
  like : TableLike := {}
  tables : List TableD := []
  deriving DecidableEq, Repr

def groupFields : List Str := likeFields ++ ["tables".toList]

/-- `converter_tables` (1463–1470); the default is an empty list. -/
def convTables (ext : Ext) (x : MExt) (other : Base → Derived → J → Res Val) (lk : EncLookup) : Option J → Res (List TableD)
  | none => .ok []
  | some (.arr l) => mapObjs (fun m => TableD.fromvalue ext x other lk (.obj m)) l
  | some (.obj _) | some (.str _) => .ok []
  | some _ => .error .typeError

/-- `TableGroup(**…)` (1490–1495). -/
def GroupD.ofParts (ext : Ext) (x : MExt) (other : Base → Derived → J → Res Val) (lk : EncLookup) (p : Parts) : Res GroupD := do
  let like ← TableLike.ofParts ext x other lk p
  let tables ← convTables ext x other lk (Dict.get "tables".toList p.own)
  return { like, tables }

/-- `TableGroup.fromvalue` (469–470). -/
def GroupD.fromvalue (ext : Ext) (x : MExt) (other : Base → Derived → J → Res Val) (lk : EncLookup) : J → Res GroupD :=
  fromParts x groupFields "TableGroup" (GroupD.ofParts ext x other lk)

/-- `TableGroup.asdict` (492–500). -/
def GroupD.asdict (ext : Ext) (od : Bool) (g : GroupD) : Res J := do
  let items ← g.like.props.items ext od
  let l ← g.like.items ext
  let tables ← mapRes (TableD.asdict ext od) g.tables
  return .obj (asdictOf g.like.props.atProps g.like.props.common (items ++ attrItems od (l ++ [("tables", .arr tables, .arr [])])))

/-- The table with what it inherits from the group, as used for reading and writing (1493–1494: `_parent` of the tables is the group). -/
def GroupD.table (g : GroupD) (t : TableD) : Table :=
  { props := t.like.props, schema := t.like.schema, dialect := t.like.dialect, url := t.like.url.getD [],
    group := some (g.like.props, g.like.dialect) }

/-- The group as used for reading and writing. -/
def GroupD.group (g : GroupD) : TableGroup := { tables := g.tables.map g.table }

end Csvw
