import Verif.Model.Files
import Verif.Model.Open
/-!
# Schemas and dialects given by links

Model of the parts of `/repo/src/csvw/metadata.py` which replace a link to a schema or to a dialect by the document it points to:
`get_json` (218–223), `Schema.fromvalue` for a string (958–971), `TableLike.__attrs_post_init__` for a string as dialect (1055–1057), and
`TableLike.from_url` (1092–1104). `Model/Metadata2` models the same functions for documents without such links.
-/

namespace Csvw.Links

/-- `get_json` (218–223). What `requests.get(…)` answers is `fx.fetch`, `json` is `fx.loads`. Simplification: a zip archive, which is no
JSON, is not modelled. -/
def getJson (fx : FExt) (d : Disk) : Loc → Res J
  | .url u => match fx.fetch u with
    | .error e => .error e
    | .ok s => fx.loads s
  | .file p => match d.files p with
    | some (.text s) => fx.loads s
    | some (.zip _) => .error .notImplemented
    | none => .error .osError

/-- `Schema.fromvalue` (958–971). A string is requested whatever it is; whatever goes wrong then (`requests` raises an exception for
strings which are no URLs), the string itself becomes the `tableSchema`. Simplification: the model raises the `AttributeError` of the first
use of such a schema at once. Values other than objects count as empty objects (967–970), also if they were requested. -/
def schemaOf (ext : Ext) (x : MExt) (other : Base → Derived → J → Res Val) (fx : FExt) (d : Disk) : J → Res Schema
  | .str s =>
    if isUrl s then
      match getJson fx d (.url s) with
      | .ok (.obj m) => Schema.fromvalue ext x other (.obj m)
      | .ok _ => Schema.fromvalue ext x other (.obj [])
      | .error _ => .error .attributeError
    else .error .attributeError
  | j => Schema.fromvalue ext x other j

/-- The dialect (1033–1036, 1056–1057): a link is resolved against the base of the description while it is constructed, when it has
neither parent nor file name. What is no object counts as empty object (989–991). -/
def dialectOf (lk : EncLookup) (x : MExt) (fx : FExt) (d : Disk) (a : List (Str × J)) : J → Res (Option Dialect)
  | .str s =>
    match baseOf fx a none none with
    | .error e => .error e
    | .ok b => match getJson fx d (resolveLink fx d s b) with
      | .error e => .error e
      | .ok (.obj m) => convDialect lk x (.obj m)
      | .ok _ => convDialect lk x (.obj [])
  | j => convDialect lk x j

/-- `TableLike(**…)` (1008–1079). -/
def likeOf (ext : Ext) (x : MExt) (other : Base → Derived → J → Res Val) (lk : EncLookup) (fx : FExt) (dk : Disk) (p : Parts) :
    Res TableLike := do
  let d ← Descr.ofParts ext x other p
  let dialect ← dialectOf lk x fx dk p.atProps (argOf "dialect" p.own)
  let tableDirection ← convDirection (Dict.get "tableDirection".toList p.own)
  let schema ← schemaOf ext x other fx dk (argOf "tableSchema" p.own)
  let transformations ← convTransformations x (Dict.get "transformations".toList p.own)
  let url ← convLink (argOf "url" p.own)
  let atProps ← postInit x d.atProps
  return { props := { d with atProps }, dialect, notes := (Dict.get "notes".toList p.own).getD (.arr []), tableDirection, schema,
           transformations, url }

/-- `Table(**…)` (1195, 1214–1218): a URL is required. -/
def tableOf (ext : Ext) (x : MExt) (other : Base → Derived → J → Res Val) (lk : EncLookup) (fx : FExt) (d : Disk) (p : Parts) :
    Res TableD := do
  let like ← likeOf ext x other lk fx d p
  if like.url = none then .error .valueError
  else return { like, suppressOutput := (Dict.get "suppressOutput".toList p.own).getD (.bool false) }

/-- `Table.fromvalue` (469–470). -/
def tableFrom (ext : Ext) (x : MExt) (other : Base → Derived → J → Res Val) (lk : EncLookup) (fx : FExt) (d : Disk) : J → Res TableD :=
  fromParts x tableFields "Table" (tableOf ext x other lk fx d)

/-- `converter_tables` (1463–1470). -/
def tablesFrom (ext : Ext) (x : MExt) (other : Base → Derived → J → Res Val) (lk : EncLookup) (fx : FExt) (d : Disk) :
    Option J → Res (List TableD)
  | none => .ok []
  | some (.arr l) => mapObjs (fun m => tableFrom ext x other lk fx d (.obj m)) l
  | some (.obj _) | some (.str _) => .ok []
  | some _ => .error .typeError

/-- `TableGroup(**…)` (1490–1495). -/
def groupOf (ext : Ext) (x : MExt) (other : Base → Derived → J → Res Val) (lk : EncLookup) (fx : FExt) (d : Disk) (p : Parts) :
    Res GroupD := do
  let like ← likeOf ext x other lk fx d p
  let tables ← tablesFrom ext x other lk fx d (Dict.get "tables".toList p.own)
  return { like, tables }

/-- `TableGroup.fromvalue` (469–470). -/
def groupFrom (ext : Ext) (x : MExt) (other : Base → Derived → J → Res Val) (lk : EncLookup) (fx : FExt) (d : Disk) : J → Res GroupD :=
  fromParts x groupFields "TableGroup" (groupOf ext x other lk fx d)

/-- The link of the schema of a table description is replaced by a URL (1102–1103): `Link(…).resolve(data['@base'])`. -/
def resolveSchema (fx : FExt) (b : J) : J → Res J
  | .obj m => match Dict.get "tableSchema".toList m with
    | some (.str s) => match b with
      | .str b => .ok (.obj (Dict.set "tableSchema".toList (.str (if b = [] then s else fx.urljoin b s)) m))
      | _ => .error .notImplemented
    | _ => .ok (.obj m)
  | j => .ok j

/-- The loop over `data.get('tables', [data])` (1101–1103), for the document `m` with the `@base` `b`. Iterating over an object or a
string gives strings, which are left alone. Simplification: for a `@base` which is no string this is not modelled. -/
def resolveSchemas (fx : FExt) (b : J) (m : List (Str × J)) : Res J :=
  match Dict.get "tables".toList m with
  | none => resolveSchema fx b (.obj m)
  | some (.arr l) => match mapRes (resolveSchema fx b) l with
    | .error e => .error e
    | .ok l' => .ok (.obj (Dict.set "tables".toList (.arr l') m))
  | some (.obj _) | some (.str _) => .ok (.obj m)
  | some _ => .error .typeError

/-- `from_url` (1092–1104) with the document given as data: the `@base`, unless there is one already, is the URL without parameters, query
and fragment. `cls` is `Table.fromvalue` or `TableGroup.fromvalue`. -/
def fromUrl {α : Type} (cls : J → Res α) (o : OpenExt) (fx : FExt) (url : Str) : J → Res α
  | .obj m =>
    let m' := Dict.setdefault "@base".toList (.str (o.baseUrl url)) m
    match resolveSchemas fx ((Dict.get "@base".toList m').getD .null) m' with
    | .error e => .error e
    | .ok j => cls j
  | _ => .error .attributeError

/-- `TableGroup.from_url(url)` (1092–1104): the document is fetched. -/
def groupFromUrl (ext : Ext) (x : MExt) (other : Base → Derived → J → Res Val) (lk : EncLookup) (o : OpenExt) (fx : FExt) (d : Disk)
    (url : Str) : Res GroupD :=
  match getJson fx d (.url url) with
  | .error e => .error e
  | .ok j => fromUrl (groupFrom ext x other lk fx d) o fx url j

/-- `TableGroup.from_file(p)` (1081–1090) for a local file. -/
def groupFromFile (ext : Ext) (x : MExt) (other : Base → Derived → J → Res Val) (lk : EncLookup) (fx : FExt) (d : Disk) (p : PPath) :
    Res FGroup :=
  match getJson fx d (.file p) with
  | .error e => .error e
  | .ok j => match groupFrom ext x other lk fx d j with
    | .error e => .error e
    | .ok g => .ok ⟨g, some p⟩

/-- The table group of `CSVW(url)` (1666–1672): for a URL, the schema is validated. For a local file, the document is taken as it is
(1088). -/
def openGroup (ext : Ext) (x : MExt) (other : Base → Derived → J → Res Val) (lk : EncLookup) (o : OpenExt) (fx : FExt) (d : Disk)
    (url : Str) (m : List (Str × J)) : Res GroupD :=
  if isUrl url then
    match fromUrl (groupFrom ext x other lk fx d) o fx url (.obj m) with
    | .error e => .error e
    | .ok g => match g.group.validateSchema true with
      | .error e => .error e
      | .ok () => .ok g
  else groupFrom ext x other lk fx d (.obj m)

/-- The table of `CSVW(url)` (1674–1681). -/
def openTable (ext : Ext) (x : MExt) (other : Base → Derived → J → Res Val) (lk : EncLookup) (o : OpenExt) (fx : FExt) (d : Disk)
    (url : Str) (noHeader : Bool) (m : List (Str × J)) : Res TableD :=
  if isUrl url then
    match fromUrl (tableFrom ext x other lk fx d) o fx url (.obj m) with
    | .error e => .error e
    | .ok t => .ok (if noHeader then t.withoutHeader else t)
  else tableFrom ext x other lk fx d (.obj m)

/-- The description of a document with a valid context (1665–1686). -/
def describe (ext : Ext) (x : MExt) (other : Base → Derived → J → Res Val) (lk : EncLookup) (o : OpenExt) (fx : FExt) (d : Disk)
    (url : Str) (noHeader : Bool) (m : List (Str × J)) : Res Desc :=
  match Dict.get "tables".toList m with
  | none => (openTable ext x other lk o fx d url noHeader m).map fun t => .table t.fixNames
  | some (.arr (_ :: _)) =>
    (openGroup ext x other lk o fx d url m).map fun g => .group { g with tables := g.tables.map TableD.fixNames }
  | some _ => .error .valueError

/-- `CSVW(url, md_url)` (1644–1688). -/
def openInit (ext : Ext) (x : MExt) (other : Base → Derived → J → Res Val) (lk : EncLookup) (o : OpenExt) (fx : FExt) (d : Disk)
    (w : Locate.World) (url : Str) (mdUrl : Option Str) : Res Opened :=
  match Opened.document w url mdUrl with
  | .error e => .error e
  | .ok (.obj m, noHeader) => match hasContext m with
    | .error e => .error e
    | .ok false => .error .valueError
    | .ok true => (describe ext x other lk o fx d url noHeader m).map fun d => ⟨d, isMinimal m⟩
  | .ok _ => .error .attributeError

end Csvw.Links
