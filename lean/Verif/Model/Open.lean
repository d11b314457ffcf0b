import Verif.Model.Csvw
import Verif.Model.Locate
import Verif.Model.Metadata2
/-!
# Opening a dataset, adding foreign keys

Model of `CSVW.__init__` (`/repo/src/csvw/metadata.py` 1644–1688) with `TableLike.from_file` and `TableLike.from_url` (1081–1105), and of
`Table.add_foreign_key` (1197–1212).
-/

namespace Csvw

/-- What `CSVW.__init__` needs besides the answers of the world: `urlunparse((url.scheme, url.netloc, url.path, '', '', ''))` of
`from_url` (1099–1100). -/
structure OpenExt where
  baseUrl : Str → Str

/-- A description: a table or a table group (1658–1681). -/
inductive Desc where
  | table (t : TableD)
  | group (g : GroupD)

/-- What `CSVW.__init__` provides: `self.t` and `self.no_metadata`. -/
structure Opened where
  desc : Desc
  noMetadata : Bool

/-- The metadata (1653–1661) and whether the data has no header: the JSON document, or else what `locate_metadata` finds. `getJson`
gives `valueError` for documents which are not JSON. -/
def Opened.document (w : Locate.World) (url : Str) (mdUrl : Option Str) : Res (J × Bool) :=
  match w.getJson ((nonEmpty mdUrl).getD url) with
  | .ok md => .ok (md, false)
  | .error .valueError => (Locate.locateMetadata w url).map fun f => (f.md, f.noHeader)
  | .error e => .error e

/-- `"http://www.w3.org/ns/csvw" in md.get('@context', '')` (1664): for a string this asks for a substring, for an object for a key. -/
def hasContext (m : List (Str × J)) : Res Bool :=
  match Dict.get "@context".toList m with
  | none => .ok false
  | some (.str s) => .ok (Py.contains "http://www.w3.org/ns/csvw".toList s)
  | some (.arr l) => .ok (l.contains (.str "http://www.w3.org/ns/csvw".toList))
  | some (.obj o) => .ok (Dict.keys o |>.contains "http://www.w3.org/ns/csvw".toList)
  | some _ => .error .typeError

/-- `set(md.keys()) == {'@context', 'url'}` (1663). -/
def isMinimal (m : List (Str × J)) : Bool :=
  (Dict.keys m).all (fun k => k = "@context".toList || k = "url".toList) &&
    (Dict.keys m).contains "@context".toList && (Dict.keys m).contains "url".toList

/-- Names with whitespace or a leading `_` are removed (1683–1686). -/
def fixName (c : Column) : Column :=
  match c.name with
  | none => c
  | some n => if n ≠ [] ∧ (n.any Py.isSpace ∨ n.head? = some '_') then { c with name := none } else c

/-- The columns of a table after 1683–1686. -/
def TableD.fixNames (t : TableD) : TableD :=
  { t with like := { t.like with schema := { t.like.schema with columns := t.like.schema.columns.map fixName } } }

/-- `self.t.dialect.header = False` (1676–1679): `Dialect(header=False)` if there was no dialect. -/
def TableD.withoutHeader (t : TableD) : TableD :=
  { t with like := { t.like with dialect := some { t.like.dialect.getD Dialect.metaDefault with header := false } } }

/-- The table group (1666–1672). For a URL, the schema is validated. -/
def Opened.group (ext : Ext) (x : MExt) (other : Base → Derived → J → Res Val) (lk : EncLookup) (o : OpenExt) (url : Str)
    (m : List (Str × J)) : Res GroupD :=
  if isUrl url then
    match GroupD.fromvalue ext x other lk (.obj (Dict.setdefault "@base".toList (.str (o.baseUrl url)) m)) with
    | .error e => .error e
    | .ok g => match g.group.validateSchema true with
      | .error e => .error e
      | .ok () => .ok g
  else GroupD.fromvalue ext x other lk (.obj m)

/-- The table (1674–1681). Simplification: `Dialect(header=False)` has been constructed already. -/
def Opened.table (ext : Ext) (x : MExt) (other : Base → Derived → J → Res Val) (lk : EncLookup) (o : OpenExt) (url : Str)
    (noHeader : Bool) (m : List (Str × J)) : Res TableD :=
  if isUrl url then
    match TableD.fromvalue ext x other lk (.obj (Dict.setdefault "@base".toList (.str (o.baseUrl url)) m)) with
    | .error e => .error e
    | .ok t => .ok (if noHeader then t.withoutHeader else t)
  else TableD.fromvalue ext x other lk (.obj m)

/-- The description of a document with a valid context (1665–1686). -/
def Opened.describe (ext : Ext) (x : MExt) (other : Base → Derived → J → Res Val) (lk : EncLookup) (o : OpenExt) (url : Str)
    (noHeader : Bool) (m : List (Str × J)) : Res Desc :=
  match Dict.get "tables".toList m with
  | none => (Opened.table ext x other lk o url noHeader m).map fun t => .table t.fixNames
  | some (.arr (_ :: _)) =>
    (Opened.group ext x other lk o url m).map fun g => .group { g with tables := g.tables.map TableD.fixNames }
  | some _ => .error .valueError

/-- `CSVW(url, md_url)` (1644–1688). The name of the metadata file is not modelled; for warnings see `Model/Warn`. -/
def Opened.init (ext : Ext) (x : MExt) (other : Base → Derived → J → Res Val) (lk : EncLookup) (o : OpenExt) (w : Locate.World)
    (url : Str) (mdUrl : Option Str) : Res Opened :=
  match Opened.document w url mdUrl with
  | .error e => .error e
  | .ok (.obj m, noHeader) => match hasContext m with
    | .error e => .error e
    | .ok false => .error .valueError
    | .ok true => (Opened.describe ext x other lk o url noHeader m).map fun d => ⟨d, isMinimal m⟩
  | .ok _ => .error .attributeError

/-- `self.tables` (1682). -/
def Opened.tables (d : Opened) : List TableD :=
  match d.desc with
  | .table t => [t]
  | .group g => g.tables

/-- The columns given to `add_foreign_key`: a single name or a list (1205). -/
def colList : Sum Str (List Str) → List Str
  | .inl s => [s]
  | .inr l => l

/-- A column reference as JSON value (1210–1211). -/
def colJson : Sum Str (List Str) → J
  | .inl s => .str s
  | .inr l => .arr (l.map .str)

/-- `Table.add_foreign_key(colref, ref_resource, ref_colref)` (1197–1212). -/
def Table.addForeignKey (t : Table) (colref : Sum Str (List Str)) (resource : Str) (refColref : Sum Str (List Str)) : Res Table :=
  if (colList colref).all fun c => (t.schema.columns.map Column.name).contains (some c) then
    match ForeignKey.fromdict [("columnReference".toList, .arr ((colList colref).map .str)),
        ("reference".toList, .obj [("resource".toList, .str resource), ("columnReference".toList, colJson refColref)])] with
    | .error e => .error e
    | .ok k => .ok { t with schema := { t.schema with foreignKeys := t.schema.foreignKeys ++ [k] } }
  else .error .valueError

end Csvw
