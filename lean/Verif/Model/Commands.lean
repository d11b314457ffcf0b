import Verif.Model.Frictionless
import Verif.Model.Open
import Verif.Model.Single
import Verif.Model.ToDb
import Verif.Model.ToJson
/-!
# Commands

Model of the commands `csvwdescribe`, `csvw2datasette` and `csvw2json` (`/repo/src/csvw/__main__.py` 31–60, 92–123). (`csvwvalidate` is in
`Model/Warn`, `csvw2sqlite` in `Model/ToDb`, `csvw2markdown` in `Model/Markdown`.) What is printed on the screen besides the results, and the
parsing of the command line are not modelled.
-/

namespace Csvw.Commands

open Csvw.Db

/-! ## `csvwdescribe` -/

/-- Is there exactly one file, without wildcard (48)? -/
def oneFile : List Str → Bool
  | [f] => !f.contains '*'
  | _ => false

/-- The option for the delimiter (45–46): an empty one does not count. -/
def dialectArgs : Option Str → List Str
  | some (c :: s) => ["--dialect".toList, "{\"delimiter\": \"".toList ++ (c :: s) ++ "\"}".toList]
  | _ => []

/-- The arguments for the command `frictionless` (44–56). -/
def describeArgs (delimiter : Option Str) (csv : List Str) : List Str :=
  ["describe".toList, "--json".toList] ++ dialectArgs delimiter ++
    (if oneFile csv then ["--format".toList, "csv".toList] else ["--type".toList, "package".toList]) ++ csv

/-- The data package (55–57): the description of a single file is the only resource of a package. -/
def describePackage (csv : List Str) (dp : J) : J :=
  if oneFile csv then .obj [("resources".toList, .arr [dp]), ("profile".toList, .str "data-package".toList)] else dp

/-- `csvwdescribe` (31–60): the JSON document which is printed. `run` is the output of the command `frictionless` with the given arguments,
as JSON. -/
def csvwdescribe (ext : Ext) (x : MExt) (other : Base → Derived → J → Res Val) (lk : EncLookup) (dumps : J → Str) (run : List Str → Res J)
    (delimiter : Option Str) (csv : List Str) : Res J :=
  match run (describeArgs delimiter csv) with
  | .error e => .error e
  | .ok dp => match Frictionless.toTablegroup ext x other lk dumps (describePackage csv dp) with
    | .error e => .error e
    | .ok g => g.asdict ext true

/-! ## `csvw2json` -/

/-- The object as `to_json` uses it. -/
def dataOf (d : Opened) : ToJson.Data :=
  { desc := match d.desc with | .table t => .inl t | .group g => .inr g
    noMetadata := d.noMetadata }

/-- `csvw2json` (117–123): the document which is printed; `data` gives the content of the data files. -/
def csvw2json (other : Base → Derived → J → Res Val) (lk : EncLookup) (o : OpenExt) (w : Locate.World) (e : ToJson.Env) (data : Str → Str)
    (url : Str) : Res JsonLd.Out :=
  match Opened.init e.ext e.x other lk o w url none with
  | .error err => .error err
  | .ok d => ToJson.toJson e data (dataOf d)

/-! ## `csvw2datasette` -/

/-- The metadata for datasette (102–105). -/
def datasetteMeta (common : List (Str × J)) : List (Str × J) :=
  Frictionless.optItem "dc:title" "title" common ++
    (Frictionless.optItem "dc:description" "description" common ++ Frictionless.optItem "dc:license" "license" common)

/-- The files in the output directory: the content of the database and the text of the metadata. -/
structure Datasette where
  db : Option Database := none
  metadata : Option Str := none

/-- `Database(csvw.tablegroup, fname).write_from_tg(…)` for a table which is described on its own (`metadata.py` 1714–1717, `db.py` 346–377,
508–513). -/
def writeSingle (ext : Ext) (x : MExt) (fx : FExt) (sx : SqlExt) (tr : Translator) (skip force drop : Bool) (d : Disk) (t : FTable)
    (old : Option Database) : Option Database × Option PyErr :=
  match t.baseAfter fx d 0 with
  | .error e => (old, some e)
  | .ok b => match schema (t.groupAt b).group drop with
    | .error e => (old, some e)
    | .ok tables => match t.readAfter ext x fx d 1 with
      | .error e => (old, some e)
      | .ok rows => callWrite ext sx tr skip force tables [(t.table.url, rows)] old

/-- The file of a description (`metadata.py` 1088–1090): a URL is no file. -/
def fileOf (url : Str) : Option PPath := if isUrl url then none else some (.ofStr url)

/-- The database (99–100): it is written without `_force`. -/
def writeOpened (ext : Ext) (x : MExt) (fx : FExt) (sx : SqlExt) (d : Disk) (url : Str) (old : Option Database) :
    Desc → Option Database × Option PyErr
  | .table t => writeSingle ext x fx sx nameTranslator false false true d ⟨t, fileOf url⟩ old
  | .group g => writeFromTg ext x fx sx nameTranslator false false true d ⟨g, fileOf url⟩ old

/-- `csvw.common_props` (`metadata.py` 1687). -/
def commonProps : Desc → List (Str × J)
  | .table t => t.like.props.common
  | .group g => g.like.props.common

/-- `csvw2datasette` (92–115): the output files afterwards, and the exception, if any. Simplification: the output directory exists and is
writable. -/
def csvw2datasette (ext : Ext) (x : MExt) (other : Base → Derived → J → Res Val) (lk : EncLookup) (o : OpenExt) (w : Locate.World) (fx : FExt)
    (sx : SqlExt) (d : Disk) (url : Str) (old : Datasette) : Datasette × Option PyErr :=
  match Opened.init ext x other lk o w url none with
  | .error e => (old, some e)
  | .ok ds => match writeOpened ext x fx sx d url old.db ds.desc with
    | (db, some e) => ({ old with db := db }, some e)
    | (db, none) => ({ db := db, metadata := some (fx.dumps (.obj (datasetteMeta (commonProps ds.desc)))) }, none)

end Csvw.Commands
