import Verif.Model.Metadata2
import Verif.Model.Newlines
/-!
# Files: table groups on disk

Model of `Link.resolve`, `TableLike.base`, `TableLike.from_file`, `TableLike.to_file`, of writing and reading the data files of tables
(`Table.write`, `Table.iterdicts`), and of `TableGroup.read`, `TableGroup.write` and `TableGroup.copy` in `/repo/src/csvw/metadata.py`
218–223, 300–311, 1080–1137, 1226–1278, 1330–1358, 1499–1538 (`shutil.copy` included). Writing is modelled as the sequence of operations on files it
consists of, so that one can speak about the files after an interruption at any point.

Simplifications: files have text as content (for encodings see `Model/Encoding`), or are zip archives; two paths denote the same file only if they
are equal (no symbolic links, no `..`); directories do not change, and files in existing directories can be written.
-/

namespace Csvw

/-! ## Paths -/

/-- A `pathlib.PurePosixPath`: is it absolute, and its parts. Simplification: the root `//` is not distinguished from `/`. -/
structure PPath where
  abs : Bool := false
  parts : List Str := []
  deriving DecidableEq, Repr

namespace PPath

/-- `pathlib.Path(s)`: empty parts and `.` do not count. -/
def ofStr (s : Str) : PPath :=
  ⟨['/'].isPrefixOf s, (Py.split ['/'] s).filter fun p => decide (p ≠ []) && decide (p ≠ ['.'])⟩

/-- `p / s`. -/
def join (p : PPath) (s : Str) : PPath :=
  if (ofStr s).abs then ofStr s else ⟨p.abs, p.parts ++ (ofStr s).parts⟩

/-- `p.parent`. -/
def parent (p : PPath) : PPath := ⟨p.abs, p.parts.dropLast⟩

/-- `p.name`. -/
def name (p : PPath) : Str := p.parts.getLast?.getD []

/-- `p.parent.joinpath(p.name + '.zip')` (1271–1273, 1350). -/
def zip (p : PPath) : PPath := p.parent.join (p.name ++ ".zip".toList)

end PPath

/-! ## Disks -/

/-- A file: text, or a zip archive with the names and contents of its members. -/
inductive File where
  | text (s : Str)
  | zip (members : List (Str × Str))
  deriving DecidableEq, Repr

/-- The file system. -/
structure Disk where
  isDir : PPath → Bool
  files : PPath → Option File

/-- External functions. -/
structure FExt where
  /-- The text `json.dump(data, f, indent=4, separators=(',', ': '))` writes (1117). -/
  dumps : J → Str
  /-- `json.load(f, object_pairs_hook=collections.OrderedDict)` (223). -/
  loads : Str → Res J
  /-- What `json.dump` writes before it raises `TypeError` at an object which is no JSON. -/
  cut : GroupD → Str
  /-- The same for a table which is not in a group. -/
  cutTable : TableD → Str
  /-- `urllib.parse.urljoin(base, s)` for a base which is not empty. -/
  urljoin : Str → Str → Str
  /-- `requests.get(url).content` as text (1345–1346). -/
  fetch : Str → Res Str

/-- Operations on files. -/
inductive FOp where
  /-- `open(p, 'wt')`: create or truncate. -/
  | create (p : PPath)
  /-- Text reaching the file. -/
  | append (p : PPath) (s : Str)
  /-- `zipf.write(src, arcname=name)` for the new archive `p` (1270–1275). -/
  | store (p : PPath) (src : PPath) (name : Str)
  /-- `shutil.copy(src, p)` (1533). -/
  | copy (src p : PPath)
  /-- `p.unlink()` (1276). -/
  | unlink (p : PPath)
  deriving DecidableEq, Repr

namespace Disk

def put (d : Disk) (p : PPath) (f : Option File) : Disk := { d with files := fun q => if q = p then f else d.files q }

/-- The text of a file. -/
def textOf (d : Disk) (p : PPath) : Str :=
  match d.files p with
  | some (.text s) => s
  | _ => []

/-- The effect of an operation. -/
def exec (d : Disk) : FOp → Disk
  | .create p => d.put p (some (.text []))
  | .append p s => d.put p (some (.text (d.textOf p ++ s)))
  | .store p src name => d.put p (some (.zip [(name, d.textOf src)]))
  | .copy src p => d.put p (d.files src)
  | .unlink p => d.put p none

def run (d : Disk) (ops : List FOp) : Disk := ops.foldl exec d

/-- Can `p` be opened for writing? -/
def writable (d : Disk) (p : PPath) : Bool := d.isDir p.parent && !d.isDir p

end Disk

/-! ## Locations -/

/-- The result of `Link.resolve`, as it is used by `open` and `iterdicts`: a URL, or a file. -/
inductive Loc where
  | url (s : Str)
  | file (p : PPath)
  deriving DecidableEq, Repr

/-- A string which is used as file name: is it a URL (1343)? -/
def Loc.ofStr (s : Str) : Loc := if isUrl s then .url s else .file (.ofStr s)

/-- `TableLike.base`: nothing, a URL (or any other string), or a directory. -/
inductive LinkBase where
  | none
  | url (s : Str)
  | dir (p : PPath)
  deriving DecidableEq, Repr

/-- `Link(s).resolve(base)` (300–311). -/
def resolveLink (fx : FExt) (d : Disk) (s : Str) : LinkBase → Loc
  | .dir p => if isUrl s then .url s else .file ((if d.isDir p then p else p.parent).join s)
  | .none => Loc.ofStr s
  | .url b => Loc.ofStr (if b = [] then s else fx.urljoin b s)

/-- The last `@base` of the objects in an `@context` array (1126–1128). -/
def contextBase : List J → Option J
  | [] => none
  | .obj m :: r => match contextBase r with
    | some b => some b
    | none => Dict.get "@base".toList m
  | _ :: r => contextBase r

/-- `base` (1120–1137): `own` are the `@`-properties of the description, `parent` those of the group containing it, `fname` the file of the
group (or of the description itself, if it is not in a group). Simplification: `@context` is a string, an object or an array, and `@base` a
string; otherwise `notImplemented`. -/
def baseOf (fx : FExt) (own : List (Str × J)) (parent : Option (List (Str × J))) (fname : Option PPath) : Res LinkBase :=
  match Dict.get "base".toList (parent.getD own) with
  | some (.str b) => match Dict.get "context".toList own with
    | some (.arr l) => match contextBase l with
      | some (.str c) => .ok (.url (if c = [] then b else if b = [] then c else fx.urljoin b c))
      | some _ => .error .notImplemented
      | none => .ok (.url b)
    | some (.str _) | some (.obj _) | none => .ok (.url b)
    | _ => .error .notImplemented
  | some _ => .error .notImplemented
  | none => match fname with
    | some f => .ok (.dir f.parent)
    | none => .ok .none

/-- `t.url.resolve(t.base)` for a table of a group (1242, 1331). -/
def Table.location (fx : FExt) (d : Disk) (fname : Option PPath) (t : Table) : Res Loc :=
  match baseOf fx t.props.atProps (t.group.map fun g => g.1.atProps) fname with
  | .error e => .error e
  | .ok b => .ok (resolveLink fx d t.url b)

/-! ## Reading -/

/-- The text `iterdicts` reads (1342–1357): of the URL; of the file; or, if there is no file, of the first member of the zip archive whose
name ends with the file's name. The content of a URL and of a zip archive is read through a `TextIOWrapper`, which translates newlines. -/
def Disk.read (fx : FExt) (d : Disk) : Loc → Res Str
  | .url u => (fx.fetch u).map Dsv.wrappedText
  | .file p => match d.files p with
    | some (.text s) => .ok s
    | some (.zip _) => .error .notImplemented
    | none => if d.isDir p then .error .osError else match d.files p.zip with
      | some (.zip ms) => match ms.find? fun m => p.name.isSuffixOf m.1 with
        | some m => .ok (Dsv.wrappedText m.2)
        | none => .error .indexError
      | some (.text _) => .error .notImplemented
      | none => .error .osError

/-- `list(t.iterdicts())`. -/
def Table.readRows (ext : Ext) (x : MExt) (fx : FExt) (d : Disk) (fname : Option PPath) (t : Table) : Res (List RowDict) :=
  match t.location fx d fname with
  | .error e => .error e
  | .ok l => match d.read fx l with
    | .error e => .error e
    | .ok text => match (t.iterdicts ext x true false text).err with
      | some e => .error e
      | none => .ok ((t.iterdicts ext x true false text).rows.map Prod.snd)

/-- A `TableGroup` object: its description and `_fname`. -/
structure FGroup where
  desc : GroupD
  fname : Option PPath := none

namespace FGroup

/-- `read()` (1499–1503). -/
def read (ext : Ext) (x : MExt) (fx : FExt) (d : Disk) (g : FGroup) : Res (List (Str × List RowDict)) :=
  mapRes (fun p => (p.2.readRows ext x fx d g.fname).map fun rows => (p.1, rows)) g.desc.group.tabledict

/-- `TableGroup.from_file(p)` (1080–1090) for a local file. -/
def fromFile (ext : Ext) (x : MExt) (other : Base → Derived → J → Res Val) (lk : EncLookup) (fx : FExt) (d : Disk) (p : PPath) : Res FGroup :=
  match d.files p with
  | some (.text s) => match fx.loads s with
    | .error e => .error e
    | .ok j => match GroupD.fromvalue ext x other lk j with
      | .error e => .error e
      | .ok g => .ok ⟨g, some p⟩
  | some (.zip _) => .error .notImplemented
  | none => .error .osError

end FGroup

/-! ## Writing -/

/-- The rows of `items`, as text, until an exception occurs (1252–1266). -/
def Table.itemTexts (ext : Ext) (x : MExt) (ver : CsvLib.CsvVer) (cfg : Dsv.Cfg) (t : Table) (strict : Bool) : List Table.Item → List Str × Option PyErr
  | [] => ([], none)
  | i :: r => match Table.rowOf ext t strict i with
    | .error e => ([], some e)
    | .ok ws => match Dsv.writerow ver cfg {} (ws.map (Table.cellOf x)) with
      | .error e => ([], some e)
      | .ok s => (s.out :: (itemTexts ext x ver cfg t strict r).1, (itemTexts ext x ver cfg t strict r).2)

/-- The rows of the data file, with the header (1249–1266). A bad dialect is noticed after the file was opened (dsv.py 95–105). -/
def Table.fileTexts (ext : Ext) (x : MExt) (ver : CsvLib.CsvVer) (t : Table) (strict : Bool) (items : List Table.Item) : List Str × Option PyErr :=
  match Dsv.Cfg.ofDialect t.getDialect with
  | .error e => ([], some e)
  | .ok cfg =>
    if t.getDialect.header then match Dsv.writerow ver cfg {} (t.colnames.map some) with
      | .error e => ([], some e)
      | .ok s => (s.out :: (t.itemTexts ext x ver cfg strict items).1, (t.itemTexts ext x ver cfg strict items).2)
    else t.itemTexts ext x ver cfg strict items

/-- `write(items, fname=p, strict=strict, _zipped=zipped)` (1226–1278): the operations and the exception, if any. The text arrives in pieces; it
is complete when the file is closed, also after an exception. -/
def Table.writeOps (ext : Ext) (x : MExt) (ver : CsvLib.CsvVer) (buf : Dsv.Buffering) (d : Disk) (t : Table) (p : PPath) (strict zipped : Bool)
    (items : List Table.Item) : List FOp × Option PyErr :=
  if !d.writable p then ([], some .osError)
  else
    let r := t.fileTexts ext x ver strict items
    let ops := .create p :: (buf.pieces r.1.flatten).map (.append p)
    match r.2 with
    | some e => (ops, some e)
    | none =>
      if !zipped then (ops, none)
      else if d.isDir p.zip then (ops, some .osError)
      else (ops ++ [.create p.zip, .store p.zip p p.name, .unlink p], none)

/-- A description without its invalid URI templates. -/
def Descr.dropInvalid (d : Descr) : Descr :=
  { d with aboutUrl := if d.aboutUrl = .invalid then .json .null else d.aboutUrl
           propertyUrl := if d.propertyUrl = .invalid then .json .null else d.propertyUrl
           valueUrl := if d.valueUrl = .invalid then .json .null else d.valueUrl }

def TableLike.dropInvalid (t : TableLike) : TableLike :=
  { t with props := t.props.dropInvalid
           schema := { t.schema with props := t.schema.props.dropInvalid
                                     columns := t.schema.columns.map fun c => { c with props := c.props.dropInvalid } } }

def GroupD.dropInvalid (g : GroupD) : GroupD :=
  { like := g.like.dropInvalid, tables := g.tables.map fun t => { t with like := t.like.dropInvalid } }

/-- `to_file(p, omit_defaults)` (1106–1118). `asdict` is called before the file is opened; `INVALID` is only noticed by `json.dump`. -/
def GroupD.toFileOps (ext : Ext) (fx : FExt) (buf : Dsv.Buffering) (d : Disk) (g : GroupD) (p : PPath) (od : Bool) : List FOp × Option PyErr :=
  match g.dropInvalid.asdict ext od with
  | .error e => ([], some e)
  | .ok j =>
    if !d.writable p then ([], some .osError)
    else if g.dropInvalid = g then (.create p :: (buf.pieces (fx.dumps j)).map (.append p), none)
    else (.create p :: (buf.pieces (fx.cut g)).map (.append p), some .typeError)

/-- A name for the file to open: URLs are not treated in a special way when writing (dsv.py 95–100). -/
def Loc.path : Loc → PPath
  | .url s => .ofStr s
  | .file p => p

/-- The loop over the tables (1519–1520), then the metadata (1521). -/
def GroupD.writeOps (ext : Ext) (x : MExt) (fx : FExt) (ver : CsvLib.CsvVer) (buf : Dsv.Buffering) (d : Disk) (g : GroupD) (p : PPath)
    (strict zipped : Bool) : List (Str × List Table.Item) → List FOp × Option PyErr
  | [] => g.toFileOps ext fx buf d p true
  | (n, rows) :: r => match Dict.get n g.group.tabledict with
    | none => ([], some .keyError)
    | some t => match t.writeOps ext x ver buf d (resolveLink fx d t.url (.dir p.parent)).path strict zipped rows with
      | (ops, some e) => (ops, some e)
      | (ops, none) => (ops ++ (writeOps ext x fx ver buf d g p strict zipped r).1, (writeOps ext x fx ver buf d g p strict zipped r).2)

/-! ## Copying -/

/-- `shutil.copy(src, dst)` (1533): if `dst` is a directory, the file is copied into it. The target is opened (created or truncated), then
filled. Simplification: all exceptions are `OSError`s (also `SameFileError`). -/
def Disk.copyOps (d : Disk) (src dst : PPath) : List FOp × Option PyErr :=
  let dst := if d.isDir dst then dst.join src.name else dst
  if src = dst then ([], some .osError)
  else match d.files src with
    | none => ([], some .osError)
    | some _ => if d.writable dst then ([.create dst, .copy src dst], none) else ([], some .osError)

/-- The loop over the tables (1532–1533). -/
def copyTables (fx : FExt) (base : LinkBase) (dest : PPath) : Disk → List Table → List FOp × Option PyErr
  | _, [] => ([], none)
  | d, t :: r => match d.copyOps (resolveLink fx d t.url base).path (resolveLink fx d t.url (.dir dest)).path with
    | (ops, some e) => (ops, some e)
    | (ops, none) => (ops ++ (copyTables fx base dest (d.run ops) r).1, (copyTables fx base dest (d.run ops) r).2)

/-- `copy(dest)` (1523–1535): the operations, the object afterwards, and the exception, if any. -/
def FGroup.copy (ext : Ext) (fx : FExt) (buf : Dsv.Buffering) (d : Disk) (g : FGroup) (dest : PPath) : List FOp × FGroup × Option PyErr :=
  match baseOf fx g.desc.like.props.atProps none g.fname with
  | .error e => ([], g, some e)
  | .ok base => match copyTables fx base dest d g.desc.group.tables with
    | (ops, some e) => (ops, g, some e)
    | (ops, none) => match g.fname with
      | none => (ops, g, some .attributeError)
      | some f =>
        let f' := dest.join f.name
        let w := g.desc.toFileOps ext fx buf (d.run ops) f' true
        (ops ++ w.1, { g with fname := some f' }, w.2)

end Csvw
