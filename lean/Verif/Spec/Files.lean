import Verif.Model.Files
import Verif.Spec.Reread
import Verif.Spec.Common
/-!
# Specification vocabulary: the files of a data set
-/

namespace Csvw.Spec

/-- Reading the data file `p` gives `text` (the file, or a zip archive with its content, exists). -/
def Holds (fx : FExt) (d : Disk) (p : PPath) (text : Str) : Prop := d.read fx (.file p) = .ok text

/-- The data file of a table, if the metadata file is `p`: the URL relative to the directory of `p`. -/
def dataFile (p : PPath) (t : Table) : PPath := p.parent.join t.url

/-- The files which writing a table creates, changes or removes. -/
def touched (p : PPath) (zipped : Bool) (t : Table) : List PPath :=
  if zipped then [dataFile p t, (dataFile p t).zip] else [dataFile p t]

/-- The directories exist: `p` and the data files of the tables can be written. URLs of tables are relative or absolute paths. -/
structure DirsExist (d : Disk) (p : PPath) (zipped : Bool) (ts : List Table) : Prop where
  metadata : d.isDir p.parent = true ∧ d.isDir p = false
  local_ : ∀ t ∈ ts, isUrl t.url = false
  data : ∀ t ∈ ts, d.isDir (dataFile p t).parent = true ∧ d.isDir (dataFile p t) = false
  zip : zipped = true → ∀ t ∈ ts, d.isDir (dataFile p t).zip = false

/-- The metadata file, the data files (and the zip archives) are all different. -/
def AllDifferent (p : PPath) (zipped : Bool) (ts : List Table) : Prop := (p :: ts.flatMap (touched p zipped)).Nodup

/-- The keyword arguments of `TableGroup.write`: the rows for each table, by its URL. -/
def itemsOf (l : List (Table × List Table.Item)) : List (Str × List Table.Item) := l.map fun e => (e.1.url, e.2)

/-- The description was read from JSON, and C74 applies to it. -/
structure Rereadable (ext : Ext) (x : MExt) (other : Base → Derived → J → Res Val) (lk : EncLookup) (g : GroupD) : Prop where
  read : ∃ j, DistinctKeys j ∧ GroupD.fromvalue ext x other lk j = .ok g
  group : LikeWritable ext g.like ∧ NoEmptyLike g.like
  tables : ∀ t ∈ g.tables, LikeWritable ext t.like ∧ NoEmptyLike t.like
  dialects : ∀ t ∈ g.tables, t.like.dialect = some { commentPrefix := none } → g.like.dialect = none

/-- `text` as it is read: from a zip archive (or URL), newlines are translated. -/
def asRead (zipped : Bool) (text : Str) : Str := if zipped then Dsv.wrappedText text else text

/-- The rows are written as a text, which is stored in a file, or in a zip archive; from there, `rows` are read. -/
def WrittenAndRead (ext : Ext) (x : MExt) (ver : CsvLib.CsvVer) (strict zipped : Bool) (t : Table) (items : List Table.Item) (rows : List RowDict) : Prop :=
  ∃ text, t.write ext x ver strict items = .ok text ∧ (t.iterdicts ext x true false (asRead zipped text)).err = none ∧
    (t.iterdicts ext x true false (asRead zipped text)).rows.map Prod.snd = rows

/-- The cells of the file, row by row (with header, comments, and rows which are skipped). -/
def CsvRows (t : Table) (text : Str) (rows : List (List Str)) : Prop :=
  ∃ cfg, Dsv.Cfg.ofDialect t.getDialect = .ok cfg ∧ (Dsv.openText cfg text).pending = rows ∧ (Dsv.openText cfg text).err = none

/-- No cell of the file contains a carriage return. -/
def NoReturns (t : Table) (text : Str) : Prop := ∀ rows, CsvRows t text rows → ∀ r ∈ rows, ∀ c ∈ r, '\r' ∉ c

/-- Neither the delimiter nor the quote character is a newline. -/
structure PlainNewlines (d : Dialect) : Prop where
  delimiter : d.delimiter ≠ ['\r'] ∧ d.delimiter ≠ ['\n']
  quote : d.quoteChar ≠ .str ['\r'] ∧ d.quoteChar ≠ .str ['\n']

/-- There is no escape character. -/
def NoEscape (d : Dialect) : Prop := d.quoteChar = .null ∨ d.doubleQuote = true

/-- There is data with content `text` at `l`: a file; a zip archive, if there is no file; or a URL. -/
inductive Content (fx : FExt) (d : Disk) (text : Str) : Loc → Prop where
  | file {p : PPath} : d.files p = some (.text text) → Content fx d text (.file p)
  | zip {p : PPath} {pre post : List (Str × Str)} {name : Str} : d.files p = none → d.isDir p = false →
      d.files p.zip = some (.zip (pre ++ (name, text) :: post)) → (∀ m ∈ pre, ¬ p.name <:+ m.1) → p.name <:+ name → Content fx d text (.file p)
  | url {u : Str} : fx.fetch u = .ok text → Content fx d text (.url u)

end Csvw.Spec
