import Verif.Model.Lines
import Verif.Model.Newlines
import Verif.Model.Table
/-!
# Encodings

Model of the encodings of data files: `UnicodeWriter` (`/repo/src/csvw/dsv.py` 69–76, 95–116), `UnicodeReader` (171–190, 197–202),
`Dialect.python_encoding` (`dsv_dialects.py` 20–22, 146–147), and of their use by `Table.write` and `Table.iterdicts` (`metadata.py` 1244, 1268–1269,
1342–1358). The codecs of Python are a parameter.

Simplifications: a file which cannot be decoded is an error at once (the code yields the rows before the error first); a text is encoded as
a whole, and if it is empty, nothing is written; surrogates are not characters here.
-/

namespace Csvw

/-- The content of a file. -/
abbrev Bytes := List UInt8

/-- Python's codecs: `codecs.lookup(name)`; what a text file opened for writing with this encoding contains after the text was written;
what a text file opened for reading gives. -/
structure Codecs where
  lookup : EncLookup
  encode : Str → Str → Res Bytes
  decode : Str → Bytes → Res Str

/-- The content of a text file with encoding `e` after `s` was written (98, 124–141). -/
def Codecs.store (c : Codecs) (e : Str) (s : Str) : Res Bytes := if s = [] then .ok [] else c.encode e s

/-- `UnicodeReader` replaces `utf-8` by `utf-8-sig` (189–190); for the encoding of a dialect, the name is compared as it is given. -/
def readerEncoding (e : Str) : Str := if e = "utf-8".toList then "utf-8-sig".toList else e

namespace Dsv

/-- `openText` drops a byte order mark; what was decoded already has lost it, so it is doubled. -/
def keepBom : Str → Str
  | c :: r => if c.toNat = 0xfeff then c :: c :: r else c :: r
  | [] => []

/-- `with UnicodeWriter(path, dialect=d) as w: w.writerows(rows)` (69–105): the content of the file. -/
def writeBytes (c : Codecs) (v : CsvLib.CsvVer) (d : Dialect) (rows : List Row) : Res Bytes :=
  match Cfg.ofDialect d with
  | .error e => .error e
  | .ok cfg => match c.lookup (encodingMap d.encoding) with
    | .error e => .error e
    | .ok () => match writeFile v cfg rows with
      | .error e => .error e
      | .ok text => c.store (encodingMap d.encoding) text

/-- `with UnicodeReader(path, dialect=d) as r: list(r)` (171–237), for a file with this content. -/
def readBytes (c : Codecs) (d : Dialect) (b : Bytes) : List Row × Option PyErr :=
  match Cfg.ofDialect d with
  | .error e => ([], some e)
  | .ok cfg => match c.decode (readerEncoding (encodingMap d.encoding)) b with
    | .error e => ([], some e)
    | .ok text => readFile cfg (keepBom text)

/-- `with UnicodeWriter(path, encoding=e, …) as w: w.writerows(rows)`, without a `Dialect` (69–76, 95–105): the content of the file. `name` gives
`codecs.lookup(e).name` (38–39). -/
def writeEncoded (c : Codecs) (name : Str → Str) (e : Str) (v : CsvLib.CsvVer) (cfg : Cfg) (rows : List Row) : Res Bytes :=
  match c.lookup e with
  | .error e => .error e
  | .ok () => match writeFile v cfg rows with
    | .error e => .error e
    | .ok text => c.store (name e) text

/-- `with UnicodeReader(path, encoding=e, …) as r: list(r)`, without a `Dialect` (171, 189–190, 197–202), for a file with this content. -/
def readEncoded (c : Codecs) (name : Str → Str) (e : Str) (cfg : Cfg) (b : Bytes) : List Row × Option PyErr :=
  match c.lookup e with
  | .error e => ([], some e)
  | .ok () => match c.decode (readerEncoding (name e)) b with
    | .error e => ([], some e)
    | .ok text => readFile cfg (keepBom text)

/-- `[line.decode(e) for line in ls]` (204–208). -/
def decodeLines (c : Codecs) (e : Str) : List Bytes → Res (List Str)
  | [] => .ok []
  | b :: r => match c.decode e b with
    | .error e => .error e
    | .ok s => match decodeLines c e r with
      | .error e => .error e
      | .ok l => .ok (s :: l)

/-- `with UnicodeReader(lines, dialect=d) as r: list(r)` (171–237) for a list of bytes. -/
def readByteLines (c : Codecs) (d : Dialect) (ls : List Bytes) : List Row × Option PyErr :=
  match Cfg.ofDialect d with
  | .error e => ([], some e)
  | .ok cfg => match decodeLines c (readerEncoding (encodingMap d.encoding)) ls with
    | .error e => ([], some e)
    | .ok l => readSource cfg (.lines l)

end Dsv

namespace Table

/-- `Table.write(items, strict=strict)` (1226–1267): the content of the file. -/
def writeBytes (c : Codecs) (ext : Ext) (x : MExt) (ver : CsvLib.CsvVer) (t : Table) (strict : Bool) (items : List Item) : Res Bytes :=
  match Dsv.Cfg.ofDialect t.getDialect with
  | .error e => .error e
  | .ok _ => match c.lookup (encodingMap t.getDialect.encoding) with
    | .error e => .error e
    | .ok () => match t.write ext x ver strict items with
      | .error e => .error e
      | .ok text => c.store (encodingMap t.getDialect.encoding) text

/-- `Table.write(items, fname=None, strict=strict)` (1268–1269): `UnicodeWriter.read` encodes as `utf-8` (dsv.py 107–116). -/
def returnBytes (c : Codecs) (ext : Ext) (x : MExt) (ver : CsvLib.CsvVer) (t : Table) (strict : Bool) (items : List Item) : Res Bytes :=
  match Dsv.Cfg.ofDialect t.getDialect with
  | .error e => .error e
  | .ok _ => match c.lookup (encodingMap t.getDialect.encoding) with
    | .error e => .error e
    | .ok () => match t.write ext x ver strict items with
      | .error e => .error e
      | .ok text => c.store "utf-8".toList text

/-- `Table.iterdicts` for a data file with this content (1346–1358). -/
def iterBytes (c : Codecs) (ext : Ext) (x : MExt) (t : Table) (strict log : Bool) (b : Bytes) : IterOut :=
  match Dsv.Cfg.ofDialect t.getDialect with
  | .error e => { err := some e }
  | .ok _ => match c.decode (readerEncoding (encodingMap t.getDialect.encoding)) b with
    | .error e => { err := some e }
    | .ok text => t.iterdicts ext x strict log (Dsv.keepBom text)

/-- `Table.iterdicts` for a URL or a member of a zip archive with this content (1343–1344, 1350–1355): `dialect.encoding` is used, not
`python_encoding`, and newlines are translated. -/
def iterWrapped (c : Codecs) (ext : Ext) (x : MExt) (t : Table) (strict log : Bool) (b : Bytes) : IterOut :=
  match c.lookup t.getDialect.encoding with
  | .error e => { err := some e }
  | .ok () => match c.decode t.getDialect.encoding b with
    | .error e => { err := some e }
    | .ok text => t.iterdicts ext x strict log (Dsv.wrappedText text)

end Table
end Csvw
