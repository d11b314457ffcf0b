import Verif.Model.Single
/-!
# Files of a table which is described on its own

Model of `from_file`, `to_file` and `write` of a `Table` which is not in a group (`/repo/src/csvw/metadata.py` 1080–1090, 1106–1118, 1226–1278).
The simplifications of `Model/Files` apply.
-/

namespace Csvw

/-- Without invalid URI templates. -/
def TableD.dropInvalid (t : TableD) : TableD := { t with like := t.like.dropInvalid }

/-- `to_file(p, omit_defaults)` (1106–1118), as `GroupD.toFileOps`. -/
def TableD.toFileOps (ext : Ext) (fx : FExt) (buf : Dsv.Buffering) (d : Disk) (t : TableD) (p : PPath) (od : Bool) : List FOp × Option PyErr :=
  match t.dropInvalid.asdict ext od with
  | .error e => ([], some e)
  | .ok j =>
    if !d.writable p then ([], some .osError)
    else if t.dropInvalid = t then (.create p :: (buf.pieces (fx.dumps j)).map (.append p), none)
    else (.create p :: (buf.pieces (fx.cutTable t)).map (.append p), some .typeError)

namespace FTable

/-- `Table.from_file(p)` (1080–1090) for a local file. -/
def fromFile (ext : Ext) (x : MExt) (other : Base → Derived → J → Res Val) (lk : EncLookup) (fx : FExt) (d : Disk) (p : PPath) : Res FTable :=
  match d.files p with
  | some (.text s) => match fx.loads s with
    | .error e => .error e
    | .ok j => match TableD.fromvalue ext x other lk j with
      | .error e => .error e
      | .ok t => .ok ⟨t, some p⟩
  | some (.zip _) => .error .notImplemented
  | none => .error .osError

/-- Where `write(items, base=base)` writes to (1245–1246): `base` is a path, or `None` (or an empty string). -/
def writeTo (fx : FExt) (d : Disk) (t : FTable) : Option PPath → Res PPath
  | some b => .ok (resolveLink fx d t.table.url (.dir b)).path
  | none => match t.baseAfter fx d 0 with
    | .error e => .error e
    | .ok b => .ok (resolveLink fx d t.table.url b).path

/-- `write(items, base=base, strict=strict, _zipped=zipped)` (1226–1278). -/
def writeOps (ext : Ext) (x : MExt) (fx : FExt) (ver : CsvLib.CsvVer) (buf : Dsv.Buffering) (d : Disk) (t : FTable) (base : Option PPath)
    (strict zipped : Bool) (items : List Table.Item) : List FOp × Option PyErr :=
  match t.writeTo fx d base with
  | .error e => ([], some e)
  | .ok p => t.table.writeOps ext x ver buf d p strict zipped items

end FTable
end Csvw
