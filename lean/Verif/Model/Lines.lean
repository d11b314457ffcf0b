import Verif.Model.NamedTuple
/-!
# Readers over lists of lines

Model of `UnicodeReader.__enter__` (`src/csvw/dsv.py` 197–211) for something which is neither a path nor a file object: the lines are decoded if they
are bytes, and handed to `csv.reader` as they are. Simplification: bytes are given by the text they encode, the codec is `utf-8-sig` (for others see `Model/Encoding`); a file object
which was opened with `newline=''` and a codec which keeps the byte order mark is the list of its lines.
-/

namespace Csvw.Dsv
open CsvLib Names

/-- What a reader is given. -/
inductive Source where
  /-- a path of a file with this content -/
  | file (content : Str)
  /-- a list (or any iterable) of strings -/
  | lines (ls : List Str)
  /-- a list of bytes, each the encoding of such a string -/
  | encoded (ls : List Str)

/-- `__enter__` (197–211): `line.decode('utf-8-sig')` drops a byte order mark of each line. -/
def Source.enter (cfg : Cfg) : Source → RState
  | .file s => openText cfg s
  | .lines ls => let r := readRows cfg.fmt ls; { pending := r.1, err := r.2 }
  | .encoded ls => let r := readRows cfg.fmt (ls.map dropBom); { pending := r.1, err := r.2 }

/-- `with UnicodeReader(f, …) as r: list(r)` (213–237). -/
def readSource (cfg : Cfg) (f : Source) : List Row × Option PyErr :=
  let r := collect cfg.dialect (f.enter cfg)
  (r.1.map Prod.snd, r.2.1)

/-- `list(iterrows(…))` (355–382), given what the `UnicodeReader` yields. -/
def itemsOf (u : Unicode) (namedtuples dicts : Bool) (rows : List Row × Option PyErr) : List Item × Option PyErr :=
  if namedtuples && dicts then ([], some .valueError)
  else if namedtuples then
    let r := match rows.1 with
      | [] => ([], none)
      | fn :: rs => namedItems u fn none .none (rs.filter (fun r => !r.isEmpty))
    (r.1.map .named, match r.2 with | some e' => some e' | none => rows.2)
  else if dicts then ((dictRows none none .none rows.1).map .dict, rows.2)
  else (rows.1.map .row, rows.2)

/-- `list(iterrows(lines_or_file, …))` (355–382). -/
def iterrowsOf (u : Unicode) (cfg : Cfg) (namedtuples dicts : Bool) (f : Source) : List Item × Option PyErr :=
  itemsOf u namedtuples dicts (readSource cfg f)

end Csvw.Dsv
