import Verif.Model.Dsv
/-!
# Model of the newline translation of text streams

`iterdicts` (metadata.py 1342–1355) wraps the content of a URL or of the member of a zip archive as
`io.TextIOWrapper(…, encoding=dialect.encoding)`, without `newline=''`: Python then translates `\r\n` and `\r` to `\n` ("universal newlines").
A file is opened by `UnicodeReader.__enter__` (dsv.py 201) with `newline=''`, without this translation.
-/

namespace Csvw.Dsv

/-- Universal newlines (`io.TextIOWrapper` with `newline=None`). -/
def translateNewlines : Str → Str
  | [] => []
  | '\r' :: '\n' :: s => '\n' :: translateNewlines s
  | '\r' :: s => '\n' :: translateNewlines s
  | c :: s => c :: translateNewlines s

/-- What `csv.reader` gets from a `TextIOWrapper` with content `s`, as text of a file: newlines are translated, and a byte order mark is not dropped
(metadata.py 1344, 1355 use `dialect.encoding`, not `utf-8-sig`; `openText` drops one, so it is doubled).
Simplification: `dialect.encoding` is a codec which Python knows (not `UTF-8-BOM`, which `python_encoding` replaces only for files), and does not drop
the byte order mark itself (as `utf-8-sig` and `utf-16` do). `Model/Encoding` has the bytes and the codecs. -/
def wrappedText (s : Str) : Str :=
  match translateNewlines s with
  | c :: r => if c = '\uFEFF' then c :: c :: r else c :: r
  | [] => []

end Csvw.Dsv
