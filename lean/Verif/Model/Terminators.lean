import Verif.Model.Dsv
/-!
# The keyword argument `lineterminator` of `UnicodeReader`

Model of `/repo/src/csvw/dsv.py` 172 and 202 (and `rewrite`, 387–408): `lineterminator` is the argument `newline` of `io.open`. If it is not empty, the lines which `csv.reader` gets
end only with this string (Python documentation of `io.TextIOWrapper`).
-/

namespace Csvw.Dsv
open CsvLib

/-- The lines of a text file which was opened with `newline=lt`, not empty. Worker with the current line (reversed). -/
def linesAtGo (lt : Str) : Str → Str → List Str
  | acc, [] => if acc.isEmpty then [] else [acc.reverse]
  | acc, c :: cs => if lt.reverse.isPrefixOf (c :: acc) then (c :: acc).reverse :: linesAtGo lt [] cs else linesAtGo lt (c :: acc) cs

/-- `with UnicodeReader(path, lineterminator=lt, …) as r: list(r)` (171–237): `io.open` raises `ValueError` for other strings. -/
def readFileAt (cfg : Cfg) (lt : Option Str) (text : Str) : Res (List Row × Option PyErr) :=
  match lt with
  | none | some [] => .ok (readFile cfg text)
  | some lt =>
    if lt = ['\n'] ∨ lt = ['\r'] ∨ lt = ['\r', '\n'] then
      let rows := readRows cfg.fmt (linesAtGo lt [] (dropBom text))
      let r := collect cfg.dialect { pending := rows.1, err := rows.2 }
      .ok (r.1.map Prod.snd, r.2.1)
    else .error .valueError

/-- The keyword argument `lineterminator` for `csv.writer` (dsv.py 60–76), also with a dialect. -/
def withTerminator (cfg : Cfg) (lt : Str) : Cfg := { cfg with fmt := { cfg.fmt with lineterminator := lt } }

/-- `rewrite(fname, visitor, lineterminator=lt, …)` (387–408): the keyword argument is passed to the reader and the writer. If the reader cannot be
opened, there is only the (empty) temporary file. -/
def rewriteAt {σ ρ : Type} (v : CsvVer) (cfg : Cfg) (lt : Str) (buf : Buffering) (sameDevice : Bool) (fname tmp : ρ)
    (vis : Visitor σ) (st : σ) (content : Str) : List (FsOp ρ) × Res σ :=
  match readFileAt cfg (some lt) content with
  | .error e => ([.create tmp], .error e)
  | .ok (rows, e) =>
    let (ws, res) := rewriteLoop v (withTerminator cfg lt) vis e st 0 rows
    match res with
    | .ok s => (tmpOps buf tmp ws.flatten ++ moveOps sameDevice tmp fname (buf.pieces ws.flatten), .ok s)
    | .error e => (tmpOps buf tmp ws.flatten, .error e)

end Csvw.Dsv
