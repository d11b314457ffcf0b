import Verif.Model.Dialect
/-!
# Model of `src/csvw/dsv.py`

File contents are decoded text (`Str`): encoding/decoding with one codec is not modelled, except that the
reader drops a leading byte order mark, because `utf-8` is replaced by `utf-8-sig` (dsv.py 171, 189-190).
-/

namespace Csvw.Dsv

open CsvLib

abbrev Row := List Str

/-- The configuration of a reader/writer: the csv format from keywords and/or dialect
(dsv.py 68-75, 173-181) and the `Dialect` object, if one was given.
Simplification: `dialect` given by registered name is represented by its format. -/
structure Cfg where
  fmt : Fmt
  dialect : Option Dialect := none

/-- `UnicodeReader(f)`/`UnicodeWriter(f)` without further arguments. -/
def Cfg.default : Cfg := { fmt := Fmt.excel }

/-- `UnicodeReader(f, dialect=d)`/`UnicodeWriter(f, dialect=d)`: exceptions as raised by `csv`. -/
def Cfg.ofDialect (d : Dialect) : Res Cfg :=
  match d.toFmt with
  | .ok f => .ok { fmt := f, dialect := some d }
  | .error e => .error e

/-! ## UnicodeWriter -/

/-- dsv.py 77-88: `_escapedoubled` for one string cell; `str.replace` of a one-character string by two. -/
def escapeDoubled (d : Fmt) (s : Str) : Str :=
  match d.escapechar with
  | some e => if d.quoting ≠ .none then Py.replace [e] [e, e] s else s
  | none => s

/-- A cell handed to the writer: a string or `None`. (Other objects are written as `str(obj)`; callers in
csvw always pass strings or `None`.) -/
abbrev Cell := Option Str

/-- Text of a cell as `csv.writer` sees it: `None` is written as the empty string. -/
def cellText (c : Cell) : Str := c.getD []

/-- Writer state: the text written so far and `_rows_written` (dsv.py 91). -/
structure WState where
  out : Str := []
  rowsWritten : Nat := 0
  deriving DecidableEq, Repr

/-- `UnicodeWriter.writerow`, dsv.py 120-122. -/
def writerow (v : CsvVer) (cfg : Cfg) (s : WState) (row : List Cell) : Res WState :=
  match writeRow v cfg.fmt (row.map (fun c => escapeDoubled cfg.fmt (cellText c))) with
  | .error e => .error e
  | .ok t => .ok { out := s.out ++ t, rowsWritten := s.rowsWritten + 1 }

/-- An item of the argument of `writerows`: a sequence or a dict. -/
inductive WRow where
  | seq (cells : List Cell)
  | dict (d : List (Str × Cell))
  deriving DecidableEq, Repr

/-- `UnicodeWriter.writerows`, dsv.py 124-141; `i` is the `enumerate` counter. -/
def writerowsFrom (v : CsvVer) (cfg : Cfg) : Nat → WState → List WRow → Res WState
  | _, s, [] => .ok s
  | i, s, .seq cells :: rs =>
    match writerow v cfg s cells with
    | .error e => .error e
    | .ok s' => writerowsFrom v cfg (i + 1) s' rs
  | i, s, .dict d :: rs =>
    let s1 := if i = 0 ∧ s.rowsWritten = 0 then writerow v cfg s ((Dict.keys d).map some) else .ok s
    match s1 with
    | .error e => .error e
    | .ok s1 =>
      match writerow v cfg s1 (Dict.values d) with
      | .error e => .error e
      | .ok s' => writerowsFrom v cfg (i + 1) s' rs

def writerows (v : CsvVer) (cfg : Cfg) (s : WState) (rows : List WRow) : Res WState :=
  writerowsFrom v cfg 0 s rows

/-- The file content after `with UnicodeWriter(f, …) as w: w.writerows(rows)` for rows of strings. -/
def writeFile (v : CsvVer) (cfg : Cfg) (rows : List Row) : Res Str :=
  match writerows v cfg {} (rows.map (fun r => .seq (r.map some))) with
  | .error e => .error e
  | .ok s => .ok s.out

/-! ## UnicodeReader -/

/-- Decoding with `utf-8-sig` (dsv.py 171, 189-190): a leading U+FEFF is dropped. -/
def dropBom : Str → Str
  | c :: cs => if c.toNat = 0xfeff then cs else c :: cs
  | [] => []

/-- Reader state: the raw rows `csv.reader` is still going to yield and the exception it ends with
(`none`: `StopIteration`), `lineno`, `comments`.
Simplification: calling `next` again after a `csv.Error` is not modelled. -/
structure RState where
  pending : List Row
  err : Option PyErr := none
  lineno : Int := -1
  comments : List (Int × Str) := []
  deriving DecidableEq, Repr

/-- `UnicodeReader.__enter__` for a path, dsv.py 197-211 (`newline=''`). -/
def openText (cfg : Cfg) (text : Str) : RState :=
  let r := readRows cfg.fmt (splitLines (dropBom text))
  { pending := r.1, err := r.2 }

/-- `list(s).count('\n')` summed over the cells, dsv.py 218. -/
def rowNewlines (row : Row) : Nat := (row.map (fun s => s.count '\n')).sum

/-- dsv.py 224-225, 228-229: a comment row. -/
def isComment (d : Dialect) (row : Row) : Bool :=
  match row, d.commentPrefix with
  | c :: _, some p => !p.isEmpty && Py.startsWith c p
  | _, _ => false

/-- dsv.py 226: `not row or set(row) == {''}`. -/
def isBlank (row : Row) : Bool := row.all (fun s => s.isEmpty)

/-- dsv.py 224-227: the loop condition. -/
def isSkipped (d : Dialect) (lineno : Int) (row : Row) : Bool :=
  isComment d row || (isBlank row && d.skipBlankRows) || decide (lineno < (d.skipRows : Int))

/-- dsv.py 228-230. -/
def isRecorded (d : Dialect) (lineno : Int) (row : Row) : Bool :=
  isComment d row || (!row.isEmpty && decide (lineno < (d.skipRows : Int)))

/-- dsv.py 233: `delimiter.join(row).lstrip(commentPrefix).strip()` (`lstrip(None)` strips whitespace). -/
def commentText (d : Dialect) (row : Row) : Str :=
  let t := Py.join d.delimiter row
  Py.strip (match d.commentPrefix with
    | none => Py.lstrip t
    | some p => Py.lstripP (fun c => p.contains c) t)

/-- dsv.py 236: trim the cells and drop the first `skipColumns`. -/
def finishRow (d : Dialect) (row : Row) : Row := (row.map d.trim.apply).drop d.skipColumns

/-- Result of `next(reader)`: a row, `StopIteration` (`none`), or an exception. -/
abbrev NextRes := Res (Option Row)

/-- `UnicodeReader.__next__`, dsv.py 213-237. The recursion is the `while` loop; `_next_row` is inlined. -/
def nextGo (dl : Option Dialect) (err : Option PyErr) :
    List Row → Int → List (Int × Str) → NextRes × RState
  | [], lineno, cm =>
    (match err with | none => .ok none | some e => .error e,
     { pending := [], err := err, lineno := lineno + 1, comments := cm })
  | row :: rest, lineno, cm =>
    let ln := lineno + 1 + rowNewlines row
    match dl with
    | none => (.ok (some row), { pending := rest, err := err, lineno := ln, comments := cm })
    | some d =>
      if isSkipped d ln row then
        nextGo dl err rest ln (if isRecorded d ln row then cm ++ [(ln, commentText d row)] else cm)
      else (.ok (some (finishRow d row)), { pending := rest, err := err, lineno := ln, comments := cm })

def next (dl : Option Dialect) (s : RState) : NextRes × RState :=
  nextGo dl s.err s.pending s.lineno s.comments

/-- Iterating a `UnicodeReaderWithLineNumber` (dsv.py 247-258) to the end: the pairs (line number, row),
the exception that ended the iteration, and the final state. `fuel` bounds the number of rows. -/
def collectFuel (dl : Option Dialect) : Nat → RState → List (Int × Row) × Option PyErr × RState
  | 0, s => ([], none, s)
  | n + 1, s =>
    match next dl s with
    | (.error e, s') => ([], some e, s')
    | (.ok none, s') => ([], none, s')
    | (.ok (some row), s') =>
      let (rows, e, s'') := collectFuel dl n s'
      ((s'.lineno + 1, row) :: rows, e, s'')

def collect (dl : Option Dialect) (s : RState) : List (Int × Row) × Option PyErr × RState :=
  collectFuel dl (s.pending.length + 1) s

/-- `with UnicodeReader(f, …) as r: list(r)`: the rows read and the exception which ended reading. -/
def readFile (cfg : Cfg) (text : Str) : List Row × Option PyErr :=
  let r := collect cfg.dialect (openText cfg text)
  (r.1.map Prod.snd, r.2.1)

/-! ## UnicodeDictReader -/

/-- Values in the dicts: a cell, a list of surplus cells, or `None` (default `restval`). -/
inductive DVal where
  | cell (s : Str)
  | rest (l : List Str)
  | none
  deriving DecidableEq, Repr

/-- Keys: strings or `None` (default `restkey`). -/
abbrev DKey := Option Str

/-- `UnicodeDictReader.item`, dsv.py 318-327. -/
def dictItem (fieldnames : List Str) (restkey : DKey) (restval : DVal) (row : Row) : List (DKey × DVal) :=
  let d := Dict.ofPairs ((fieldnames.zip row).map (fun p => (some p.1, DVal.cell p.2)))
  if fieldnames.length < row.length then Dict.set restkey (.rest (row.drop fieldnames.length)) d
  else if row.length < fieldnames.length then
    (fieldnames.drop row.length).foldl (fun d k => Dict.set (some k) restval d) d
  else d

/-- Iterating a `UnicodeDictReader` to the end (dsv.py 284-316), given the rows the underlying `UnicodeReader`
yields: without `fieldnames` argument the first row gives the field names; blank rows (`[]`) are skipped
(dsv.py 314-315). -/
def dictRows (fieldnames : Option (List Str)) (restkey : DKey) (restval : DVal) (rows : List Row) :
    List (List (DKey × DVal)) :=
  match fieldnames, rows with
  | some fn, rows => (rows.filter (fun r => !r.isEmpty)).map (dictItem fn restkey restval)
  | none, [] => []
  | none, fn :: rows => (rows.filter (fun r => !r.isEmpty)).map (dictItem fn restkey restval)

/-- `list(UnicodeDictReader(f, …))`. -/
def readDicts (cfg : Cfg) (fieldnames : Option (List Str)) (restkey : DKey) (restval : DVal) (text : Str) :
    List (List (DKey × DVal)) × Option PyErr :=
  let r := readFile cfg text
  (dictRows fieldnames restkey restval r.1, r.2)

/-! ## rewrite, add_rows, filter_rows_as_dict -/

/-- A visitor as in `rewrite` (dsv.py 404-407): it may keep state and raise. -/
abbrev Visitor (σ : Type) := σ → Nat → Row → Res (σ × Option (List Cell))

/-- The loop of `rewrite` (dsv.py 404-407) over the rows of the reader: list of texts written, one per written
row, final visitor state, or the exception (`readErr`: the exception ending the reader). -/
def rewriteLoop {σ : Type} (v : CsvVer) (cfg : Cfg) (vis : Visitor σ) (readErr : Option PyErr) :
    σ → Nat → List Row → List Str × Res σ
  | st, _, [] => ([], match readErr with | none => .ok st | some e => .error e)
  | st, i, r :: rs =>
    match vis st i r with
    | .error e => ([], .error e)
    | .ok (st', none) => rewriteLoop v cfg vis readErr st' (i + 1) rs
    | .ok (st', some cells) =>
      match writerow v cfg {} cells with
      | .error e => ([], .error e)
      | .ok w =>
        let (ws, res) := rewriteLoop v cfg vis readErr st' (i + 1) rs
        (w.out :: ws, res)

/-- File system operations issued by `rewrite`/`add_rows`. Paths are abstract. -/
inductive FsOp (ρ : Type) where
  /-- `NamedTemporaryFile(delete=False)` / `open(p, 'wt')`: create or truncate. -/
  | create (p : ρ)
  /-- data reaching the file -/
  | append (p : ρ) (s : Str)
  /-- `os.rename` -/
  | rename (src dst : ρ)
  /-- `os.unlink` -/
  | unlink (p : ρ)
  deriving Repr

/-- Contents of the files. -/
abbrev Fs (ρ : Type) := ρ → Option Str

def Fs.put {ρ : Type} [DecidableEq ρ] (fs : Fs ρ) (p : ρ) (c : Option Str) : Fs ρ :=
  fun q => if q = p then c else fs q

def FsOp.exec {ρ : Type} [DecidableEq ρ] (fs : Fs ρ) : FsOp ρ → Fs ρ
  | .create p => fs.put p (some [])
  | .append p s => fs.put p (some ((fs p).getD [] ++ s))
  | .rename src dst => (fs.put dst (fs src)).put src none
  | .unlink p => fs.put p none

def execAll {ρ : Type} [DecidableEq ρ] (fs : Fs ρ) (ops : List (FsOp ρ)) : Fs ρ := ops.foldl FsOp.exec fs

/-- `shutil.move(src, dst)` (dsv.py 408, 422): `os.rename`, which is atomic, on one file system; otherwise
`copy2` (truncate, then copy in chunks) followed by `os.unlink`. -/
def moveOps {ρ : Type} (sameDevice : Bool) (src dst : ρ) (chunks : List Str) : List (FsOp ρ) :=
  if sameDevice then [.rename src dst]
  else .create dst :: chunks.map (FsOp.append dst) ++ [.unlink src]

/-- How data reaches the files: `buf s` are the pieces in which the text `s` is passed to the operating system (by the
buffering of the file object, or by the copying of a cross-device move). Nothing is assumed but that all data arrives. -/
structure Buffering where
  pieces : Str → List Str
  complete : ∀ s, (pieces s).flatten = s

/-- Each text is passed in one piece. -/
def Buffering.whole : Buffering := ⟨fun s => [s], by simp⟩

/-- The operations of writing `text` to the temporary file: `NamedTemporaryFile` creates it, `UnicodeWriter` opens it
again for writing (dsv.py 399-403, 412-416), the text arrives in pieces. -/
def tmpOps {ρ : Type} (buf : Buffering) (tmp : ρ) (text : Str) : List (FsOp ρ) :=
  .create tmp :: .create tmp :: (buf.pieces text).map (FsOp.append tmp)

/-- `rewrite` (dsv.py 387-408): the trace of file system operations and the outcome.
`tmp` is the temporary file's path. The visitor's exceptions and csv errors end the trace before the move; what was
written up to then is flushed when the `with` statement closes the temporary file. -/
def rewrite {σ ρ : Type} (v : CsvVer) (cfg : Cfg) (buf : Buffering) (sameDevice : Bool) (fname tmp : ρ)
    (vis : Visitor σ) (st : σ) (content : Str) : List (FsOp ρ) × Res σ :=
  let (rows, e) := readFile cfg content
  let (ws, res) := rewriteLoop v cfg vis e st 0 rows
  match res with
  | .ok s => (tmpOps buf tmp ws.flatten ++ moveOps sameDevice tmp fname (buf.pieces ws.flatten), .ok s)
  | .error e => (tmpOps buf tmp ws.flatten, .error e)

/-- Texts of rows written by `writerow`, one by one. -/
def rowTexts (v : CsvVer) (cfg : Cfg) : List (List Cell) → List Str × Res Unit
  | [] => ([], .ok ())
  | r :: rs =>
    match writerow v cfg {} r with
    | .error e => ([], .error e)
    | .ok w => let (ws, res) := rowTexts v cfg rs; (w.out :: ws, res)

/-- `add_rows` (dsv.py 411-422); always the default format. `old = none`: the file does not exist. -/
def addRows {ρ : Type} (v : CsvVer) (buf : Buffering) (sameDevice : Bool) (fname tmp : ρ) (rows : List (List Cell))
    (old : Option Str) : List (FsOp ρ) × Res Unit :=
  let (oldRows, e) := match old with
    | none => ([], none)
    | some t => readFile Cfg.default t
  let (ws, res) := rowTexts v Cfg.default (oldRows.map (·.map some))
  match res, e with
  | .ok _, none =>
    let (ws', res') := rowTexts v Cfg.default rows
    match res' with
    | .ok _ => (tmpOps buf tmp (ws ++ ws').flatten ++ moveOps sameDevice tmp fname (buf.pieces (ws ++ ws').flatten), .ok ())
    | .error e => (tmpOps buf tmp (ws ++ ws').flatten, .error e)
  | .ok _, some e => (tmpOps buf tmp ws.flatten, .error e)
  | .error e, _ => (tmpOps buf tmp ws.flatten, .error e)

/-- State of `DictFilter`, dsv.py 442-447. -/
structure DictFilter where
  header : List Str := []
  removed : Nat := 0
  deriving DecidableEq, Repr

/-- `DictFilter.__call__`, dsv.py 449-458, for a predicate on dicts. -/
def dictFilter (f : List (Str × Str) → Bool) : Visitor DictFilter := fun st i row =>
  if i = 0 then .ok ({ st with header := row }, some (row.map some))
  else if !row.isEmpty then
    if f (Dict.ofPairs (st.header.zip row)) then .ok (st, some (row.map some))
    else .ok ({ st with removed := st.removed + 1 }, none)
  else .ok (st, none)

/-- `filter_rows_as_dict`, dsv.py 425-439. -/
def filterRowsAsDict {ρ : Type} (v : CsvVer) (cfg : Cfg) (buf : Buffering) (sameDevice : Bool) (fname tmp : ρ)
    (f : List (Str × Str) → Bool) (content : Str) : List (FsOp ρ) × Res Nat :=
  let (ops, res) := rewrite v cfg buf sameDevice fname tmp (dictFilter f) {} content
  (ops, match res with | .ok st => .ok st.removed | .error e => .error e)

end Csvw.Dsv
