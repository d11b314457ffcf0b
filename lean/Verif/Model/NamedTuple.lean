import Verif.Model.Dsv
import Verif.Model.Names
/-!
# Model of `NamedTupleReader` and `iterrows` (`src/csvw/dsv.py` 330-385)
-/

namespace Csvw.Dsv
open Names

/-- `list(map(normalize_name, fieldnames))`, dsv.py 344. -/
def normalizeAll (u : Unicode) : List Str → Res (List Str)
  | [] => .ok []
  | n :: ns =>
    match normalizeName u n with
    | .error e => .error e
    | .ok a =>
      match normalizeAll u ns with
      | .error e => .error e
      | .ok as => .ok (a :: as)

/-- The checks of `collections.namedtuple('Row', names)` (`rename=False`), called in dsv.py 345: a name which is no
identifier, is a keyword, begins with an underscore or occurs twice raises `ValueError`. Identifiers: only ASCII ones
(the names come from `normalize_name`). -/
def namedtupleCheck (names : List Str) : Res Unit :=
  if names.all (fun n =>
      !n.isEmpty && n.all (fun c => isLetter c || isDigit c || c == '_') && !(isDigit (n.headD 'a')) &&
      !kwlist.contains n && !(n.headD 'a' == '_')) && decide names.Nodup
  then .ok () else .error .valueError

/-- Calling the `namedtuple` class with keyword arguments: exactly its fields must be given. -/
def namedtupleNew (names : List Str) (kw : List (Str × DVal)) : Res (List (Str × DVal)) :=
  if names.all (fun n => Dict.has n kw) && kw.all (fun p => names.contains p.1)
  then .ok (names.filterMap fun n => (Dict.get n kw).map fun v => (n, v)) else .error .typeError

/-- The keyword arguments of dsv.py 351-352: the entries of the dict for field names, under normalized names. -/
def namedKw (u : Unicode) (fieldnames : List Str) : List (DKey × DVal) → Res (List (Str × DVal))
  | [] => .ok []
  | (none, _) :: d => namedKw u fieldnames d
  | (some k, v) :: d =>
    if fieldnames.contains k then
      match normalizeName u k with
      | .error e => .error e
      | .ok n =>
        match namedKw u fieldnames d with
        | .error e => .error e
        | .ok kw => .ok ((n, v) :: kw)
    else namedKw u fieldnames d

/-- `NamedTupleReader.item`, dsv.py 347-352, with the class of dsv.py 342-345 (it is cached; computing it again has the
same result). -/
def namedItem (u : Unicode) (fieldnames : List Str) (restkey : DKey) (restval : DVal) (row : Row) :
    Res (List (Str × DVal)) :=
  let d := fieldnames.foldl (fun d k => Dict.setdefault (some k) .none d) (dictItem fieldnames restkey restval row)
  match normalizeAll u fieldnames with
  | .error e => .error e
  | .ok names =>
    match namedtupleCheck names with
    | .error e => .error e
    | .ok _ =>
      match namedKw u fieldnames d with
      | .error e => .error e
      | .ok kw => namedtupleNew names (Dict.ofPairs kw)

/-- The items of some rows, up to the first exception. -/
def namedItems (u : Unicode) (fieldnames : List Str) (restkey : DKey) (restval : DVal) :
    List Row → List (List (Str × DVal)) × Option PyErr
  | [] => ([], none)
  | r :: rs =>
    match namedItem u fieldnames restkey restval r with
    | .error e => ([], some e)
    | .ok t => let (ts, e) := namedItems u fieldnames restkey restval rs; (t :: ts, e)

/-- Iterating a `NamedTupleReader` to the end (dsv.py 284-316, 347-352): the tuples and the exception which ended the
iteration. -/
def readNamed (u : Unicode) (cfg : Cfg) (fieldnames : Option (List Str)) (restkey : DKey) (restval : DVal) (text : Str) :
    List (List (Str × DVal)) × Option PyErr :=
  let (rows, e) := readFile cfg text
  let r := match fieldnames, rows with
    | some fn, rows => namedItems u fn restkey restval (rows.filter (fun r => !r.isEmpty))
    | none, [] => ([], none)
    | none, fn :: rows => namedItems u fn restkey restval (rows.filter (fun r => !r.isEmpty))
  (r.1, match r.2 with | some e' => some e' | none => e)

/-- The items `iterrows` yields. -/
inductive Item where
  | row (r : Row)
  | dict (d : List (DKey × DVal))
  | named (t : List (Str × DVal))
  deriving DecidableEq, Repr

/-- `list(iterrows(…))`, dsv.py 355-382 (`utf-8`; `fieldnames`, `restkey` and `restval` are not passed). -/
def iterrows (u : Unicode) (cfg : Cfg) (namedtuples dicts : Bool) (text : Str) : List Item × Option PyErr :=
  if namedtuples && dicts then ([], some .valueError)
  else if namedtuples then
    let r := readNamed u cfg none none .none text
    (r.1.map .named, r.2)
  else if dicts then
    let r := readDicts cfg none none .none text
    (r.1.map .dict, r.2)
  else
    let r := readFile cfg text
    (r.1.map .row, r.2)

end Csvw.Dsv
