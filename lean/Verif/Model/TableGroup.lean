import Verif.Model.Table
/-!
# Table groups: foreign keys and referential integrity

Model of `TableGroup` in `/repo/src/csvw/metadata.py` 1473–1637.
-/

namespace Csvw

/-- A `TableGroup` (1474–1495): only its tables matter here. (The properties and the dialect the tables inherit from the group are
part of the `Table`s of the model.) -/
structure TableGroup where
  tables : List Table := []
  deriving DecidableEq, Repr

/-- An item of the list returned by `foreign_keys` (1540): referenced table and columns, referencing table and columns. -/
structure FKey where
  st : Table
  sc : List Str
  tt : Table
  tc : List Str
  deriving DecidableEq, Repr

namespace TableGroup
open Table

/-- `tabledict` (1536–1538): of several tables with the same URL, the last one is found. -/
def tabledict (g : TableGroup) : List (Str × Table) := Dict.ofPairs (g.tables.map fun t => (t.url, t))

/-- The item of `foreign_keys` for a foreign key of table `t` (1542–1546): without resource there is an `AttributeError`, with an
unknown one a `KeyError`. -/
def fkeyOf (g : TableGroup) (t : Table) (fk : ForeignKey) : Res FKey :=
  match fk.resource with
  | none => .error .attributeError
  | some r => match Dict.get r g.tabledict with
    | none => .error .keyError
    | some st => .ok ⟨st, fk.refColumns, t, fk.columnReference⟩

/-- The foreign keys of all tables, except those which reference a schema (1547–1548). -/
def fkPairs (g : TableGroup) : List (Table × ForeignKey) :=
  g.tables.flatMap fun t => (t.schema.foreignKeys.filter fun fk => fk.schemaReference = none).map fun fk => (t, fk)

/-- The list comprehension (1541–1548). -/
def fkeysOf (g : TableGroup) : List (Table × ForeignKey) → Res (List FKey)
  | [] => .ok []
  | (t, fk) :: r => match fkeyOf g t fk with
    | .error e => .error e
    | .ok k => match fkeysOf g r with
      | .error e => .error e
      | .ok ks => .ok (k :: ks)

/-- `foreign_keys()` (1540–1548). -/
def foreignKeys (g : TableGroup) : Res (List FKey) := fkeysOf g g.fkPairs

/-- `get_column(name, strict=strict)`. -/
def column (s : Schema) (strict : Bool) (name : Str) : Res (Option Column) :=
  if strict then s.getColumnStrict name else s.getColumn name

/-- The comparison of datatypes (1561–1565): only the column's own datatypes, and only if both have one. -/
def sameBase (a b : Column) : Bool :=
  match a.props.datatype, b.props.datatype with
  | .dtype d, .dtype e => decide (d.base = e.base)
  | _, _ => true

/-- The checks for a pair of columns (1557–1565). -/
def checkPair (st tt : Schema) (strict : Bool) (scol tcol : Str) : Res Unit :=
  match column st strict scol with
  | .error e => .error e
  | .ok a => match column tt strict tcol with
    | .error e => .error e
    | .ok b => match a, b with
      | some a, some b => if sameBase a b then .ok () else .error .valueError
      | _, _ => .error .valueError

/-- The loop over the pairs of columns (1556–1565). -/
def checkPairs (st tt : Schema) (strict : Bool) : List (Str × Str) → Res Unit
  | [] => .ok ()
  | (a, b) :: r => match checkPair st tt strict a b with
    | .error e => .error e
    | .ok _ => checkPairs st tt strict r

/-- The loop over the foreign keys (1552–1565). -/
def checkFkeys (strict : Bool) : List FKey → Res Unit
  | [] => .ok ()
  | k :: r =>
    if k.sc.length ≠ k.tc.length then .error .valueError
    else match checkPairs k.st.schema k.tt.schema strict (k.sc.zip k.tc) with
      | .error e => .error e
      | .ok _ => checkFkeys strict r

/-- The exceptions handled at 1566–1567. -/
def asForeignKeyError {α : Type} : Res α → Res α
  | .error .keyError => .error .valueError
  | .error .assertionError => .error .valueError
  | r => r

/-- `validate_schema(strict)` (1550–1567). -/
def validateSchema (g : TableGroup) (strict : Bool) : Res Unit :=
  asForeignKeyError (match g.foreignKeys with
    | .error e => .error e
    | .ok ks => checkFkeys strict ks)

/-! ## Referential integrity -/

/-- Reading the data of a table, `iterdicts(log=…)`; the flag says whether there is a log. -/
abbrev Reader := Table → Bool → IterOut

/-- Is the value `None`? (The JSON value `null` is also read as `None`.) -/
def isNone (v : CVal) : Bool := v = .one .none || v = .one (.json .null)

/-- The items, if the value is a list (1617). -/
def listItems : CVal → Option (List CVal)
  | .many l => some (l.map .one)
  | .one (.json (.arr l)) => some (l.map fun j => .one (.json j))
  | _ => none

/-- `k in seen`: `TypeError` if the key is not hashable. -/
def inSeen (eq : PyEq) (seen : List (List CVal)) (k : List CVal) : Res Bool :=
  if !k.all hashable then .error .typeError else .ok (seen.any fun s => keyEq eq s k)

/-- The loop over the rows of the referenced table (1602–1608) for one key. Keys are tuples of values; a key of one column stands for its value. The result: the keys, and whether a key occurred
twice. (In the code, one loop over the rows serves all keys; the order of exceptions may differ.) -/
def seenKeys (eq : PyEq) (key : List Str) : List (List CVal) → Bool → List RowDict → Res (List (List CVal) × Bool)
  | seen, dup, [] => .ok (seen, dup)
  | seen, dup, row :: r => match getKey row key with
    | .error e => .error e
    | .ok k => match inSeen eq seen k with
      | .error e => .error e
      | .ok b => seenKeys eq key (k :: seen) (dup || b) r

/-- `None in colref`, for a single value which is not `None` (1625; the referenced key has several columns, the referencing one
does not): only lists have items. -/
def noneIn (v : CVal) : Res Bool :=
  match listItems v with
  | some l => .ok (l.any isNone)
  | none => .error .typeError

/-- The references to look up for the value of a foreign key (1614–1627). -/
def colrefs (single : Bool) (vs : List CVal) : Res (List (List CVal)) :=
  match vs with
  | [v] =>
    if isNone v then .ok []
    else if single then match listItems v with
      | some l => .ok (l.map fun i => [i])
      | none => .ok [[v]]
    else match noneIn v with
      | .error e => .error e
      | .ok true => .ok []
      | .ok false => .ok [[v]]
  | vs => if !single && vs.any isNone then .ok [] else .ok [vs]

/-- Looking up references (1624–1636): `true` if all were found. -/
def lookupRefs (eq : PyEq) (log : Bool) (seen : List (List CVal)) : List (List CVal) → Bool → Res Bool
  | [], ok => .ok ok
  | k :: r, ok => match inSeen eq seen k with
    | .error e => .error e
    | .ok true => lookupRefs eq log seen r ok
    | .ok false => if log then lookupRefs eq log seen r false else .error .valueError

/-- The loop over the rows of a referencing table (1613–1636). `err`: the exception reading ends with. -/
def childRows (eq : PyEq) (log single : Bool) (seen : List (List CVal)) (ref : List Str) (err : Option PyErr) :
    List RowDict → Bool → Res Bool
  | [], ok => match err with
    | none => .ok ok
    | some e => .error e
  | row :: r, ok => match getKey row ref with
    | .error e => .error e
    | .ok vs => match colrefs single vs with
      | .error e => .error e
      | .ok refs => match lookupRefs eq log seen refs ok with
        | .error e => .error e
        | .ok ok' => childRows eq log single seen ref err r ok'

/-- The rows `iterdicts` yields. -/
def rowsOf (out : IterOut) : List RowDict := out.rows.map Prod.snd

/-- The referencing tables of a key (1611–1636). `itemgetter()` without key raises `TypeError`. -/
def children (eq : PyEq) (read : Reader) (log single : Bool) (seen : List (List CVal)) : List FKey → Bool → Res Bool
  | [], ok => .ok ok
  | k :: r, ok =>
    if k.tc = [] then .error .typeError
    else match childRows eq log single seen k.tc (read k.tt log).err (rowsOf (read k.tt log)) ok with
      | .error e => .error e
      | .ok ok' => children eq read log single seen r ok'

/-- `itertools.groupby`: the items in groups of consecutive items with equal keys. -/
def groupBy {α β : Type} [DecidableEq β] (f : α → β) : List α → List (List α)
  | [] => []
  | a :: r => match groupBy f r with
    | [] => [[a]]
    | [] :: gs => [a] :: gs
    | (b :: g) :: gs => if f a = f b then (a :: b :: g) :: gs else [a] :: (b :: g) :: gs

/-- The rows of the referenced table for all keys (1601–1608): the keys seen for each key group, and `success`. -/
def allSeen (eq : PyEq) (strict : Bool) (out : IterOut) : List (List FKey) → Bool → Res (List (List (List CVal)) × Bool)
  | [], ok => match out.err with
    | none => .ok ([], ok)
    | some e => .error e
  | [] :: r, ok => allSeen eq strict out r ok
  | (k :: _) :: r, ok =>
    if k.sc = [] then .error .typeError
    else match seenKeys eq k.sc [] false (rowsOf out) with
      | .error e => .error e
      | .ok (seen, dup) => match allSeen eq strict out r (ok && !(strict && dup)) with
        | .error e => .error e
        | .ok (ss, ok') => .ok (seen :: ss, ok')

/-- The loop over the key groups (1609–1636). -/
def keyGroups (eq : PyEq) (read : Reader) (log : Bool) : List (List FKey) → List (List (List CVal)) → Bool → Res Bool
  | (k :: g) :: r, seen :: ss, ok =>
    match children eq read log (decide (k.sc.length = 1)) seen (k :: g) ok with
    | .error e => .error e
    | .ok ok' => keyGroups eq read log r ss ok'
  | _, _, ok => .ok ok

/-- A group of foreign keys with the same referenced table (1597–1636). -/
def tableGroup (eq : PyEq) (read : Reader) (log strict : Bool) (grp : List FKey) (ok : Bool) : Res Bool :=
  match grp with
  | [] => .ok ok
  | k :: r => match allSeen eq strict (read k.st log) (groupBy FKey.sc (k :: r)) ok with
    | .error e => .error e
    | .ok (ss, ok') => keyGroups eq read log (groupBy FKey.sc (k :: r)) ss ok'

/-- The loop over the groups (1596–1637). -/
def tableGroups (eq : PyEq) (read : Reader) (log strict : Bool) : List (List FKey) → Bool → Res Bool
  | [], ok => .ok ok
  | g :: r, ok => match tableGroup eq read log strict g ok with
    | .error e => .error e
    | .ok ok' => tableGroups eq read log strict r ok'

/-- `a <= b` for strings. -/
def strLe : Str → Str → Bool
  | [], _ => true
  | _ :: _, [] => false
  | a :: as, b :: bs => if a = b then strLe as bs else decide (a.toNat < b.toNat)

/-- `a <= b` for lists of strings. -/
def strsLe : List Str → List Str → Bool
  | [], _ => true
  | _ :: _, [] => false
  | a :: as, b :: bs => if a = b then strsLe as bs else strLe a b

/-- The order by which the foreign keys are sorted (1592). -/
def fkeyLe (a b : FKey) : Bool :=
  if a.st.url ≠ b.st.url then strLe a.st.url b.st.url
  else if a.sc ≠ b.sc then strsLe a.sc b.sc
  else strLe a.tt.url b.tt.url

/-- The rows of a table in the check for null values (1580–1583): reading is without log. -/
def nullCheck (out : IterOut) (cols : List Str) : Res Unit :=
  if (rowsOf out).any fun row => cols.any fun c => isNone ((Dict.get c row).getD (.one .none)) then .error .valueError
  else match out.err with
    | none => .ok ()
    | some e => .error e

/-- The check for null values (1577–1583), for all foreign keys. -/
def nullChecks (read : Reader) : List (Table × ForeignKey) → Res Unit
  | [] => .ok ()
  | (t, fk) :: r => match nullCheck (read t false) fk.columnReference with
    | .error e => .error e
    | .ok _ => nullChecks read r

/-- The initial value of `success` (1584–1589). -/
def schemaOk (g : TableGroup) (log : Bool) : Res Bool :=
  match g.validateSchema false with
  | .ok _ => .ok true
  | .error .valueError => if log then .ok false else .error .valueError
  | .error e => .error e

/-- `check_referential_integrity(log=…, strict=…)` (1570–1637). -/
def checkReferentialIntegrity (eq : PyEq) (read : Reader) (g : TableGroup) (log strict : Bool) : Res Bool :=
  match (if strict then nullChecks read (g.tables.flatMap fun t => t.schema.foreignKeys.map fun fk => (t, fk)) else .ok ()) with
  | .error e => .error e
  | .ok _ => match g.schemaOk log with
    | .error e => .error e
    | .ok ok => match g.foreignKeys with
      | .error e => .error e
      | .ok ks => tableGroups eq read log strict (groupBy (fun k => k.st.url) (ks.mergeSort fkeyLe)) ok

end TableGroup
end Csvw
