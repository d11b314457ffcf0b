import Verif.Model.JsonLd
import Verif.Model.Open
/-!
# Conversion of tables to JSON

Model of `Triple.from_col` (`/repo/src/csvw/jsonld.py` 69–88) and of `CSVW.to_json`, `_table_to_json`,
`_row_to_json`, `_describes` (`metadata.py` 1783–1874).
-/

namespace Csvw.ToJson
open JsonLd

/-- The external functions, grouped; `eq` is Python's `==`. -/
structure Env where
  ext : Ext
  x : MExt
  jx : JExt
  eq : Table.PyEq

/-- `cols` (1807): a later column with the same header replaces an earlier one. -/
def colsOf (t : Table) : List (Str × CCol) := Dict.ofPairs (t.ccols.map fun c => (c.col.header, c))

/-- `col.propertyUrl` or `col.valueUrl`, which were replaced by the inherited ones for the columns in `cols` (1808–1810). -/
def colUrl (t : Table) (p : Prp) (c : CCol) : PVal :=
  if Dict.get c.col.header (colsOf t) = some c then inherit p c.chain else c.col.props.get p

/-- `table.inherit(…)` (jsonld.py 75, 80). -/
def tableUrl (t : Table) (p : Prp) : PVal := inherit p (t.props :: (t.group.map Prod.fst).toList)

/-- `if tmpl: … table.expand(tmpl, row, _row=rownum, _name=name, qname=qname)`: `none` if there is no template. -/
def expand (e : Env) (t : Table) (tmpl : PVal) (row : RowDict) (rownum : Nat) (name : Option Str) (qname : Bool) : Res (Option Str) :=
  match tmpl with
  | .json .null => .ok none
  | .tmpl u => (e.jx.expand t.url (some u) row rownum name qname).map some
  | .invalid => (e.jx.expand t.url none row rownum name qname).map some
  | _ => .error .attributeError

/-- `propertyUrl`, `valueUrl` (75, 80). -/
def cellUrl (t : Table) (p : Prp) (col : Option CCol) : PVal :=
  match col with
  | some c => colUrl t p c
  | none => tableUrl t p

/-- `aboutUrl` (85). -/
def cellAbout (col : Option CCol) : PVal :=
  match col with
  | some c => c.col.props.aboutUrl
  | none => .json .null

/-- `Triple.from_col` (jsonld.py 69–88). -/
def fromCol (e : Env) (t : Table) (col : Option CCol) (row : RowDict) (prop : Str) (val : CVal) (rownum : Nat) : Res Triple := do
  let name := col.map fun c => c.col.header
  let p ← expand e t (cellUrl t .propertyUrl col) row rownum name true
  let prop := p.getD prop
  let v ← expand e t (cellUrl t .valueUrl col) row rownum name (decide (prop = "rdf:type".toList))
  let val ← formatValue e.ext e.jx col ((v.map fun s => CVal.one (.str s)).getD val)
  let about ← expand e t (cellAbout col) row rownum name false
  return { about := nonEmpty about, property := prop, value := val }

/-- `col.inherit_null() if col else table.inherit_null()` (1858). -/
def nullOf (t : Table) (col : Option CCol) : List Str :=
  match col with
  | some c => c.null
  | none => inheritNull (t.props :: (t.group.map Prod.fst).toList)

/-- `col.separator and v == []` (1860), with the separator of the column itself. -/
def emptyList (col : Option CCol) (v : CVal) : Bool :=
  match col with
  | some c => c.col.props.separator.truthy && decide (v = .many [])
  | none => false

/-- Is the cell skipped (1853–1861)? -/
def skipped (e : Env) (t : Table) (col : Option CCol) (v : CVal) : Bool :=
  (col.any fun c => c.col.suppressOutput || c.col.virtual) ||
  ((nullOf t col).any fun s => e.eq v (.one (.str s))) || e.eq v (.one (.str [])) || decide (v = .one .none) || emptyList col v

/-- The name of the property of the `i`th item of a row (1866–1867). -/
def propName (t : Table) (noMetadata : Bool) (i : Nat) (k : Str) : Str :=
  if t.schema.columns = [] && !noMetadata then colNumber i else k

/-- The loop over the items of a row (1851–1869). -/
def cellTriples (e : Env) (t : Table) (noMetadata : Bool) (row : RowDict) (rownum : Nat) : Nat → RowDict → Res (List Triple)
  | _, [] => .ok []
  | i, (k, v) :: r =>
    if skipped e t (Dict.get k (colsOf t)) v then cellTriples e t noMetadata row rownum (i + 1) r
    else do
      let a ← fromCol e t (Dict.get k (colsOf t)) row (propName t noMetadata i k) v rownum
      let as ← cellTriples e t noMetadata row rownum (i + 1) r
      return a :: as

/-- The loop over the virtual columns (1871–1873). -/
def virtualTriples (e : Env) (t : Table) (row : RowDict) (rownum : Nat) : List CCol → Res (List Triple)
  | [] => .ok []
  | c :: r =>
    if c.col.virtual then do
      let a ← fromCol e t (some c) row c.col.header (.one .none) rownum
      let as ← virtualTriples e t row rownum r
      return a :: as
    else virtualTriples e t row rownum r

/-- The triple for the `aboutUrl` of the row (1846–1849). -/
def rowTriples (e : Env) (t : Table) (row : RowDict) (rownum : Nat) : Res (List Triple) := do
  let s ← expand e t (inherit .aboutUrl t.parents) row rownum none false
  return match s with
    | some s => [{ about := none, property := "@id".toList, value := .one (.str s) }]
    | none => []

/-- `_describes` (1842–1873). -/
def describes (e : Env) (t : Table) (noMetadata : Bool) (row : RowDict) (rownum : Nat) : Res (List (List (Str × Out))) := do
  let a ← rowTriples e t row rownum
  let b ← cellTriples e t noMetadata row rownum 1 row
  let c ← virtualTriples e t row rownum t.ccols
  groupTriples e.jx (a ++ (b ++ c))

/-- `bool(v)` for the value of a cell. -/
def truthy (ext : Ext) : CVal → Bool
  | .one v => v.truthy ext
  | .many l => !l.isEmpty

/-- A value of a cell as output. -/
def outVal (v : CVal) : Out := .prop (.of v)

/-- `titles` (1831–1835). -/
def rowTitles (e : Env) (t : Table) (row : RowDict) : List (Str × Out) :=
  if t.schema.rowTitles = [] then []
  else
    let vs := (t.schema.rowTitles.filterMap fun j => match j with | .str n => Dict.get n row | _ => none).filter (truthy e.ext)
    [("titles".toList, match vs with
      | [v] => outVal v
      | vs => .list (vs.map outVal))]

/-- `str(n)` for an integer. -/
def intStr (n : Int) : Str := (toString n).toList

/-- `_row_to_json` (1827–1840). -/
def rowToJson (e : Env) (t : Table) (noMetadata : Bool) (rownum : Nat) (line : Int) (row : RowDict) : Res Out := do
  let d ← describes e t noMetadata row rownum
  return .obj ([("url".toList, .json (.str (e.jx.resolve t.url ++ "#row=".toList ++ intStr line))),
    ("rownum".toList, .json (.int rownum))] ++ (rowTitles e t row ++ [("describes".toList, .list (d.map .obj))]))

/-- The rows (1812–1816), numbered from `n`. -/
def rowsToJson (e : Env) (t : Table) (noMetadata : Bool) : Nat → List (Int × RowDict) → Res (List Out)
  | _, [] => .ok []
  | n, (line, row) :: r => do
    let a ← rowToJson e t noMetadata n line row
    let as ← rowsToJson e t noMetadata (n + 1) r
    return a :: as

/-- `table._comments` after reading (1460, 1817). -/
def commentsOf (t : Table) (text : Str) : List Str :=
  match Dsv.Cfg.ofDialect t.getDialect with
  | .error _ => []
  | .ok cfg => (Dsv.collect cfg.dialect (Dsv.openText cfg text)).2.2.comments.map Prod.snd

/-- The items of an object which `to_json` returned. -/
def objItems : J → Res (List (Str × J))
  | .obj m => .ok m
  | _ => .error .typeError

/-- `res.update(…)`. -/
def update (d e : List (Str × Out)) : List (Str × Out) := e.foldl (fun d p => Dict.set p.1 p.2 d) d

/-- `notes` (1805–1806). -/
def notesOf (d : TableD) : Res (Option J) := if d.like.notes.truthy then (toJson false d.like.notes).map some else .ok none

/-- The first part of `_table_to_json` (1800–1810). -/
def tableHead (e : Env) (d : TableD) (t : Table) : Res (List (Str × Out)) := do
  let notes ← notesOf d
  let common ← toJson false (.obj d.like.props.common)
  let common ← objItems common
  return update (("url".toList, .json (.str (e.jx.resolve t.url))) ::
    ((match Dict.get "id".toList d.like.props.atProps with | some i => [("@id".toList, .json i)] | none => []) ++
     (match notes with | some n => [("notes".toList, .json n)] | none => []))) (outJson common)

/-- Adding the comments (1817–1818). -/
def withComments (cs : List Str) (d : List (Str × Out)) : List (Str × Out) :=
  if cs = [] then d else Dict.set "rdfs:comment".toList (.json (.arr (cs.map .str))) d

/-- `_table_to_json` (1800–1825) for a data file with the given content. -/
def tableToJson (e : Env) (noMetadata : Bool) (d : TableD) (t : Table) (text : Str) : Res Out := do
  let head ← tableHead e d t
  let out := t.iterdicts e.ext e.x false false text
  let rows ← rowsToJson e t noMetadata 1 out.rows
  match out.err with
  | some err => .error err
  | none => return .obj (Dict.set "row".toList (.list rows) (withComments (commentsOf t text) head))

/-! ## Datasets -/

/-- A `CSVW` object after `__init__` (1664–1687): its description and `no_metadata`. -/
structure Data where
  desc : Sum TableD GroupD
  noMetadata : Bool := false

/-- The tables (1682): as described, and as used for reading. -/
def Data.tables (d : Data) : List (TableD × Table) :=
  match d.desc with
  | .inl t => [(t, { props := t.like.props, schema := t.like.schema, dialect := t.like.dialect, url := t.like.url.getD [] })]
  | .inr g => g.tables.map fun t => (t, g.table t)

/-- The common properties of the group (1791–1792). -/
def Data.common (d : Data) : List (Str × J) :=
  match d.desc with
  | .inl _ => []
  | .inr g => g.like.props.common

/-- The tables which are converted (1793–1794). -/
def tablesToJson (e : Env) (data : Str → Str) (noMetadata : Bool) : List (TableD × Table) → Res (List Out)
  | [] => .ok []
  | (d, t) :: r =>
    if d.suppressOutput.truthy then tablesToJson e data noMetadata r
    else do
      let a ← tableToJson e noMetadata d t (data t.url)
      let as ← tablesToJson e data noMetadata r
      return a :: as

/-- The properties of the group (1791–1792). -/
def commonOf (d : Data) : Res (List (Str × J)) := if d.common = [] then .ok [] else (JsonLd.toJson true (.obj d.common)).bind objItems

/-- `csvw.to_json()` (1783–1798); `data` gives the content of the data files. -/
def toJson (e : Env) (data : Str → Str) (d : Data) : Res Out := do
  let common ← commonOf d
  let ts ← tablesToJson e data d.noMetadata d.tables
  return .obj (Dict.set "tables".toList (.list ts) (outJson common))

/-- `r['describes'][0]` (1797). -/
def firstDescribed : Out → Res Out
  | .obj m => match Dict.get "describes".toList m with
    | some (.list (o :: _)) => .ok o
    | some _ => .error .indexError
    | none => .error .keyError
  | _ => .error .typeError

/-- `f(x) for x in l`, with the first error. -/
def each (f : Out → Res (List Out)) : List Out → Res (List Out)
  | [] => .ok []
  | a :: r => do
    let x ← f a
    let xs ← each f r
    return x ++ xs

/-- `t['row']` (1797). -/
def rowsOf : Out → List Out
  | .obj m => match Dict.get "row".toList m with
    | some (.list os) => os
    | _ => []
  | _ => []

/-- `res['tables']`. -/
def tablesOf : Out → List Out
  | .obj m => match Dict.get "tables".toList m with
    | some (.list os) => os
    | _ => []
  | _ => []

/-- `csvw.to_json(minimal=True)` (1795–1797). -/
def toJsonMinimal (e : Env) (data : Str → Str) (d : Data) : Res (List Out) := do
  let o ← toJson e data d
  each (fun t => each (fun r => (firstDescribed r).map fun x => [x]) (rowsOf t)) (tablesOf o)

end Csvw.ToJson
