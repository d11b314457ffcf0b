import Verif.Model.Db
/-!
# The text of SQL statements

Model of the functions in `/repo/src/csvw/db.py` which make SQL statements: `quoted` (82–83), `insert` (104–107), `select` (120–121),
`ColSpec.check` (150–184), `ColSpec.sql` (185–191), `TableSpec.sql` (288–304), `select_many_to_many` (406–417).
-/

namespace Csvw.Db
open Csvw.Py

/-- A name in backticks (83). -/
def tick (n : Str) : Str := '`' :: (n ++ ['`'])

/-- `quoted(*names)` (82–83). -/
def quoted (names : List Str) : Str := join [','] (names.map tick)

/-- `'{}'.format(n)` of an `int`. -/
def intText (i : Int) : Str := Dec.intStr false i

/-- `'{}'.format(v)` of a bound (170, 172). `str` is the text of values which are no numbers. -/
def boundText (str : Val → Str) : Val → Str
  | .int i => intText i
  | .flt t => t
  | .dec d => d.toStr false
  | v => str v

/-- One condition (168–182): `col` is the (translated) name of the column. -/
def condText (str : Val → Str) (col : Str) : ColSpec.Cond → Str
  | .ge (some f) b => f ++ '(' :: tick col ++ ") >= ".toList ++ f ++ "('".toList ++ boundText str b ++ "')".toList
  | .ge none b => tick col ++ " >= ".toList ++ boundText str b
  | .le (some f) b => f ++ '(' :: tick col ++ ") <= ".toList ++ f ++ "('".toList ++ boundText str b ++ "')".toList
  | .le none b => tick col ++ " <= ".toList ++ boundText str b
  | .lenEq n => "length(".toList ++ tick col ++ ") = ".toList ++ intText n
  | .lenGe n => "length(".toList ++ tick col ++ ") >= ".toList ++ intText n
  | .lenLe n => "length(".toList ++ tick col ++ ") <= ".toList ++ intText n

/-- `db_type` as text (48–70, 141–148). -/
def typeText : DbType → Str
  | .text => "TEXT".toList
  | .integer => "INTEGER".toList
  | .real => "REAL".toList
  | .blob => "BLOB".toList

/-- `ColSpec.sql` (185–191) with `check` (150–184): `col` is the (translated) name. -/
def colText (str : Val → Str) (col : Str) (c : ColSpec) : Str :=
  tick col ++ ' ' :: typeText c.dbType ++ (if c.required then " NOT NULL".toList else []) ++
    (if c.check = [] then [] else " CHECK (".toList ++ join " AND ".toList (c.check.map (condText str col)) ++ [')'])

/-- The clause for a primary key (295–297). -/
def keyText (names : List Str) : Str := "PRIMARY KEY(".toList ++ quoted names ++ [')']

/-- The clause for a foreign key (298–302). -/
def foreignText (names : List Str) (table : Str) (refs : List Str) : Str :=
  "FOREIGN KEY(".toList ++ quoted names ++ ") REFERENCES ".toList ++ quoted [table] ++ '(' :: quoted refs ++ ") ON DELETE CASCADE".toList

/-- The clauses of a statement (293–302). -/
def clauses (str : Val → Str) (tr : Translator) (t : TableSpec) : List Str :=
  t.columns.map (fun c => colText str (tr t.name (some c.name)) c) ++
  (match t.primaryKey with
    | none | some [] => []
    | some pk => [keyText (pk.map fun k => tr t.name (some k))]) ++
  t.foreignKeys.map fun fk =>
    foreignText (fk.1.map fun k => tr t.name (some k)) (tr fk.2.1 none) (fk.2.2.map fun k => tr fk.2.1 (some k))

/-- `TableSpec.sql` (288–304). -/
def createText (str : Val → Str) (tr : Translator) (t : TableSpec) : Str :=
  "CREATE TABLE IF NOT EXISTS ".toList ++ tick (tr t.name none) ++ " (\n    ".toList ++ join ",\n    ".toList (clauses str tr t) ++ "\n)".toList

/-- The statement in `insert` (104–107), for translated names. -/
def insertText (table : Str) (cols : List Str) : Str :=
  "INSERT INTO ".toList ++ quoted [table] ++ " (".toList ++ quoted cols ++ ") VALUES (".toList ++ join [','] (cols.map fun _ => ['?']) ++ [')']

/-- The statement in `select` (121). -/
def selectText (table : Str) : Str := "SELECT * FROM ".toList ++ quoted [table]

/-- The condition in `select_many_to_many` (411–413). -/
def whereText : Option Str → Str
  | some c => "WHERE context = '".toList ++ c ++ ['\'']
  | none => []

/-- The statement in `select_many_to_many` (407–417): `a` and `b` are the (translated) names of the columns. -/
def linksText (a b table : Str) (context : Option Str) : Str :=
  "SELECT ".toList ++ quoted [a] ++ ", group_concat(".toList ++ quoted [b] ++ ", ' '), group_concat(COALESCE(context, ''), '||')\nFROM ".toList ++
    quoted [table] ++ ' ' :: whereText context ++ " GROUP BY ".toList ++ quoted [a]

end Csvw.Db
