import Verif.Model.TableGroup
/-!
# The `CSVW` class: validation

Model of `CSVW.tables`, `CSVW.tablegroup` and `CSVW.is_valid` (`/repo/src/csvw/metadata.py` 1682, 1690–1717).
-/

namespace Csvw

/-- A `CSVW` object: the description (a table or a table group, 1664–1682) and whether `self.warnings` is not empty. -/
structure Dataset where
  desc : Sum Table TableGroup
  warned : Bool := false

namespace Dataset
open Table

/-- `self.tables` (1682). -/
def tables (d : Dataset) : List Table :=
  match d.desc with
  | .inl t => [t]
  | .inr g => g.tables

/-- `self.tablegroup` (1714–1717): a single table is put into a new group without properties. -/
def tablegroup (d : Dataset) : TableGroup :=
  match d.desc with
  | .inl t => ⟨[{ t with group := some ({}, none) }]⟩
  | .inr g => g

/-- Does `check_primary_key` issue warnings? It reads the data strictly (1290), if there is a primary key. -/
def keyWarns (ext : Ext) (x : MExt) (t : Table) (text : Str) : Bool :=
  match t.schema.primaryKey with
  | none | some [] => false
  | some _ => (t.iterdicts ext x true true text).warned

/-- The checks of one table (1703–1706): was there a warning? `data` gives the content of the data files. Exceptions are not
caught. -/
def checkTable (ext : Ext) (x : MExt) (eq : PyEq) (data : Str → Str) (t : Table) : Res Bool :=
  match (t.iterdicts ext x false false (data t.url)).err with
  | some e => .error e
  | none => match t.checkPrimaryKey ext x eq false (data t.url) with
    | .error e => .error e
    | .ok b => .ok ((t.iterdicts ext x false false (data t.url)).warned || keyWarns ext x t (data t.url) || !b)

/-- The loop over the tables (1702–1706). -/
def checkTables (ext : Ext) (x : MExt) (eq : PyEq) (data : Str → Str) : List Table → Res Bool
  | [] => .ok false
  | t :: r => match checkTable ext x eq data t with
    | .error e => .error e
    | .ok w => match checkTables ext x eq data r with
      | .error e => .error e
      | .ok w' => .ok (w || w')

/-- `table.iterdicts(log=log)` as used by `check_referential_integrity`. -/
def reader (ext : Ext) (x : MExt) (data : Str → Str) : TableGroup.Reader := fun t log => t.iterdicts ext x true log (data t.url)

/-- The tables `check_referential_integrity(strict=True)` reads, if it does not raise an exception: those with foreign keys (1578–1581,
1611–1613) and those which are referenced (1602). -/
def readTables (g : TableGroup) : List Table :=
  (g.tables.filter fun t => t.schema.foreignKeys ≠ []) ++
    (match g.foreignKeys with
     | .ok ks => ks.map FKey.st
     | .error _ => [])

/-- `is_valid` (1690–1712): the result, and the object afterwards (`self.warnings` is extended). Simplification: the filter for
warnings is the default one. -/
def isValid (ext : Ext) (x : MExt) (eq : PyEq) (data : Str → Str) (d : Dataset) : Res (Bool × Dataset) :=
  if d.warned then .ok (false, d)
  else match checkTables ext x eq data d.tables with
    | .error e => .error e
    | .ok w => match d.tablegroup.checkReferentialIntegrity eq (reader ext x data) false true with
      | .error e => .error e
      | .ok b =>
        let w' := w || !b || (readTables d.tablegroup).any fun t => (reader ext x data t false).warned
        .ok (!w', { d with warned := w' })

end Dataset
end Csvw
