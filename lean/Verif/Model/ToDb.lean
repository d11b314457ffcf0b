import Verif.Model.Db
import Verif.Model.Files
/-!
# From data files to a database

Model of `Database.write_from_tg` in `/repo/src/csvw/db.py` 508–513 and of the command `csvw2sqlite` in `/repo/src/csvw/__main__.py`
125–144.
-/

namespace Csvw.Db

/-- The parameters of `write` besides the tables (516): a table with such a name cannot be passed as keyword argument. -/
def writeParams : List Str := ["self".toList, "force".toList, "_exists_ok".toList, "_skip_extra".toList]

/-- `self.write(…, **items)` (509–513): if a table is named as another argument, Python raises `TypeError` before `write` is called. -/
def callWrite (ext : Ext) (sx : SqlExt) (tr : Translator) (skip force : Bool) (tables : List TableSpec)
    (items : List (Str × List RowDict)) (old : Option Database) : Option Database × Option PyErr :=
  if (Dict.keys items).any fun k => writeParams.contains k then (old, some .typeError)
  else writeFile ext sx tr skip force tables items old

/-- `Database(tg, fname).write_from_tg(_force=force, _skip_extra=skip)` (346–377, 508–513): `old` is the content of the database file, if it
exists. The result: the content of the file afterwards, and the exception, if any. -/
def writeFromTg (ext : Ext) (x : MExt) (fx : FExt) (sx : SqlExt) (tr : Translator) (skip force drop : Bool) (d : Disk) (g : FGroup)
    (old : Option Database) : Option Database × Option PyErr :=
  match schema g.desc.group drop with
  | .error e => (old, some e)
  | .ok tables => match g.read ext x fx d with
    | .error e => (old, some e)
    | .ok items => callWrite ext sx tr skip force tables items old

/-- `csvw2sqlite` (`__main__.py` 125–144) for a local metadata file: names are not translated, keys which reference their own table are
dropped, and an existing database is replaced. -/
def csvw2sqlite (ext : Ext) (x : MExt) (other : Base → Derived → J → Res Val) (lk : EncLookup) (fx : FExt) (sx : SqlExt) (d : Disk)
    (p : PPath) (old : Option Database) : Option Database × Option PyErr :=
  match FGroup.fromFile ext x other lk fx d p with
  | .error e => (old, some e)
  | .ok g => writeFromTg ext x fx sx nameTranslator false true true d g old

end Csvw.Db
