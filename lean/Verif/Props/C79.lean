import Verif.Lemmas.Clean10
import Verif.Props.C74
/-!
# C79: warnings about descriptions

`Warn.group`, `Warn.table`, … tell whether a warning is issued when a description is read by `fromvalue`.
-/

namespace Csvw.Props
open Csvw Spec

section
variable {ext : Ext} {x : MExt} {other : Base → Derived → J → Res Val} {lk : EncLookup}

/-- **C79** If the description of a group of tables can be read, it is read without warning if and only if it has no unknown properties and only
values of the right kind, as do all its tables, schemas, columns, datatypes and dialects, and the names of the columns are valid and different. -/
theorem C79_group (hlk : lk "utf-8".toList = .ok ()) {m : List (Str × J)} (hj : DistinctKeys (.obj m)) {g : GroupD}
    (h : GroupD.fromvalue ext x other lk (.obj m) = .ok g) :
    Warn.group ext x other lk m = false ↔ GroupClean ext lk (fun s => x.tagOk s = true) m := group_iff hlk hj h

/-- **C79** … for a single table. -/
theorem C79_table (hlk : lk "utf-8".toList = .ok ()) {m : List (Str × J)} (hj : DistinctKeys (.obj m)) {t : TableD}
    (h : TableD.fromvalue ext x other lk (.obj m) = .ok t) :
    Warn.table ext x other lk m = false ↔ TableClean ext lk (fun s => x.tagOk s = true) m := table_iff hlk hj h

/-- **C79** … for a schema. -/
theorem C79_schema {m : List (Str × J)} (hj : DistinctKeys (.obj m)) {s : Schema} (h : Schema.fromvalue ext x other (.obj m) = .ok s) :
    Warn.schemaObj ext x other m = false ↔ SchemaClean ext (fun s => x.tagOk s = true) m := schemaObj_iff hj h

/-- **C79** … for a column. -/
theorem C79_column {m : List (Str × J)} (hj : DistinctKeys (.obj m)) {c : Column} (h : Column.fromvalue ext x other (.obj m) = .ok c) :
    Warn.column ext x m = false ↔ ColumnClean ext (fun s => x.tagOk s = true) m := column_iff hj h

/-- **C79** … for a datatype, a name or an object. -/
theorem C79_datatype {j : J} (hj : DistinctKeys j) {dt : Datatype} (h : Datatype.fromvalue ext x other j = .ok dt) :
    Warn.datatype ext x j = false ↔
      (∃ b ∈ allBases, j = .str b.toList) ∨ ∃ d, j = .obj d ∧ DatatypeClean ext (fun s => x.tagOk s = true) d := datatype_iff hj h

/-- **C79** … for a dialect. -/
theorem C79_dialect (hlk : lk "utf-8".toList = .ok ()) {m : List (Str × J)} (hj : DistinctKeys (.obj m)) {d : Option Dialect}
    (h : convDialect lk x (.obj m) = .ok d) :
    Warn.dialect lk x (.obj m) = false ↔ DialectClean lk (fun s => x.tagOk s = true) m := dialectObj_iff hlk hj h

/-- **C79** A group of tables which is read without warning has all the properties which were given, with the given values, as do all its tables,
schemas, columns and dialects; nothing is dropped, and no default is used for a given value. -/
theorem C79_kept (hlk : lk "utf-8".toList = .ok ()) {m : List (Str × J)} (hj : DistinctKeys (.obj m)) {g : GroupD}
    (h : GroupD.fromvalue ext x other lk (.obj m) = .ok g) (hw : Warn.group ext x other lk m = false) : GroupKept ext x other m g :=
  group_kept hlk hj h ((group_iff hlk hj h).1 hw)

/-- **C79** … for a single table. -/
theorem C79_kept_table (hlk : lk "utf-8".toList = .ok ()) {m : List (Str × J)} (hj : DistinctKeys (.obj m)) {t : TableD}
    (h : TableD.fromvalue ext x other lk (.obj m) = .ok t) (hw : Warn.table ext x other lk m = false) : TableKept ext x other m t :=
  table_kept hlk hj h ((table_iff hlk hj h).1 hw)

/-! ## Examples -/

/-- A description with common properties, a dialect, two columns, and a primary key. -/
theorem C79_example : ∃ m, rereadExample = .obj m ∧ DistinctKeys (.obj m) ∧
    GroupD.fromvalue ext x other (fun _ => .ok ()) (.obj m) = .ok rereadGroup ∧ Warn.group ext x other (fun _ => .ok ()) m = false ∧
    GroupClean ext (fun _ => .ok ()) (fun s => x.tagOk s = true) m := by
  have h1 : DistinctKeys rereadExample := distinct_of_bool (by decide +kernel)
  have h2 : GroupD.fromvalue ext x other (fun _ => .ok ()) rereadExample = .ok rereadGroup := rfl
  refine ⟨_, rfl, h1, h2, ?_, ?_⟩
  · rfl
  · exact (C79_group (lk := fun _ => .ok ()) rfl h1 h2).1 rfl

/-- A misspelled property is reported. -/
example : Warn.column ext x [("nmae".toList, .str "a".toList)] = true ∧
    ∃ c, Column.fromvalue ext x other (.obj [("nmae".toList, .str "a".toList)]) = .ok c ∧ c.name = none := ⟨rfl, _, rfl, rfl⟩

/-- A value of the wrong kind is reported. -/
example : Warn.column ext x [("name".toList, .str "a".toList), ("ordered".toList, .str "yes".toList)] = true ∧
    ∃ c, Column.fromvalue ext x other (.obj [("name".toList, .str "a".toList), ("ordered".toList, .str "yes".toList)]) = .ok c ∧
      c.props.ordered = .bool false := ⟨rfl, _, rfl, rfl⟩

/-- Two columns with neither name nor title are reported, as if they had the same header: the numbers are given later. -/
theorem C79_violated_unnamed : Warn.schemaObj ext x other [("columns".toList, .arr [.obj [], .obj []])] = true ∧
    ∃ s, Schema.fromvalue ext x other (.obj [("columns".toList, .arr [.obj [], .obj []])]) = .ok s ∧
      s.columns.map Column.header = ["_col.1".toList, "_col.2".toList] := by
  exact ⟨rfl, { columns := [{ number := 1 }, { number := 2 }] }, rfl, by decide +kernel⟩

/-- A transformation with the properties which the standard requires is reported, because only inherited properties are known for it. -/
theorem C79_violated_transformation : Warn.table ext x other lk [("url".toList, .str "t.csv".toList), ("transformations".toList,
    .arr [.obj [("url".toList, .str "t.mustache".toList), ("scriptFormat".toList, .str "https://mustache.github.io/".toList),
      ("targetFormat".toList, .str "http://www.iana.org/assignments/media-types/text/html".toList)]])] = true := rfl

/-- A schema which is a list or a number is ignored without notice, -/
theorem C79_violated_schema (l : List J) : Warn.schema ext x other (.arr l) = false ∧
    Schema.fromvalue ext x other (.arr l) = Schema.fromvalue ext x other (.obj []) := ⟨rfl, rfl⟩

/-- … as is a datatype which counts as false. -/
theorem C79_violated_datatype : Warn.column ext x [("name".toList, .str "a".toList), ("datatype".toList, .int 0)] = false ∧
    ∃ c, Column.fromvalue ext x other (.obj [("name".toList, .str "a".toList), ("datatype".toList, .int 0)]) = .ok c ∧
      c.props.datatype = .json (.int 0) := ⟨rfl, _, rfl, rfl⟩

end

end Csvw.Props
