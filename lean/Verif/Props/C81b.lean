import Verif.Props.C81
/-!
# C81: no data is dropped on the way to the database

If the data of a table group is written without the option to skip columns, success means that all cells of all rows were stored: a column of
a data file which the metadata does not describe is an error. The command `csvw2sqlite` gives the same database whatever was in the file.
-/

namespace Csvw.Props

open Csvw.Spec Csvw.Db Csvw.Table

section
variable {ext : Ext} {x : MExt} {fx : FExt} {sx : SqlExt} {tr : Translator} {force drop : Bool} {d : Disk} {g : FGroup}
  {old : Option Database} {db : Database}

/-- The table has a column for the values with key `k`, or an association table. -/
def HasPlace (t : TableSpec) (k : Str) : Prop := (∃ c ∈ t.columns, c.name = k) ∨ k ∈ Dict.keys t.manyToMany

theorem itemLoop_known {t : TableSpec} {pk : CVal} {row : RowDict} {st st' : RowState}
    (h : itemLoop ext sx t false pk st row = .ok st') : ∀ k ∈ Dict.keys row, HasPlace t k := by
  induction row generalizing st with
  | nil => intro k hk; simp [Dict.keys] at hk
  | cons p r ih =>
    obtain ⟨k, v⟩ := p
    unfold itemLoop at h
    cases hi : itemStep ext sx t false pk st k v with
    | error e => rw [hi] at h; cases h
    | ok st1 =>
      rw [hi] at h
      intro k' hk'
      rw [Dict.keys_cons] at hk'
      rcases List.mem_cons.1 hk' with rfl | hk'
      · unfold itemStep at hi
        cases hm : Dict.get k' t.manyToMany with
        | some a => exact .inr ((Dict.get_isSome_iff_mem_keys _ _).1 (by rw [hm]; rfl))
        | none =>
          rw [hm] at hi
          simp only at hi
          cases hf : t.columns.reverse.find? (fun c => c.name = k') with
          | none => rw [hf] at hi; simp at hi
          | some c =>
            refine .inl ⟨c, List.mem_reverse.1 (List.mem_of_find?_eq_some hf), ?_⟩
            simpa using List.find?_some hf
      · exact ih h k' hk'

theorem rowLoop_known {t : TableSpec} {rows : List RowDict} {sts : List RowState} (h : rowLoop ext sx t false rows = .ok sts) :
    ∀ row ∈ rows, ∀ k ∈ Dict.keys row, HasPlace t k := by
  induction rows generalizing sts with
  | nil => intro row hrow; cases hrow
  | cons row r ih =>
    unfold rowLoop at h
    cases hs : Db.rowStep ext sx t false row with
    | error e => rw [hs] at h; cases h
    | ok st =>
      rw [hs] at h
      simp only at h
      cases hr : rowLoop ext sx t false r with
      | error e => rw [hr] at h; cases h
      | ok sts' =>
        intro row' hrow'
        rcases List.mem_cons.1 hrow' with rfl | hrow'
        · unfold Db.rowStep at hs
          cases hp : pkOf t row' with
          | error e => rw [hp] at hs; cases hs
          | ok pk => rw [hp] at hs; exact itemLoop_known hs
        · exact ih hr row' hrow'

theorem writeTables_known {items : List (Str × List RowDict)} {ts : List TableSpec} {db db' : Database} {refs refs' : Refs}
    (h : writeTables ext sx tr false items db refs ts = .ok (db', refs')) {t : TableSpec} (ht : t ∈ ts) {rows : List RowDict}
    (hg : Dict.get t.name items = some rows) : ∀ row ∈ rows, ∀ k ∈ Dict.keys row, HasPlace t k := by
  induction ts generalizing db refs with
  | nil => cases ht
  | cons t0 r ih =>
    unfold writeTables at h
    cases h0 : Dict.get t0.name items with
    | none =>
      rw [h0] at h
      rcases List.mem_cons.1 ht with rfl | ht
      · rw [hg] at h0; cases h0
      · exact ih h ht
    | some rows0 =>
      rw [h0] at h
      simp only at h
      cases hw : writeTable ext sx tr false t0 rows0 db with
      | error e => rw [hw] at h; cases h
      | ok p =>
        rw [hw] at h
        rcases List.mem_cons.1 ht with rfl | ht
        · rw [hg] at h0
          cases h0
          unfold writeTable at hw
          cases hl : rowLoop ext sx t false rows with
          | error e => rw [hl] at hw; cases hw
          | ok sts => exact rowLoop_known hl
        · exact ih h ht

/-- **C81** If the data of a table group was written, without `_skip_extra`, then every cell of every data file had its place in the
database: a column of the table, or an association table. -/
theorem C81_complete (h : writeFromTg ext x fx sx tr false force drop d g old = (some db, none)) (hf : FreshNames g.desc.group) {t : Table}
    (ht : TableNamed g.desc.group t.url t) :
    ∃ spec rows, fromTable t drop = .ok spec ∧ t.readRows ext x fx d g.fname = .ok rows ∧
      ∀ row ∈ rows, ∀ k ∈ Dict.keys row, (∃ c ∈ spec.columns, c.name = k) ∨ k ∈ Dict.keys spec.manyToMany := by
  obtain ⟨tables, items, h1, h2, h3, h4, h5⟩ := fromTg_inv h
  obtain ⟨spec, hs1, hs2⟩ := spec_fresh h1 hf ht
  have hn := fromTable_name hs2
  obtain ⟨-, hi⟩ := get_mapRes (f := fun p => p.2.readRows ext x fx d g.fname) h2 t.url
  obtain ⟨rows, hr1, hr2⟩ := hi t (((tabledict_iff _ t.url).1 t).2 ht)
  refine ⟨spec, rows, hs2, hr1, ?_⟩
  unfold Db.write at h4
  cases hc : createAll tr [] tables with
  | error e => rw [hc] at h4; cases h4
  | ok db0 =>
    rw [hc] at h4
    simp only at h4
    cases hw : writeTables ext sx tr false items db0 [] tables with
    | error e => rw [hw] at h4; cases h4
    | ok p => exact writeTables_known hw hs1 (by rw [hn]; exact hr2)

/-- **C81** The command `csvw2sqlite` drops nothing: if it succeeds, every cell of every data file had its place in the database. -/
theorem C81_command_complete {other : Base → Derived → J → Res Val} {lk : EncLookup} {p : PPath}
    (h : csvw2sqlite ext x other lk fx sx d p old = (some db, none)) :
    ∃ g, FGroup.fromFile ext x other lk fx d p = .ok g ∧ (FreshNames g.desc.group → ∀ t, TableNamed g.desc.group t.url t →
      ∃ spec rows, fromTable t true = .ok spec ∧ t.readRows ext x fx d g.fname = .ok rows ∧
        ∀ row ∈ rows, ∀ k ∈ Dict.keys row, (∃ c ∈ spec.columns, c.name = k) ∨ k ∈ Dict.keys spec.manyToMany) := by
  unfold csvw2sqlite at h
  cases hg : FGroup.fromFile ext x other lk fx d p with
  | error e => rw [hg] at h; simp at h
  | ok g =>
    rw [hg] at h
    exact ⟨g, rfl, fun hf t ht => C81_complete h hf ht⟩

/-- **C81** What `csvw2sqlite` writes does not depend on what was in the database before. -/
theorem C81_replaced {other : Base → Derived → J → Res Val} {lk : EncLookup} {p : PPath}
    (h : csvw2sqlite ext x other lk fx sx d p old = (some db, none)) (old' : Option Database) :
    csvw2sqlite ext x other lk fx sx d p old' = (some db, none) := by
  unfold csvw2sqlite at h ⊢
  cases hg : FGroup.fromFile ext x other lk fx d p with
  | error e => rw [hg] at h; simp at h
  | ok g =>
    rw [hg] at h
    simp only at h ⊢
    obtain ⟨tables, items, h1, h2, h3, h4, -⟩ := fromTg_inv h
    unfold writeFromTg
    rw [h1, h2]
    simp only
    unfold callWrite
    rw [if_neg (by
      intro ha
      obtain ⟨k, hk, hk2⟩ := List.any_eq_true.1 ha
      exact h3 k hk (List.contains_iff_mem.1 hk2))]
    exact (C70_written (.inr rfl) db).2 h4

end

/-- The example of `C81_example` meets the hypotheses of `C81_complete`. -/
theorem C81_example_complete (ext : Ext) (x : MExt) (fx : FExt) (sx : SqlExt) (hr : ∀ db n rows r, sx.refuse db n rows r = false)
    (old : Option Database) :
    (∃ db, writeFromTg ext x fx sx nameTranslator false true true (threeDisk "t.csv".toList "a,c,b\n1,2,3\n4,5,6\n".toList)
      (threeFile "t.csv".toList) old = (some db, none)) ∧ FreshNames (threeFile "t.csv".toList).desc.group := by
  obtain ⟨⟨db, h⟩, -⟩ := C81_example_aligned ext x fx sx hr old
  exact ⟨⟨db, h.write⟩, h.fresh⟩

/-- … and a file with a column which the metadata does not describe is refused (with the option, this column would be left out). -/
theorem C81_example_extra (ext : Ext) (x : MExt) (fx : FExt) (sx : SqlExt) (old : Option Database) :
    ∀ db, writeFromTg ext x fx sx nameTranslator false true true (threeDisk "t.csv".toList "a,c,b,e\n1,2,3,4\n".toList)
        (threeFile "t.csv".toList) old ≠ (some db, none) := by
  intro db h
  obtain ⟨tables, items, h1, h2, h3, h4, -⟩ := fromTg_inv h
  have h0 : DataRows (threeT "t.csv".toList) "a,c,b,e\n1,2,3,4\n".toList
      [(1, [['a'], ['c'], ['b'], ['e']]), (2, [['1'], ['2'], ['3'], ['4']])] none :=
    ⟨_, rfl, by decide +kernel, by decide +kernel⟩
  rw [show (threeFile "t.csv".toList).desc.group = (threeGroup "t.csv".toList).group from rfl, three_schema] at h1
  have h2' : (threeFile "t.csv".toList).read ext x fx (threeDisk "t.csv".toList "a,c,b,e\n1,2,3,4\n".toList) =
      .ok [("t.csv".toList, [[(['a'], .one (.str ['1'])), (['c'], .one (.str ['2'])), (['b'], .one (.str ['3'])),
        (['e'], .one (.str ['4']))]])] := (three_read h0).trans rfl
  rw [h2'] at h2
  cases h1
  cases h2
  simp [Db.write, createAll, create, badTable, oddTable, oddName, foldName, Char.toLower, ColSpec.check, threeSpec, threeTable, nameTranslator, ColSpec.dbType,
    Dict.keys, writeTables, writeTable, rowLoop, Db.rowStep, pkOf, itemLoop, itemStep, stored, asList, convert, Db.bind, Dict.get, Dict.has] at h4

end Csvw.Props
