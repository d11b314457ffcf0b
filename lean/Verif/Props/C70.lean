import Verif.Lemmas.Db
import Verif.Lemmas.Frictionless4
import Verif.Spec.Dsv
/-!
# C70: database files
-/

namespace Csvw.Props
open Csvw.Db Csvw.Spec Csvw.Datatypes

section
variable {ext : Ext} {sx : SqlExt} {tr : Translator} {skip force : Bool} {tables : List TableSpec} {items : List (Str × List RowDict)}

theorem createSome_eq : ∀ (ts : List TableSpec) (db : Database),
    (∀ db', createAll tr db ts = .ok db' → createSome tr db ts = (db', none)) ∧
    (∀ e, createAll tr db ts = .error e → ∃ db', createSome tr db ts = (db', some e))
  | [], db => by
    constructor
    · intro db' h; cases h; rfl
    · intro e h; cases h
  | t :: r, db => by
    unfold createAll createSome
    cases create tr db t with
    | error e =>
      constructor
      · intro db' h; cases h
      · intro e' h; cases h; exact ⟨db, rfl⟩
    | ok db1 => exact createSome_eq r db1

/-- The tables of `db'` are those of `db` and new empty ones. -/
def OnlyEmptyAdded (db db' : Database) : Prop := ∃ new, db' = db ++ new ∧ ∀ t ∈ new, t.rows = []

theorem createSome_added : ∀ (ts : List TableSpec) (db : Database), OnlyEmptyAdded db (createSome tr db ts).1
  | [], db => ⟨[], by simp [createSome], by simp⟩
  | t :: r, db => by
    unfold createSome
    cases hc : create tr db t with
    | error e => exact ⟨[], by simp, by simp⟩
    | ok db1 =>
      obtain ⟨new, h1, h2⟩ := createSome_added r db1
      have : OnlyEmptyAdded db db1 := by
        unfold create at hc
        simp only at hc
        split at hc
        · cases hc
        split at hc
        · split at hc
          · cases hc
          · cases hc; exact ⟨[], by simp, by simp⟩
        · split at hc
          · cases hc
          · cases hc
            refine ⟨_, rfl, ?_⟩
            intro t ht; rw [List.mem_singleton] at ht; rw [ht]
      obtain ⟨new', h3, h4⟩ := this
      refine ⟨new' ++ new, by rw [← List.append_assoc, ← h3]; exact h1, ?_⟩
      intro t ht
      rcases List.mem_append.1 ht with h | h
      · exact h4 t h
      · exact h2 t h

theorem writeDb_ok {db : Database} :
    writeDb ext sx tr skip tables items [] = (db, none) ↔ write ext sx tr skip tables items = .ok db := by
  unfold writeDb write insertAll
  cases hc : createAll tr [] tables with
  | error e =>
    obtain ⟨db', h⟩ := (createSome_eq tables []).2 e hc
    rw [h]; simp
  | ok db0 =>
    rw [(createSome_eq tables []).1 db0 hc]
    simp only
    cases writeTables ext sx tr skip items db0 [] tables with
    | error e => simp
    | ok p =>
      obtain ⟨db1, refs⟩ := p
      simp only
      cases writeRefs sx tr refs db1 with
      | error e => simp
      | ok db2 => simp

theorem writeDb_error {old db : Database} {e : PyErr} (h : writeDb ext sx tr skip tables items old = (db, some e)) :
    OnlyEmptyAdded old db := by
  have ha := createSome_added (tr := tr) tables old
  unfold writeDb at h
  split at h
  · next db1 e1 hc => cases h; rw [hc] at ha; exact ha
  · next db1 hc =>
    rw [hc] at ha
    unfold insertAll at h
    split at h
    · cases h; exact ha
    · split at h
      · cases h; exact ha
      · cases h

/-- **C70** Without `force`, an existing database file is not touched, and `ValueError` is raised. -/
theorem C70_no_force (db : Database) :
    writeFile ext sx tr skip false tables items (some db) = (some db, some .valueError) := by
  unfold writeFile; rw [if_pos ⟨by simp, rfl⟩]

/-- **C70** With `force` or without an existing file, `write` succeeds exactly if the rows can be written into an empty database; this is what
the file contains then (C46–C48, C58), whatever it contained before. -/
theorem C70_written {old : Option Database} (h : old = none ∨ force = true) (db : Database) :
    writeFile ext sx tr skip force tables items old = (some db, none) ↔ write ext sx tr skip tables items = .ok db := by
  unfold writeFile
  rw [if_neg (by rcases h with h | h <;> simp [h]), ← writeDb_ok]
  cases writeDb ext sx tr skip tables items [] with
  | mk a b => simp

/-- **C70** If writing fails then no row at all is in the file. -/
theorem C70_failed {old : Option Database} (h : old = none ∨ force = true) {db : Option Database} {e : PyErr}
    (hw : writeFile ext sx tr skip force tables items old = (db, some e)) :
    ∃ db', db = some db' ∧ ∀ t ∈ db', t.rows = [] := by
  unfold writeFile at hw
  rw [if_neg (by rcases h with h | h <;> simp [h])] at hw
  cases hd : writeDb ext sx tr skip tables items [] with
  | mk a b =>
    rw [hd] at hw
    cases hw
    obtain ⟨new, h1, h2⟩ := writeDb_error hd
    exact ⟨a, rfl, by rw [h1]; simpa using h2⟩

/-- **C70** The exception is the one of writing into an empty database. -/
theorem C70_failed_iff {old : Option Database} (h : old = none ∨ force = true) :
    (∃ db e, writeFile ext sx tr skip force tables items old = (db, some e)) ↔ ∃ e, write ext sx tr skip tables items = .error e := by
  have key := C70_written (ext := ext) (sx := sx) (tr := tr) (skip := skip) (tables := tables) (items := items) h
  constructor
  · rintro ⟨db, e, he⟩
    cases hw : write ext sx tr skip tables items with
    | error e => exact ⟨e, rfl⟩
    | ok d => rw [(key d).2 hw] at he; cases he
  · rintro ⟨e, he⟩
    cases hf : writeFile ext sx tr skip force tables items old with
    | mk a b =>
      cases b with
      | some e' => exact ⟨a, e', rfl⟩
      | none =>
        exfalso
        have ha : ∃ d, a = some d := by
          unfold writeFile at hf
          rw [if_neg (by rcases h with h | h <;> simp [h])] at hf
          exact ⟨_, (congrArg Prod.fst hf).symm⟩
        obtain ⟨d, rfl⟩ := ha
        rw [(key d).1 hf] at he; cases he

/-! ## In memory -/

/-- `db'` has the tables of `db`, with rows added at the end. -/
def RowsAdded (db db' : Database) : Prop :=
  All2 (fun t u => u.name = t.name ∧ u.columns = t.columns ∧ ∃ new, u.rows = t.rows ++ new) db db'

theorem RowsAdded.refl : ∀ db : Database, RowsAdded db db
  | [] => .nil
  | _ :: r => .cons ⟨rfl, rfl, [], by simp⟩ (RowsAdded.refl r)

theorem RowsAdded.trans {a b c : Database} (h : RowsAdded a b) (h' : RowsAdded b c) : RowsAdded a c :=
  Frictionless.All2_imp (fun _ _ ⟨_, h1, h2⟩ => by
    obtain ⟨a1, a2, n1, a3⟩ := h1
    obtain ⟨b1, b2, n2, b3⟩ := h2
    exact ⟨b1.trans a1, b2.trans a2, n1 ++ n2, by rw [b3, a3, List.append_assoc]⟩) (Frictionless.All2_trans h h')

theorem insertRows_added {all : Database} {keys : List Str} : ∀ {vs : List (List Sql)} {t t' : DbTable}, insertRows sx all keys vs t = .ok t' →
    t'.name = t.name ∧ t'.columns = t.columns ∧ ∃ new, t'.rows = t.rows ++ new
  | [], t, t', h => by cases h; exact ⟨rfl, rfl, [], by simp⟩
  | v :: r, t, t', h => by
    unfold insertRows at h
    split at h
    · cases h
    · next t1 h1 =>
      obtain ⟨a1, a2, n2, a3⟩ := insertRows_added h
      unfold insertRow at h1
      split at h1
      · cases h1
      · simp only at h1
        split at h1
        · cases h1
        · cases h1
          exact ⟨a1, a2, _, by rw [a3]; simp only [List.append_assoc]; rfl⟩

theorem insertIn_added {all : Database} {name : Str} {keys : List Str} {vs : List (List Sql)} : ∀ {db db' : Database},
    insertIn sx all name keys vs db = .ok db' → RowsAdded db db'
  | [], db', h => by
    unfold insertIn at h
    split at h
    · cases h; exact .nil
    · cases h
  | t :: db, db', h => by
    unfold insertIn at h
    split at h
    · obtain ⟨t', h1, rfl⟩ := Except.map_eq_ok.1 h
      exact .cons (insertRows_added h1) (RowsAdded.refl db)
    · obtain ⟨r, h1, rfl⟩ := Except.map_eq_ok.1 h
      exact .cons ⟨rfl, rfl, [], by simp⟩ (insertIn_added h1)

theorem insert_added {name : Str} {keys : List Str} {vs : List (List Sql)} {db db' : Database}
    (h : Db.insert sx name keys vs db = .ok db') : RowsAdded db db' := insertIn_added h

theorem writeTables_added : ∀ {ts : List TableSpec} {db db' : Database} {refs refs' : Refs},
    writeTables ext sx tr skip items db refs ts = .ok (db', refs') → RowsAdded db db'
  | [], db, db', refs, refs', h => by unfold writeTables at h; cases h; exact RowsAdded.refl db
  | t :: r, db, db', refs, refs', h => by
    unfold writeTables at h
    split at h
    · exact writeTables_added h
    · split at h
      · cases h
      · next db1 refs1 hw =>
        refine RowsAdded.trans ?_ (writeTables_added h)
        unfold writeTable at hw
        split at hw
        · cases hw
        · simp only at hw
          split at hw
          · cases hw
          · next hi => cases hw; exact insert_added hi

theorem writeRefs_added : ∀ {refs : Refs} {db db' : Database}, writeRefs sx tr refs db = .ok db' → RowsAdded db db'
  | [], db, db', h => by unfold writeRefs at h; cases h; exact RowsAdded.refl db
  | (a, row) :: r, db, db', h => by
    unfold writeRefs at h
    split at h
    · cases h
    · split at h
      · cases h
      · next hi => exact RowsAdded.trans (insert_added hi) (writeRefs_added h)

/-- **C70** In memory, the rows written before are kept; new rows are added after them, in tables which may have been added. -/
theorem C70_memory {old db : Database} (h : writeMemory ext sx tr skip tables items (some old) = (db, none)) :
    ∃ created, OnlyEmptyAdded old created ∧ RowsAdded created db := by
  have ha := createSome_added (tr := tr) tables old
  unfold writeMemory writeDb at h
  simp only [Option.getD_some] at h
  split at h
  · cases h
  · next db1 hc =>
    rw [hc] at ha
    unfold insertAll at h
    split at h
    · cases h
    · next db2 refs hw =>
      split at h
      · cases h
      · next hr => cases h; exact ⟨db1, ha, RowsAdded.trans (writeTables_added hw) (writeRefs_added hr)⟩

/-- **C70** If writing into memory fails, then no row was added or removed. -/
theorem C70_memory_failed {old db : Database} {e : PyErr} (h : writeMemory ext sx tr skip tables items (some old) = (db, some e)) :
    OnlyEmptyAdded old db := writeDb_error h

end

/-! ## Examples -/

/-- A table with one column of strings. -/
def fileSpec : TableSpec := { name := "t.csv".toList, columns := [{ name := ['a'] }] }

/-- The database with one row. -/
def fileDb : Database := [{ name := "t.csv".toList, columns := [(['a'], .text)], rows := [[(['a'], .text ['x'])]] }]

/-- **C70** What one might expect is violated: if writing with `force` fails, the rows of the old database are lost. -/
theorem C70_violated_lost (ext : Ext) (sx : SqlExt) :
    writeFile ext sx nameTranslator false true [fileSpec] [("t.csv".toList, [[(['b'], .one (.str ['y']))]])] (some fileDb) =
      (some [{ name := "t.csv".toList, columns := [(['a'], .text)] }], some .valueError) := rfl

/-- Writing a row, where the engine has no constraints. -/
theorem C70_example (ext : Ext) (sx : SqlExt) (hs : sx.refuse [{ name := "t.csv".toList, columns := [(['a'], .text)] }] "t.csv".toList [] [(['a'], .text ['x'])] = false) :
    writeFile ext sx nameTranslator false true [fileSpec] [("t.csv".toList, [[(['a'], .one (.str ['x']))]])] (some []) = (some fileDb, none) := by
  rw [C70_written (.inr rfl)]
  have : Db.insert sx "t.csv".toList [['a']] [[.text ['x']]] [{ name := "t.csv".toList, columns := [(['a'], .text)] }] = .ok fileDb := by
    show ((match (if sx.refuse [{ name := "t.csv".toList, columns := [(['a'], .text)] }] "t.csv".toList [] [(['a'], .text ['x'])] then Except.error PyErr.dbError else _ : Res DbTable) with
      | .error e => Except.error e
      | .ok t' => insertRows sx [{ name := "t.csv".toList, columns := [(['a'], .text)] }] [['a']] [] t').map (· :: [])) = _
    rw [if_neg (by rw [hs]; decide)]; rfl
  have h2 : writeTables ext sx nameTranslator false [("t.csv".toList, [[(['a'], .one (.str ['x']))]])]
      [{ name := "t.csv".toList, columns := [(['a'], .text)] }] [] [fileSpec] = .ok (fileDb, []) := by
    have h3 : writeTable ext sx nameTranslator false fileSpec [[(['a'], .one (.str ['x']))]]
        [{ name := "t.csv".toList, columns := [(['a'], .text)] }] = .ok (fileDb, []) := by
      show (match Db.insert sx "t.csv".toList [['a']] [[.text ['x']]] [{ name := "t.csv".toList, columns := [(['a'], .text)] }] with
        | .error e => Except.error e
        | .ok db' => .ok (db', ([] : Refs))) = _
      rw [this]
    show (match writeTable ext sx nameTranslator false fileSpec [[(['a'], .one (.str ['x']))]]
        [{ name := "t.csv".toList, columns := [(['a'], .text)] }] with
      | .error e => Except.error e
      | .ok (db', refs') => .ok (db', [] ++ refs')) = _
    rw [h3]; rfl
  show (match writeTables ext sx nameTranslator false [("t.csv".toList, [[(['a'], .one (.str ['x']))]])]
      [{ name := "t.csv".toList, columns := [(['a'], .text)] }] [] [fileSpec] with
    | .error e => Except.error e
    | .ok (db', refs) => writeRefs sx nameTranslator refs db') = _
  rw [h2]; rfl

end Csvw.Props
