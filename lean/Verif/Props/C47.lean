import Verif.Lemmas.Db
import Verif.Spec.Dsv
/-!
# C47: values of rows in the database
-/

namespace Csvw.Props
open Csvw.Spec Csvw.Db Csvw.Datatypes

/-! ## Specification -/

/-- The item of a row dict with this key is the value of a column of the table (and not a list-valued foreign key). -/
def IsColumnKey (t : TableSpec) (k : Str) : Prop := k ∉ Dict.keys t.manyToMany ∧ ∃ c ∈ t.columns, c.name = k

instance (t : TableSpec) (k : Str) : Decidable (IsColumnKey t k) := inferInstanceAs (Decidable (_ ∧ _))

/-- The items of a row dict which are values of columns. -/
def columnItems (t : TableSpec) (row : RowDict) : RowDict := row.filter fun p => decide (IsColumnKey t p.1)

/-- The setting: a database is written, with different names for the tables; `t` is one of them, and `rows` its rows. -/
structure Written (ext : Ext) (sx : SqlExt) (tr : Translator) (skip : Bool) (tables : List TableSpec) (items : List (Str × List RowDict))
    (db : Database) (t : TableSpec) (rows : List RowDict) : Prop where
  write : write ext sx tr skip tables items = .ok db
  names : (tables.map fun t => foldName (tr t.name none)).Nodup
  table : t ∈ tables
  assoc : ∀ t' ∈ tables, ∀ p ∈ t'.manyToMany, foldName (tr p.2.name none) ≠ foldName (tr t.name none)
  rows : Dict.get t.name items = some rows

/-- The value in a column of a database row. -/
def cellOf (tr : Translator) (t : TableSpec) (c : ColSpec) (r : Row) : Option Sql := Dict.get (tr t.name (some c.name)) r

/-- The database row contains the values of the row dict: for every column of the table, what is stored for the value of the dict with the
name of the column as key, or `NULL` if there is none. -/
def StoresRow (ext : Ext) (sx : SqlExt) (tr : Translator) (t : TableSpec) (row : RowDict) (r : Row) : Prop :=
  ∀ c ∈ t.columns, c.name ∉ Dict.keys t.manyToMany →
    (∀ v, Dict.get c.name row = some v → ∃ w, stored ext sx c v = .ok w ∧ cellOf tr t c r = some (affinity sx c.dbType w)) ∧
    (Dict.get c.name row = none → cellOf tr t c r = some .null)

/-! ## Proof -/

section
variable {ext : Ext} {sx : SqlExt} {tr : Translator} {skip : Bool}

/-- An item and the value stored for it. -/
def ItemStored (ext : Ext) (sx : SqlExt) (t : TableSpec) (p : Str × CVal) (q : Str × Sql) : Prop :=
  q.1 = p.1 ∧ ∃ c ∈ t.columns, c.name = p.1 ∧ stored ext sx c p.2 = .ok q.2

theorem find_col {t : TableSpec} {k : Str} {c : ColSpec} (h : t.columns.reverse.find? (fun c => c.name = k) = some c) :
    c ∈ t.columns ∧ c.name = k := by
  refine ⟨?_, by simpa using List.find?_some h⟩
  have := List.mem_of_find?_eq_some h
  simpa using this

theorem find_col_none {t : TableSpec} {k : Str} (h : t.columns.reverse.find? (fun c => c.name = k) = none) :
    ∀ c ∈ t.columns, c.name ≠ k := by
  rw [List.find?_eq_none] at h
  intro c hc
  simpa using h c (by simpa using hc)

theorem itemLoop_values {t : TableSpec} {pk : CVal} {row : RowDict} {st st' : RowState}
    (h : itemLoop ext sx t skip pk st row = .ok st') :
    ∃ new, All2 (ItemStored ext sx t) (columnItems t row) new ∧ st'.keys = st.keys ++ new.map Prod.fst ∧
      st'.values = st.values ++ new.map Prod.snd := by
  induction row generalizing st with
  | nil => unfold itemLoop at h; cases h; exact ⟨[], .nil, by simp, by simp⟩
  | cons kv r ih =>
    obtain ⟨k, v⟩ := kv
    unfold itemLoop at h
    cases hs : itemStep ext sx t skip pk st k v with
    | error e => rw [hs] at h; cases h
    | ok st1 =>
      rw [hs] at h
      simp only at h
      obtain ⟨new, h1, h2, h3⟩ := ih h
      unfold itemStep at hs
      split at hs
      · rename_i a ha
        have hk : ¬ IsColumnKey t k := fun hk => hk.1 (by
          rw [← Dict.get_isSome_iff_mem_keys, ha]; rfl)
        have hci : columnItems t ((k, v) :: r) = columnItems t r := by
          unfold columnItems
          rw [List.filter_cons_of_neg (by simpa using hk)]
        split at hs
        · cases hs
        · split at hs
          · cases hs
          · cases hs
            rw [hci]
            exact ⟨new, h1, h2, h3⟩
      · rename_i hnone
        split at hs
        · rename_i hf
          have hk : ¬ IsColumnKey t k := fun hk => by
            obtain ⟨c, hc, he⟩ := hk.2
            exact find_col_none hf c hc he
          have hci : columnItems t ((k, v) :: r) = columnItems t r := by
            unfold columnItems
            rw [List.filter_cons_of_neg (by simpa using hk)]
          split at hs
          · cases hs
            rw [hci]
            exact ⟨new, h1, h2, h3⟩
          · cases hs
        · rename_i c hf
          obtain ⟨hc, hcn⟩ := find_col hf
          have hk : IsColumnKey t k := by
            refine ⟨fun hm => ?_, c, hc, hcn⟩
            rw [← Dict.get_isSome_iff_mem_keys, hnone] at hm
            simp at hm
          have hci : columnItems t ((k, v) :: r) = (k, v) :: columnItems t r := by
            unfold columnItems
            rw [List.filter_cons_of_pos (by simpa using hk)]
          split at hs
          · cases hs
          · rename_i w hw
            cases hs
            rw [hci]
            refine ⟨(c.name, w) :: new, .cons ⟨hcn, c, hc, hcn, hw⟩ h1, ?_, ?_⟩
            · rw [h2]; simp
            · rw [h3]; simp

theorem rowLoop_values {t : TableSpec} {rows : List RowDict} {sts : List RowState} (h : rowLoop ext sx t skip rows = .ok sts) :
    All2 (fun row st => ∃ new, All2 (ItemStored ext sx t) (columnItems t row) new ∧ st.keys = new.map Prod.fst ∧
      st.values = new.map Prod.snd) rows sts := by
  induction rows generalizing sts with
  | nil => unfold rowLoop at h; cases h; exact .nil
  | cons row r ih =>
    unfold rowLoop at h
    cases hs : rowStep ext sx t skip row with
    | error e => rw [hs] at h; cases h
    | ok st0 =>
      rw [hs] at h
      simp only at h
      cases hr : rowLoop ext sx t skip r with
      | error e => rw [hr] at h; cases h
      | ok sts0 =>
        rw [hr] at h
        cases h
        refine .cons ?_ (ih hr)
        unfold rowStep at hs
        split at hs
        · cases hs
        · obtain ⟨new, h1, h2, h3⟩ := itemLoop_values hs
          exact ⟨new, h1, by simpa using h2, by simpa using h3⟩

theorem all2_map_fst {t : TableSpec} {l : RowDict} {new : List (Str × Sql)} (h : All2 (ItemStored ext sx t) l new) :
    new.map Prod.fst = Dict.keys l := by
  induction h with
  | nil => rfl
  | cons h _ ih =>
    rw [List.map_cons, ih, h.1]
    rfl

theorem get_newRow {columns : List (Str × DbType)} (hn : (Dict.keys columns).Nodup) {n : Str} {ty : DbType} (hc : (n, ty) ∈ columns)
    {keys : List Str} {vs : List Sql} :
    Dict.get n (newRow sx columns keys vs) = some (affinity sx ty ((Dict.get n (keys.zip vs)).getD .null)) := by
  apply Dict.get_of_mem_nodup
  · unfold newRow Dict.keys
    rw [List.map_map]
    exact hn
  · unfold newRow
    exact List.mem_map.2 ⟨(n, ty), hc, rfl⟩

theorem columns_names_nodup {t : TableSpec} (h : (Dict.keys (sqlColumns tr t)).Nodup) :
    ∀ c ∈ t.columns, ∀ c' ∈ t.columns, tr t.name (some c.name) = tr t.name (some c'.name) → c = c' := by
  unfold Dict.keys sqlColumns at h
  rw [List.map_map] at h
  generalize t.columns = l at h
  induction l with
  | nil => simp
  | cons a r ih =>
    rw [List.map_cons, List.nodup_cons] at h
    intro c hc c' hc' he
    rcases List.mem_cons.1 hc with h1 | hc <;> rcases List.mem_cons.1 hc' with h2 | hc'
    · rw [h1, h2]
    · exact absurd (List.mem_map.2 ⟨c', hc', by rw [← h1]; exact he.symm⟩) h.1
    · exact absurd (List.mem_map.2 ⟨c, hc, by rw [← h2]; exact he⟩) h.1
    · exact ih h.2 c hc c' hc' he

theorem get_zip_map {f : Str → Str} {new : List (Str × Sql)} (hn : ((new.map Prod.fst).map f).Nodup) {k : Str} {w : Sql}
    (h : (k, w) ∈ new) : Dict.get (f k) (((new.map Prod.fst).map f).zip (new.map Prod.snd)) = some w := by
  apply Dict.get_of_mem_nodup
  · unfold Dict.keys
    rw [List.map_fst_zip (by simp)]
    exact hn
  · rw [List.map_map, List.zip_map']
    exact List.mem_map.2 ⟨(k, w), h, rfl⟩

theorem all2_map_right_row {α β γ : Type} {R : α → β → Prop} {S : α → γ → Prop} {f : β → γ} {as : List α} {bs : List β}
    (h : All2 R as bs) (hf : ∀ a ∈ as, ∀ b ∈ bs, R a b → S a (f b)) : All2 S as (bs.map f) := by
  induction h with
  | nil => exact .nil
  | cons h1 _ ih =>
    refine .cons (hf _ (List.mem_cons_self ..) _ (List.mem_cons_self ..) h1) (ih ?_)
    exact fun a ha b hb => hf a (List.mem_cons_of_mem _ ha) b (List.mem_cons_of_mem _ hb)

/-- The row dicts have the same keys, in the same order (as do rows which are read from a table). -/
def SameKeys (rows : List RowDict) : Prop := ∀ row ∈ rows, ∀ row' ∈ rows, Dict.keys row = Dict.keys row'

theorem keys_columnItems {t : TableSpec} {row : RowDict} :
    Dict.keys (columnItems t row) = (Dict.keys row).filter fun k => decide (IsColumnKey t k) := by
  unfold columnItems Dict.keys
  rw [List.filter_map]
  rfl

theorem get_columnItems {t : TableSpec} {row : RowDict} {k : Str} (hk : IsColumnKey t k) :
    Dict.get k (columnItems t row) = Dict.get k row := by
  induction row with
  | nil => rfl
  | cons p r ih =>
    unfold columnItems
    by_cases hp : IsColumnKey t p.1
    · rw [List.filter_cons_of_pos (by simpa using hp)]
      obtain ⟨k', v⟩ := p
      show Dict.get k ((k', v) :: columnItems t r) = _
      simp only [Dict.get]
      split
      · rfl
      · exact ih
    · rw [List.filter_cons_of_neg (by simpa using hp)]
      obtain ⟨k', v⟩ := p
      show Dict.get k (columnItems t r) = _
      rw [ih]
      simp only [Dict.get]
      rw [if_neg]
      rintro rfl
      exact hp hk

theorem all2_get {t : TableSpec} {l : RowDict} {new : List (Str × Sql)} (h : All2 (ItemStored ext sx t) l new) {k : Str} {v : CVal}
    (hg : Dict.get k l = some v) : ∃ w, (k, w) ∈ new ∧ ∃ c ∈ t.columns, c.name = k ∧ stored ext sx c v = .ok w := by
  induction h with
  | nil => simp [Dict.get] at hg
  | @cons p q as bs h1 _ ih =>
    obtain ⟨k', v'⟩ := p
    simp only [Dict.get] at hg
    split at hg
    · rename_i he
      cases hg
      subst he
      obtain ⟨q1, q2⟩ := q
      obtain ⟨h1, c, hc, hcn, hs⟩ := h1
      simp only at h1 hcn hs
      exact ⟨q2, by rw [h1]; exact List.mem_cons_self .., c, hc, hcn, hs⟩
    · obtain ⟨w, hw, h⟩ := ih hg
      exact ⟨w, List.mem_cons_of_mem _ hw, h⟩

/-- All about the rows of the database, if the dicts have the same keys. -/
theorem written_rows {tables : List TableSpec} {items : List (Str × List RowDict)} {db : Database} {t : TableSpec} {rows : List RowDict}
    (h : Written ext sx tr skip tables items db t rows) (hsame : SameKeys rows) :
    (Dict.keys (sqlColumns tr t)).Nodup ∧ ∃ u, lookup (tr t.name none) db = some u ∧ u.name = tr t.name none ∧
      All2 (fun row r => Dict.keys r = Dict.keys (sqlColumns tr t) ∧ StoresRow ext sx tr t row r) rows u.rows := by
  obtain ⟨sts, u, a1, a2, a3, a4, a5, a6, a7⟩ := write_table h.write h.names h.table h.assoc h.rows
  refine ⟨a6, u, a2, a3, ?_⟩
  rw [a5]
  have hv := rowLoop_values a1
  have hhead : ∀ row ∈ rows, (sts.head?.map RowState.keys).getD [] = Dict.keys (columnItems t row) := by
    intro row hrow
    cases hv with
    | nil => simp at hrow
    | @cons row0 st0 as bs h1 h2 =>
      obtain ⟨new, h1, h2, -⟩ := h1
      simp only [List.head?_cons, Option.map_some, Option.getD_some]
      rw [h2, all2_map_fst h1, keys_columnItems, keys_columnItems, hsame row0 (List.mem_cons_self ..) row hrow]
  refine all2_map_right_row hv ?_
  rintro row hrow st hst ⟨new, h1, h2, h3⟩
  have hkeys : (sts.head?.map RowState.keys).getD [] = new.map Prod.fst := by
    rw [hhead row hrow, all2_map_fst h1]
  obtain ⟨-, -, hnd, -⟩ := a7 st hst
  simp only [hkeys] at hnd
  refine ⟨by unfold newRow Dict.keys; rw [List.map_map]; rfl, ?_⟩
  intro c hc hm
  have hck : IsColumnKey t c.name := ⟨hm, c, hc, rfl⟩
  have hmem : (tr t.name (some c.name), c.dbType) ∈ sqlColumns tr t := List.mem_map_of_mem (f := fun c : ColSpec => (tr t.name (some c.name), c.dbType)) hc
  unfold cellOf
  rw [hkeys, h3, get_newRow a6 hmem]
  constructor
  · intro v hg
    rw [← get_columnItems hck] at hg
    obtain ⟨w, hw, c', hc', hcn, hs⟩ := all2_get h1 hg
    have : c' = c := columns_names_nodup a6 c' hc' c hc (by rw [hcn])
    subst this
    refine ⟨w, hs, ?_⟩
    rw [get_zip_map (f := fun k => tr t.name (some k)) hnd hw]
    rfl
  · intro hg
    have hnone : Dict.get (tr t.name (some c.name)) (((new.map Prod.fst).map fun k => tr t.name (some k)).zip (new.map Prod.snd)) = none := by
      rw [Dict.get_eq_none_iff]
      intro hmm
      unfold Dict.keys at hmm
      rw [List.map_fst_zip (by simp), List.mem_map] at hmm
      obtain ⟨k, hk, he⟩ := hmm
      rw [all2_map_fst h1, keys_columnItems] at hk
      obtain ⟨hk1, hk2⟩ := List.mem_filter.1 hk
      simp only [decide_eq_true_eq] at hk2
      obtain ⟨-, c', hc', rfl⟩ := hk2
      have := columns_names_nodup a6 c' hc' c hc he
      subst this
      rw [Dict.get_eq_none_iff] at hg
      exact hg hk1
    rw [hnone]
    simp [affinity]

/-- **C47** (rows with the same keys in the same order) Every value is stored in the column with its key as name. For rows
with keys in another order than the first row, see `C47_exact` and `C47_violated`. -/
theorem C47_same_keys {tables : List TableSpec} {items : List (Str × List RowDict)} {db : Database} {t : TableSpec} {rows : List RowDict}
    (h : Written ext sx tr skip tables items db t rows) (hsame : SameKeys rows) :
    ∃ u ∈ db, u.name = tr t.name none ∧ All2 (StoresRow ext sx tr t) rows u.rows := by
  obtain ⟨-, u, h1, h2, h3⟩ := written_rows h hsame
  refine ⟨u, List.mem_of_find?_eq_some h1, h2, ?_⟩
  clear h1 h hsame
  generalize u.rows = l at h3
  induction h3 with
  | nil => exact .nil
  | cons h _ ih => exact .cons h.2 ih

theorem zip_stored {t : TableSpec} {l : RowDict} {new : List (Str × Sql)} (h : All2 (ItemStored ext sx t) l new) {l0 : RowDict}
    {p : (Str × CVal) × (Str × CVal)} (hp : p ∈ l0.zip l) :
    ∃ w, (p.1.1, w) ∈ (Dict.keys l0).zip (new.map Prod.snd) ∧ ∃ c ∈ t.columns, c.name = p.2.1 ∧ stored ext sx c p.2.2 = .ok w := by
  induction h generalizing l0 with
  | nil => simp at hp
  | @cons a b as bs h1 _ ih =>
    cases l0 with
    | nil => simp at hp
    | cons q r =>
      rw [List.zip_cons_cons] at hp
      rcases List.mem_cons.1 hp with rfl | hp
      · obtain ⟨-, c, hc, hcn, hs⟩ := h1
        refine ⟨b.2, ?_, c, hc, hcn, hs⟩
        simp [Dict.keys]
      · obtain ⟨w, hw, h⟩ := ih hp
        refine ⟨w, ?_, h⟩
        simp only [Dict.keys, List.map_cons, List.zip_cons_cons]
        exact List.mem_cons_of_mem _ hw

/-- **C47** What is stored in general: values are stored by their position, in the columns given by the keys of the first row. (All
rows must have as many values.) -/
theorem C47_exact {tables : List TableSpec} {items : List (Str × List RowDict)} {db : Database} {t : TableSpec} {row0 : RowDict}
    {rest : List RowDict} (h : Written ext sx tr skip tables items db t (row0 :: rest)) :
    ∃ u ∈ db, u.name = tr t.name none ∧
      All2 (fun row r => (columnItems t row).length = (columnItems t row0).length ∧
        ∀ p ∈ (columnItems t row0).zip (columnItems t row), ∃ c0 ∈ t.columns, ∃ c ∈ t.columns, c0.name = p.1.1 ∧ c.name = p.2.1 ∧
          ∃ w, stored ext sx c p.2.2 = .ok w ∧ cellOf tr t c0 r = some (affinity sx c0.dbType w)) (row0 :: rest) u.rows := by
  obtain ⟨sts, u, a1, a2, a3, a4, a5, a6, a7⟩ := write_table h.write h.names h.table h.assoc h.rows
  refine ⟨u, List.mem_of_find?_eq_some a2, a3, ?_⟩
  rw [a5]
  have hv := rowLoop_values a1
  have hkeys : (sts.head?.map RowState.keys).getD [] = Dict.keys (columnItems t row0) := by
    cases hv with
    | @cons _ st0 as bs h1 h2 =>
      obtain ⟨new, h1, h2, -⟩ := h1
      simp only [List.head?_cons, Option.map_some, Option.getD_some]
      rw [h2, all2_map_fst h1]
  refine all2_map_right_row hv ?_
  rintro row hrow st hst ⟨new, h1, h2, h3⟩
  obtain ⟨hlen, -, hnd, -⟩ := a7 st hst
  simp only [hkeys] at hnd hlen
  have hl2 : new.length = (columnItems t row).length := by
    have := congrArg List.length (all2_map_fst h1)
    simpa [Dict.keys] using this
  have hl3 : (columnItems t row).length = (columnItems t row0).length := by
    rw [h3, List.length_map, List.length_map, hl2] at hlen
    simpa [Dict.keys] using hlen
  refine ⟨hl3, ?_⟩
  intro p hp
  obtain ⟨w, hw, c, hc, hcn, hs⟩ := zip_stored h1 hp
  have hk0 : IsColumnKey t p.1.1 := by
    have := (List.of_mem_zip hp).1
    unfold columnItems at this
    simpa using (List.mem_filter.1 this).2
  obtain ⟨-, c0, hc0, hcn0⟩ := hk0
  refine ⟨c0, hc0, c, hc, hcn0, hcn, w, hs, ?_⟩
  have hmem : (tr t.name (some c0.name), c0.dbType) ∈ sqlColumns tr t :=
    List.mem_map_of_mem (f := fun c : ColSpec => (tr t.name (some c.name), c.dbType)) hc0
  unfold cellOf
  rw [hkeys, h3, get_newRow a6 hmem]
  have : Dict.get (tr t.name (some c0.name)) (((Dict.keys (columnItems t row0)).map fun k => tr t.name (some k)).zip
      (new.map Prod.snd)) = some w := by
    apply Dict.get_of_mem_nodup
    · show (List.map Prod.fst _).Nodup
      rw [List.map_fst_zip]
      · exact hnd
      · rw [List.length_map, List.length_map, hl2, hl3]
        simp [Dict.keys]
    · rw [List.zip_map_left, hcn0]
      exact List.mem_map.2 ⟨(p.1.1, w), hw, rfl⟩
  rw [this]
  rfl

end

/-! ## Examples -/

/-- A table with two columns. -/
def twoColumns : TableSpec := { name := "t".toList, columns := [{ name := "a".toList }, { name := "b".toList, base := .integer }] }

/-- **C47 does not hold** if the dicts do not all have the same order of keys: here, of the second row `{b: 3, a: 'y'}`, the value
`'y'` is stored in the column `b` (and 3 in the column `a`, as text). -/
theorem C47_violated (ext : Ext) (sx : SqlExt) (hr : ∀ db n rows r, sx.refuse db n rows r = false) :
    ∃ w, write ext sx nameTranslator false [twoColumns] [("t".toList,
        [[("a".toList, .one (.str "x".toList)), ("b".toList, .one (.int 1))],
         [("b".toList, .one (.int 3)), ("a".toList, .one (.str "y".toList))]])] =
      .ok [{ name := "t".toList, columns := [("a".toList, .text), ("b".toList, .integer)], rows :=
        [[("a".toList, .text "x".toList), ("b".toList, .int 1)],
         [("a".toList, .text "3".toList), ("b".toList, w)]] }] ∧ w = sx.affinity .integer (.text "y".toList) := by
  refine ⟨_, ?_, rfl⟩
  simp [write, createAll, create, badTable, oddTable, oddName, foldName, Char.toLower, ColSpec.check, twoColumns, nameTranslator, ColSpec.dbType, Dict.keys, writeTables, writeTable, rowLoop, rowStep,
    pkOf, itemLoop, itemStep, stored, asList, convert, Db.bind, Db.insert, insertIn, insertRows, insertRow, hr, newRow, Dict.get, affinity, Dict.has,
    writeRefs]
  rfl

/-- A table with one column. -/
def caseTable (name : Str) : TableSpec := { name, columns := [{ name := ['a'] }] }

/-- **C47 does not hold** if the names of two tables only differ by case: SQLite takes them for the same name, so that the second table is
not created, and its rows are added to the first one, without an error. -/
theorem C47_violated_case (ext : Ext) (sx : SqlExt) (hr : ∀ db n rows r, sx.refuse db n rows r = false) :
    write ext sx nameTranslator false [caseTable ['T'], caseTable ['t']]
        [(['T'], [[(['a'], .one (.str ['x']))]]), (['t'], [[(['a'], .one (.str ['y']))]])] =
      .ok [{ name := ['T'], columns := [(['a'], .text)], rows := [[(['a'], .text ['x'])], [(['a'], .text ['y'])]] }] := by
  have h1 : foldName ['T'] = ['t'] := by decide
  have h2 : foldName ['t'] = ['t'] := by decide
  simp [write, createAll, create, badTable, oddTable, oddName, h1, h2, ColSpec.check, caseTable, nameTranslator, ColSpec.dbType, Dict.keys, writeTables, writeTable, rowLoop,
    rowStep, pkOf, itemLoop, itemStep, stored, asList, convert, Db.bind, Db.insert, insertIn, insertRows, insertRow, hr, newRow, Dict.get, affinity,
    Dict.has, writeRefs, Except.map, h1, h2]

/-- Two rows for the table. -/
def exampleRows : List RowDict :=
  [[("b".toList, .one (.int 1)), ("a".toList, .one (.str "x".toList))], [("b".toList, .one .none), ("a".toList, .one (.str "y".toList))]]

/-- The database with these rows. -/
def exampleDb : Database :=
  [{ name := "t".toList, columns := [("a".toList, .text), ("b".toList, .integer)], rows :=
    [[("a".toList, .text "x".toList), ("b".toList, .int 1)], [("a".toList, .text "y".toList), ("b".toList, .null)]] }]

/-- The hypotheses of `C47_same_keys` hold for two rows. -/
theorem C47_example (ext : Ext) (sx : SqlExt) (hr : ∀ db n rows r, sx.refuse db n rows r = false) :
    SameKeys exampleRows ∧
      Written ext sx nameTranslator false [twoColumns] [("t".toList, exampleRows)] exampleDb twoColumns exampleRows := by
  refine ⟨?_, ⟨?_, ?_, ?_, ?_, ?_⟩⟩
  rotate_left
  · simp [write, createAll, create, badTable, oddTable, oddName, foldName, Char.toLower, ColSpec.check, twoColumns, nameTranslator, ColSpec.dbType, Dict.keys, writeTables, writeTable, rowLoop, rowStep,
      pkOf, itemLoop, itemStep, stored, asList, convert, Db.bind, Db.insert, insertIn, insertRows, insertRow, hr, newRow, Dict.get, affinity,
      Dict.has, writeRefs, exampleRows, exampleDb]
    rfl
  · simp
  · simp
  · simp [twoColumns]
  · rfl
  · intro r hr' r' hr''
    simp only [exampleRows, List.mem_cons, List.not_mem_nil, or_false] at hr' hr''
    rcases hr' with rfl | rfl <;> rcases hr'' with rfl | rfl <;> rfl

end Csvw.Props
