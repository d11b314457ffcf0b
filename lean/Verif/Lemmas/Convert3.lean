import Verif.Lemmas.Convert2
import Verif.Props.C45
import Verif.Props.C48b
/-!
# Lemmas on converting tables: the SQL tables
-/

namespace Csvw.Props
open Csvw Csvw.Py Csvw.Spec Csvw.Db Csvw.Table

theorem addForeignKeys_links {t : Table} {drop : Bool} {fks : List ForeignKey} {s s' : TableSpec} (hn : s.name = t.url)
    (hp : s.primaryKey = t.schema.primaryKey) (h : addForeignKeys t drop s fks = .ok s') {k : Str} {a : AssocSpec}
    (ha : Dict.get k s'.manyToMany = some a) : Dict.get k s.manyToMany = some a ∨
    ∃ fk ∈ fks, fk.schemaReference = none ∧ ListValuedKey t fk ∧ fk.columnReference = [k] ∧ ∃ pk rc r, t.schema.primaryKey = some [pk] ∧
      fk.refColumns = [rc] ∧ fk.resource = some r ∧ a = associationTable t.url pk r rc := by
  induction fks generalizing s with
  | nil => unfold addForeignKeys at h; cases h; exact .inl ha
  | cons fk r ih =>
    unfold addForeignKeys at h
    cases hf : addForeignKey t drop s fk with
    | error e => rw [hf] at h; cases h
    | ok s2 =>
      rw [hf] at h
      have hnp : s2.name = s.name ∧ s2.primaryKey = s.primaryKey := by
        have : addForeignKeys t drop s [fk] = .ok s2 := by unfold addForeignKeys; rw [hf]; rfl
        exact (addForeignKeys_columns this).2
      rcases ih (hnp.1.trans hn) (hnp.2.trans hp) h with h1 | ⟨fk', hfk', h1⟩
      · rcases addForeignKey_cases hn hf with ⟨_, _, _, h2, _⟩ | ⟨_, _, rfl⟩ | ⟨_, h2, c, pk, rc, r', h3, h4, h5, h6, h7, _, h8⟩
        · rw [h2] at h1; exact .inl h1
        · exact .inl h1
        · rw [h8, Dict.get_set] at h1
          split at h1
          · rename_i he
            subst he
            exact .inr ⟨fk, by simp, h2, h3, h4, pk, rc, r', hp ▸ h5, h6, h7, (Option.some.inj h1).symm⟩
          · exact .inl h1
      · exact .inr ⟨fk', List.mem_cons_of_mem _ hfk', h1⟩

theorem manyToMany_nodup {t : Table} {drop : Bool} {s : TableSpec} (h : fromTable t drop = .ok s) : (Dict.keys s.manyToMany).Nodup :=
  (C48_schema h).1

/-- The association tables are for list-valued foreign keys. -/
theorem fromTable_links {t : Table} {drop : Bool} {s : TableSpec} (h : fromTable t drop = .ok s) {k : Str} {a : AssocSpec}
    (ha : Dict.get k s.manyToMany = some a) :
    ∃ fk ∈ t.schema.foreignKeys, fk.schemaReference = none ∧ ListValuedKey t fk ∧ fk.columnReference = [k] ∧ ∃ pk rc r,
      t.schema.primaryKey = some [pk] ∧ fk.refColumns = [rc] ∧ fk.resource = some r ∧ a = associationTable t.url pk r rc := by
  unfold fromTable at h
  split at h
  · cases h
  · rename_i s1 h1
    obtain ⟨_, _, h2, _⟩ := addColumns_same_columns h
    rw [h2] at ha
    rcases addForeignKeys_links rfl rfl h1 ha with h | h
    · simp [Dict.get] at h
    · exact h

theorem own_separator {c : CCol} (h : c.col.props.separator.truthy = true) {o : Option Str} (ho : c.separator = .ok o) : o ≠ none := by
  rintro rfl
  unfold CCol.separator at ho
  have hne : c.col.props.separator ≠ .null := by
    intro he
    rw [he] at h
    cases h
  have hi : inherit .separator c.chain = .json c.col.props.separator := by
    unfold CCol.chain
    cases c.parents with
    | nil => rfl
    | cons a r =>
      unfold inherit
      rw [if_neg (by intro he; exact hne (PVal.json.inj he))]
      rfl
  rw [hi] at ho
  cases hs : c.col.props.separator <;> rw [hs] at ho h <;> simp_all [J.truthy, nonEmpty]

section
variable {t : Table} {s : TableSpec}

theorem header_unique (hn : (t.schema.columns.map Column.header).Nodup) {c c' : CCol} (hc : c ∈ t.ccols) (hc' : c' ∈ t.ccols)
    (h : c.col.header = c'.col.header) : c = c' := by
  have h1 := colFor_header hn hc
  rw [h, colFor_header hn hc'] at h1
  exact (Option.some.inj h1).symm

theorem nodup_headers (h : (t.schema.columns.map fun c => foldName c.header).Nodup) : (t.schema.columns.map Column.header).Nodup := by
  have : (t.schema.columns.map fun c => foldName c.header) = (t.schema.columns.map Column.header).map foldName := by
    rw [List.map_map]; rfl
  rw [this] at h
  exact List.Pairwise.of_map foldName (fun a b hab he => hab (by rw [he])) h

/-- A column without separator is in the table itself. -/
theorem plain_own (hn : (t.schema.columns.map Column.header).Nodup) (h : fromTable t drop = .ok s) {c : CCol} (hc : c ∈ t.ccols)
    (hs : c.separator = .ok none) : Dict.has c.col.header s.manyToMany = false := by
  cases hh : Dict.has c.col.header s.manyToMany with
  | false => rfl
  | true =>
    exfalso
    rw [Dict.has_iff_mem_keys] at hh
    cases hg : Dict.get c.col.header s.manyToMany with
    | none => rw [Dict.get_eq_none_iff] at hg; exact hg hh
    | some a =>
      obtain ⟨fk, _, _, ⟨col, hcol, he, htr⟩, hck, _⟩ := fromTable_links h hg
      rw [he] at hck
      have : (⟨col, t.parents⟩ : CCol) = c := header_unique hn (List.mem_map.2 ⟨col, hcol, rfl⟩) hc (List.cons.inj hck).1
      subst this
      exact own_separator htr hs rfl

theorem same_of_col (h : fromTable t drop = .ok s) {c : CCol} (hc : c ∈ t.ccols) (hh : Dict.has c.col.header s.manyToMany = false) :
    ∃ cs ∈ s.columns, SameColumn c cs :=
  all2_mem_left (C48_columns h).2.2 (List.mem_filter.2 ⟨hc, by simp [hh]⟩)

theorem same_of_spec (h : fromTable t drop = .ok s) {cs : ColSpec} (hc : cs ∈ s.columns) :
    ∃ c ∈ t.ccols, SameColumn c cs ∧ Dict.has c.col.header s.manyToMany = false := by
  obtain ⟨c, h1, h2⟩ := All2_mem_right (C48_columns h).2.2 cs hc
  obtain ⟨h3, h4⟩ := List.mem_filter.1 h1
  exact ⟨c, h3, h2, by simpa using h4⟩

end
end Csvw.Props
