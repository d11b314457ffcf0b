import Verif.Model.ToDb
import Verif.Lemmas.RowKeys
import Verif.Props.C44
import Verif.Props.C48
import Verif.Props.C48b
import Verif.Props.C70
import Verif.Props.C35_C38
/-!
# C81: from CSV files to a database
-/

namespace Csvw.Props
open Csvw.Spec Csvw.Db Csvw.Table

/-- The data file of a table is such that the order of values is the same in all rows: its header (the first row, or the names of the columns
if the dialect has none) consists of the names of the columns in the order of the schema, or no row has fewer cells than the header. -/
def Aligned (t : Table) (text : Str) : Prop :=
  ∃ pre rows err, DataRows t text (pre ++ rows) err ∧ pre.length = (if t.getDialect.header then 1 else 0) ∧ headerOf t pre ≠ [] ∧
    (headerOf t pre = t.colnames ∨ ∀ r ∈ rows, (headerOf t pre).length ≤ r.2.length)

/-- The text of the data file of a table. -/
def FileText (fx : FExt) (d : Disk) (fname : Option PPath) (t : Table) (text : Str) : Prop :=
  ∃ l, t.location fx d fname = .ok l ∧ d.read fx l = .ok text

/-- The setting: the data of a table group is written to a database, and the tables created (for the tables of the
group and for list-valued foreign keys) have names which SQLite distinguishes (not only by case). -/
structure FromTg (ext : Ext) (x : MExt) (fx : FExt) (sx : SqlExt) (tr : Translator) (skip force drop : Bool) (d : Disk) (g : FGroup)
    (old : Option Database) (db : Database) : Prop where
  write : writeFromTg ext x fx sx tr skip force drop d g old = (some db, none)
  fresh : FreshNames g.desc.group
  names : ∀ s s', IsSqlTable g.desc.group drop s → IsSqlTable g.desc.group drop s' →
    foldName (tr s.name none) = foldName (tr s'.name none) → s.name = s'.name

section
variable {ext : Ext} {x : MExt} {fx : FExt} {sx : SqlExt} {tr : Translator} {skip force drop : Bool} {d : Disk} {g : FGroup}
variable {old : Option Database} {db : Database}

theorem rows_iterRows_keys {t : Table} {hs : List HCol} (hne : hs ≠ []) {rows : List (Int × List Str)} {err : Option PyErr} {ks : List Str}
    (hk : ∀ r ∈ rows, ∀ d b w, rowStep ext x t true false hs r.2 = .ok (d, b, w) → Dict.keys d = ks) :
    ∀ p ∈ (iterRows ext x t true false err hs rows).rows, Dict.keys p.2 = ks := by
  rintro ⟨n, d⟩ hp
  obtain ⟨hs', row, w, h1, h2, h3⟩ := mem_iterRows hp
  rw [h3 hne] at h2
  exact hk _ h1 _ _ _ h2

/-- All rows of the file have the same keys. -/
theorem aligned_keys {t : Table} {text : Str} (h : Aligned t text) (hv : VirtualLast t.schema.columns) :
    SameKeys ((t.iterdicts ext x true false text).rows.map Prod.snd) := by
  obtain ⟨pre, rows, err, h1, h2, h3, h4⟩ := h
  rw [iterdicts_eq h1, iterEvents_pre h2]
  unfold iterBody
  cases hm : matchCols t true (headerOf t pre) with
  | error e => intro row hrow; simp at hrow
  | ok l =>
    simp only
    split
    · intro row hrow; simp at hrow
    · have hne := indexed_ne_nil hm h3
      suffices ∃ ks, ∀ p ∈ (iterRows ext x t true false err (indexed l) rows).rows, Dict.keys p.2 = ks by
        obtain ⟨ks, hks⟩ := this
        intro row hrow row' hrow'
        obtain ⟨p, hp, rfl⟩ := List.mem_map.1 hrow
        obtain ⟨p', hp', rfl⟩ := List.mem_map.1 hrow'
        rw [hks p hp, hks p' hp']
      rcases h4 with h4 | h4
      · refine ⟨newKeys (newKeys [] t.colnames) (t.virtualCols.map Prod.fst), rows_iterRows_keys hne ?_⟩
        intro r _ d b w hs
        have hp : ((indexed l).zip r.2).map (fun p => cellKey p.1) <+: t.colnames := by
          rw [h4] at hm
          rw [← cellKeys_colnames hv hm]
          exact zip_keys_prefix
        rw [keys_rowStep hs, newKeys_prefix hp]
      · refine ⟨newKeys (newKeys (newKeys [] ((indexed l).map cellKey)) t.colnames) (t.virtualCols.map Prod.fst),
          rows_iterRows_keys hne ?_⟩
        intro r hr d b w hs
        rw [keys_rowStep hs, zip_keys_full]
        rw [indexed_length, matchCols_length hm]
        exact h4 r hr

theorem readRows_text {t : Table} {fname : Option PPath} {rows : List RowDict} (h : t.readRows ext x fx d fname = .ok rows) :
    ∃ text, FileText fx d fname t text ∧ (t.iterdicts ext x true false text).err = none ∧
      rows = (t.iterdicts ext x true false text).rows.map Prod.snd := by
  unfold Table.readRows at h
  split at h
  · simp at h
  · rename_i l hl
    split at h
    · simp at h
    · rename_i text ht
      split at h
      · simp at h
      · rename_i he
        exact ⟨text, ⟨l, hl, ht⟩, he, (Except.ok.inj h).symm⟩

theorem get_mapRes {f : Str × Table → Res (List RowDict)} {l : List (Str × Table)} {items : List (Str × List RowDict)}
    (h : mapRes (fun p => (f p).map fun rows => (p.1, rows)) l = .ok items) (k : Str) :
    Dict.keys items = Dict.keys l ∧
    ∀ t, Dict.get k l = some t → ∃ rows, f (k, t) = .ok rows ∧ Dict.get k items = some rows := by
  induction l generalizing items with
  | nil => cases h; exact ⟨rfl, fun t ht => by simp [Dict.get] at ht⟩
  | cons p r ih =>
    obtain ⟨k', t'⟩ := p
    simp only [mapRes] at h
    cases hf : f (k', t') with
    | error e => rw [hf] at h; simp [Except.map] at h
    | ok rows =>
      rw [hf] at h
      simp only [Except.map] at h
      cases hr : mapRes (fun p => (f p).map fun rows => (p.1, rows)) r with
      | error e => simp only [Except.map] at hr; rw [hr] at h; simp at h
      | ok items' =>
        have hr' := hr
        simp only [Except.map] at hr
        rw [hr] at h
        simp only [Except.ok.injEq] at h
        subst h
        obtain ⟨i1, i2⟩ := ih hr'
        refine ⟨by rw [Dict.keys_cons, Dict.keys_cons, i1], ?_⟩
        intro t ht
        simp only [Dict.get] at ht ⊢
        split at ht
        · rename_i he
          subst he
          cases ht
          exact ⟨rows, hf, by simp⟩
        · rename_i he
          obtain ⟨rows', h1, h2⟩ := i2 t ht
          exact ⟨rows', h1, by rw [if_neg he]; exact h2⟩

/-- The parts of `write_from_tg`. -/
theorem fromTg_inv (h : writeFromTg ext x fx sx tr skip force drop d g old = (some db, none)) :
    ∃ tables items, schema g.desc.group drop = .ok tables ∧ g.read ext x fx d = .ok items ∧
      (∀ k ∈ Dict.keys items, k ∉ writeParams) ∧ Db.write ext sx tr skip tables items = .ok db ∧ (old ≠ none → force = true) := by
  unfold writeFromTg at h
  cases hs : schema g.desc.group drop with
  | error e => rw [hs] at h; simp at h
  | ok tables =>
    rw [hs] at h
    simp only at h
    cases hr : g.read ext x fx d with
    | error e => rw [hr] at h; simp at h
    | ok items =>
      rw [hr] at h
      simp only at h
      unfold callWrite at h
      split at h
      · simp at h
      · rename_i hp
        unfold writeFile at h
        split at h
        · simp at h
        · rename_i ho
          refine ⟨tables, items, rfl, rfl, ?_, ?_, ?_⟩
          · intro k hk hm
            exact hp (List.any_eq_true.2 ⟨k, hk, List.contains_iff_mem.2 hm⟩)
          · cases hw : writeDb ext sx tr skip tables items [] with
            | mk a e =>
              rw [hw] at h
              simp only [Prod.mk.injEq, Option.some.injEq] at h
              obtain ⟨rfl, rfl⟩ := h
              exact writeDb_ok.1 hw
          · intro hold
            cases force with
            | true => rfl
            | false => exact absurd ⟨hold, rfl⟩ ho

/-- The table of the schema for a table of the group. -/
theorem spec_fresh {g : TableGroup} {specs : List TableSpec} (h : schema g drop = .ok specs) (hf : FreshNames g) {t : Table}
    (ht : TableNamed g t.url t) : ∃ s ∈ specs, fromTable t drop = .ok s := by
  obtain ⟨_, h2, h3⟩ := C43_tables h
  obtain ⟨d, res, hc, _, _, _, _, _⟩ := schema_spec h
  obtain ⟨_, _, hall⟩ := collect_spec hc
  obtain ⟨s, hs⟩ := hall t ht
  obtain ⟨s', hs', he⟩ := h3 s (.table ht hs)
  have hsn := fromTable_name hs
  have h2' := h2 s' hs'
  cases h2' with
  | @table t' _ ht' hs2 =>
    have : t'.url = t.url := by rw [← fromTable_name hs2, he, hsn]
    rw [this] at ht'
    have h1 := ((tabledict_iff g t.url).1 t').2 ht'
    have h2 := ((tabledict_iff g t.url).1 t).2 ht
    rw [h1] at h2
    cases h2
    exact ⟨s', hs', hs2⟩
  | @assoc t' s2 ht' hs2 c a ha =>
    obtain ⟨fk, hfk, pk, r, rc, hsr, hlv, hr, hp⟩ := fromTable_many_mem hs2 ha
    simp only at hp
    exfalso
    refine hf t' fk r (tableNamed_mem ht').1 hfk hsr hlv hr t (tableNamed_mem ht).1 ?_
    rw [← hsn, ← he, hp]
    rfl

/-- The association tables have other names than the tables of the group. -/
theorem assoc_fresh {g : TableGroup} {specs : List TableSpec} (h : schema g drop = .ok specs) (hf : FreshNames g) {s : TableSpec}
    (hs : s ∈ specs) {p : Str × AssocSpec} (hp : p ∈ s.manyToMany) {t : Table} (ht : t ∈ g.tables) : p.2.name ≠ t.url := by
  obtain ⟨_, h2, _⟩ := C43_tables h
  cases h2 s hs with
  | @table t' _ ht' hs2 =>
    obtain ⟨fk, hfk, pk, r, rc, hsr, hlv, hr, hp⟩ := fromTable_many_mem hs2 hp
    intro he
    refine hf t' fk r (tableNamed_mem ht').1 hfk hsr hlv hr t ht ?_
    rw [← he, hp]
    rfl
  | @assoc t' s2 ht' hs2 c a ha => simp [AssocSpec.toSpec] at hp

/-- What is written for a table of the group. -/
theorem fromTg_written (h : FromTg ext x fx sx tr skip force drop d g old db) {t : Table} (ht : TableNamed g.desc.group t.url t) :
    ∃ tables items spec rows, schema g.desc.group drop = .ok tables ∧ g.read ext x fx d = .ok items ∧ fromTable t drop = .ok spec ∧
      t.readRows ext x fx d g.fname = .ok rows ∧ Written ext sx tr skip tables items db spec rows := by
  obtain ⟨tables, items, h1, h2, h3, h4, h5⟩ := fromTg_inv h.write
  obtain ⟨spec, hs1, hs2⟩ := spec_fresh h1 h.fresh ht
  have hn := fromTable_name hs2
  obtain ⟨-, hi⟩ := get_mapRes (f := fun p => p.2.readRows ext x fx d g.fname) h2 t.url
  obtain ⟨rows, hr1, hr2⟩ := hi t (((tabledict_iff _ t.url).1 t).2 ht)
  refine ⟨tables, items, spec, rows, h1, h2, hs2, hr1, h4, ?_, hs1, ?_, by rw [hn]; exact hr2⟩
  · obtain ⟨n1, n2, -⟩ := C43_tables h1
    rw [List.Nodup, List.pairwise_map] at n1 ⊢
    refine List.Pairwise.imp_of_mem ?_ n1
    intro s s' hs hs' hne he
    exact hne (h.names _ _ (n2 s hs) (n2 s' hs') he)
  · intro t' ht' p hp he
    obtain ⟨-, n2, -⟩ := C43_tables h1
    have hp2 : IsSqlTable g.desc.group drop p.2.toSpec := by
      cases n2 t' ht' with
      | table ht2 hs3 => exact .assoc ht2 hs3 (c := p.1) hp
      | @assoc t' s2 ht' hs2 c a ha => simp [AssocSpec.toSpec] at hp
    have := h.names _ _ hp2 (n2 spec hs1) he
    rw [hn] at this
    exact assoc_fresh h1 h.fresh ht' hp (tableNamed_mem ht).1 this

/-- **C81** If the data of a table group was written to a database, the table in the database has one row for each row of the data file, in
this order, and what is stored in a column is the value in the column of the data file with its name - if the rows of the file have no
fewer cells than the header, or the header has the columns in the order of the schema. -/
theorem C81_stored (h : FromTg ext x fx sx tr skip force drop d g old db) {t : Table} (ht : TableNamed g.desc.group t.url t)
    (hv : VirtualLast t.schema.columns) (ha : ∀ text, FileText fx d g.fname t text → Aligned t text) :
    ∃ spec rows, fromTable t drop = .ok spec ∧ t.readRows ext x fx d g.fname = .ok rows ∧
      ∃ u ∈ db, u.name = tr t.url none ∧ All2 (StoresRow ext sx tr spec) rows u.rows := by
  obtain ⟨tables, items, spec, rows, _, _, h3, h4, h5⟩ := fromTg_written h ht
  refine ⟨spec, rows, h3, h4, ?_⟩
  obtain ⟨text, t1, _, rfl⟩ := readRows_text h4
  rw [← fromTable_name h3]
  exact C47_same_keys h5 (aligned_keys (ha text t1) hv)

/-- **C81** … and what `Database.read` returns for the table are the rows of the data file, for a table without list-valued foreign keys, if
values are such that they are read as they are written (`C58_string` etc.). -/
theorem C81_read (h : FromTg ext x fx sx tr skip force drop d g old db) {t : Table} (ht : TableNamed g.desc.group t.url t)
    (hv : VirtualLast t.schema.columns) (ha : ∀ text, FileText fx d g.fname t text → Aligned t text) {spec : TableSpec}
    (hs : fromTable t drop = .ok spec) (hm : spec.manyToMany = []) {rows : List RowDict} (hr : t.readRows ext x fx d g.fname = .ok rows)
    (hpk : KeyOk spec rows) (hord : ∀ n l, sx.order n l = l)
    (hrt : ∀ row ∈ rows, ∀ c ∈ spec.columns, ∀ v, Dict.get c.name row = some v → ReadAs ext sx c v v) :
    ∃ out, readTable ext sx tr spec db = .ok out ∧ All2 (ReadsRow tr spec) rows out := by
  obtain ⟨tables, items, spec', rows', _, _, h3, h4, h5⟩ := fromTg_written h ht
  rw [hs] at h3
  cases h3
  rw [hr] at h4
  cases h4
  obtain ⟨text, t1, _, rfl⟩ := readRows_text hr
  exact C58_read h5 (aligned_keys (ha text t1) hv) hm hpk hord hrt

/-- **C81** … also for a table with list-valued foreign keys (which are stored in association tables), with the default names, if the
tables which are created have different names. -/
theorem C81_read_links (h : writeFromTg ext x fx sx nameTranslator skip force drop d g old = (some db, none))
    (hf : FreshNames g.desc.group)
    (hdist : ∀ s s', IsSqlTable g.desc.group drop s → IsSqlTable g.desc.group drop s' → foldName s.name = foldName s'.name → s = s')
    {t : Table} (ht : TableNamed g.desc.group t.url t)
    (hv : VirtualLast t.schema.columns) (ha : ∀ text, FileText fx d g.fname t text → Aligned t text) {spec : TableSpec}
    (hs : fromTable t drop = .ok spec) (hcn : ∀ c ∈ t.schema.columns, c.header ≠ [])
    (hlk : ∀ k ∈ Dict.keys spec.manyToMany, k ≠ [] ∧ '\'' ∉ k)
    {rows : List RowDict} (hr : t.readRows ext x fx d g.fname = .ok rows) {k : Str}
    (hrows : LinkRows spec k rows) (hord : ∀ n l, sx.order n l = l)
    (hrt : ∀ row ∈ rows, ∀ c ∈ spec.columns, ∀ v, Dict.get c.name row = some v → ReadAs ext sx c v v) :
    ∃ out, readTable ext sx nameTranslator spec db = .ok out ∧ All2 (ReadsLinks nameTranslator spec) rows out := by
  obtain ⟨tables, items, spec', rows', h1, h2, h3, h4, h5⟩ := fromTg_written (tr := nameTranslator) ⟨h, hf, fun s s' hs hs' he => congrArg _ (hdist s s' hs hs' he)⟩ ht
  rw [hs] at h3
  cases h3
  rw [hr] at h4
  cases h4
  obtain ⟨text, t1, _, rfl⟩ := readRows_text hr
  obtain ⟨c1, c2⟩ := C48_schema hs
  have hex := C43_exact h1 fun s s' hs hs' he => hdist s s' hs hs' (congrArg foldName he)
  have hassoc : ∀ {s : TableSpec}, s ∈ tables → ∀ {p : Str × AssocSpec}, p ∈ s.manyToMany →
      IsSqlTable g.desc.group drop p.2.toSpec ∧ p.2.atable = s.name := by
    intro s hs p hp
    cases (hex s).1 hs with
    | @table t' _ ht' hs2 =>
      refine ⟨.assoc ht' hs2 (c := p.1) hp, ?_⟩
      obtain ⟨fk, hfk, pk, r, rc, hsr, hlv, hr, hp⟩ := fromTable_many_mem hs2 hp
      rw [hp, fromTable_name hs2]
      rfl
    | @assoc t' s2 ht' hs2 c a ha => simp [AssocSpec.toSpec] at hp
  have heq : ∀ {a b : AssocSpec}, a.toSpec = b.toSpec → a = b := by
    rintro ⟨⟩ ⟨⟩ he
    simp only [AssocSpec.toSpec, TableSpec.mk.injEq, List.cons.injEq, ColSpec.mk.injEq, Prod.mk.injEq, and_true, true_and] at he
    simp_all
  refine C48_read h5 (aligned_keys (ha text t1) hv) ⟨c1, ?_, ?_, ?_, ?_, ?_, ?_⟩ hrows hord hrt
  · intro c hc
    refine ⟨c2 c hc, ?_⟩
    have : c.name ≠ [] := by
      obtain ⟨_, _, hcols⟩ := C48_columns hs
      obtain ⟨c', hc', hsame⟩ := all2_mem_right hcols hc
      rw [hsame.name]
      obtain ⟨c0, hc0, rfl⟩ := List.mem_map.1 (List.mem_filter.1 hc').1
      exact hcn c0 hc0
    show (if c.name = [] then _ else c.name) ∉ _
    rw [if_neg this]
    exact c2 c hc
  · intro p hp
    obtain ⟨q1, q2⟩ := hlk p.1 (List.mem_map.2 ⟨p, hp, rfl⟩)
    exact ⟨if_neg q1, q2⟩
  · intro p hp
    refine ⟨(hex _).2 (hassoc h5.table hp).1, ?_⟩
    obtain ⟨hk, -⟩ := get_mapRes (f := fun p => p.2.readRows ext x fx d g.fname) h2 t.url
    rw [Dict.get_eq_none_iff, hk]
    intro hm
    obtain ⟨u, hu⟩ : ∃ u, Dict.get p.2.name g.desc.group.tabledict = some u := by
      cases hg : Dict.get p.2.name g.desc.group.tabledict with
      | some u => exact ⟨u, rfl⟩
      | none => exact absurd hm ((Dict.get_eq_none_iff _ _).1 hg)
    obtain ⟨u1, u2⟩ := tableNamed_mem (((tabledict_iff _ _).1 u).1 hu)
    exact assoc_fresh h1 hf h5.table hp u1 u2.symm
  · intro p _
    rfl
  · intro p hp t' ht' hne q hq he
    obtain ⟨a1, a2⟩ := hassoc h5.table hp
    obtain ⟨b1, b2⟩ := hassoc ht' hq
    have := heq (hdist _ _ b1 a1 he)
    apply hne
    refine hdist _ _ ((hex _).1 ht') ((hex _).1 h5.table) ?_
    rw [← b2, ← a2, this]
  · intro p hp q hq he
    exact heq (hdist _ _ (hassoc h5.table hq).1 (hassoc h5.table hp).1 he)

/-- **C81** If a data file cannot be read (it does not exist, is no CSV of the dialect, or has an invalid cell), or the tables cannot be
expressed in SQL, the database is not touched. -/
theorem C81_unchanged (h : ∀ items, g.read ext x fx d ≠ .ok items) :
    ∃ e, writeFromTg ext x fx sx tr skip force drop d g old = (old, some e) := by
  unfold writeFromTg
  split
  · exact ⟨_, rfl⟩
  · split
    · exact ⟨_, rfl⟩
    · rename_i items hr
      exact absurd hr (h items)

/-- **C81** If writing fails, the database is as it was before, or it has only empty tables: no part of the data is there. -/
theorem C81_failed {db' : Option Database} {e : PyErr} (h : writeFromTg ext x fx sx tr skip force drop d g old = (db', some e)) :
    db' = old ∨ ∃ db, db' = some db ∧ ∀ u ∈ db, u.rows = [] := by
  unfold writeFromTg at h
  split at h
  · exact .inl (Prod.mk.inj h).1.symm
  · split at h
    · exact .inl (Prod.mk.inj h).1.symm
    · unfold callWrite at h
      split at h
      · exact .inl (Prod.mk.inj h).1.symm
      · by_cases ho : old = none ∨ force = true
        · exact .inr (C70_failed ho h)
        · left
          simp only [not_or, Bool.not_eq_true] at ho
          unfold writeFile at h
          rw [if_pos ho] at h
          exact (Prod.mk.inj h).1.symm

end

/-- **C81** The command `csvw2sqlite`: if it succeeds, every table of the metadata file is in the database, with its name and data, whatever
was in the database before. -/
theorem C81_command {ext : Ext} {x : MExt} {other : Base → Derived → J → Res Val} {lk : EncLookup} {fx : FExt} {sx : SqlExt} {d : Disk}
    {p : PPath} {old : Option Database} {db : Database} (h : csvw2sqlite ext x other lk fx sx d p old = (some db, none)) :
    ∃ g, FGroup.fromFile ext x other lk fx d p = .ok g ∧ (FreshNames g.desc.group →
      (∀ s s', IsSqlTable g.desc.group true s → IsSqlTable g.desc.group true s' → foldName s.name = foldName s'.name → s.name = s'.name) →
      ∀ t, TableNamed g.desc.group t.url t → VirtualLast t.schema.columns → (∀ text, FileText fx d g.fname t text → Aligned t text) →
      ∃ spec rows, fromTable t true = .ok spec ∧ t.readRows ext x fx d g.fname = .ok rows ∧
        ∃ u ∈ db, u.name = t.url ∧ All2 (StoresRow ext sx nameTranslator spec) rows u.rows) := by
  unfold csvw2sqlite at h
  cases hg : FGroup.fromFile ext x other lk fx d p with
  | error e => rw [hg] at h; simp at h
  | ok g =>
    rw [hg] at h
    exact ⟨g, rfl, fun hf hn t ht hv ha => C81_stored ⟨h, hf, hn⟩ ht hv ha⟩

/-! ## Examples -/

/-- A group of one table with columns `a`, `b` and `c`. -/
def threeGroup (url : Str) : GroupD :=
  { tables := [{ like := { url := some url, schema := { columns := [{ name := some ['a'], number := 1 }, { name := some ['b'], number := 2 },
                                                                    { name := some ['c'], number := 3 }] } } }] }

/-- It is described in `d/md.json`. -/
def threeFile (url : Str) : FGroup := ⟨threeGroup url, some ⟨false, [['d'], "md.json".toList]⟩⟩

/-- The data is in `d`. -/
def threeDisk (url text : Str) : Disk :=
  ⟨fun p => decide (p = ⟨false, [['d']]⟩), fun p => if p = ⟨false, [['d'], url]⟩ then some (.text text) else none⟩

/-- The table in the database. -/
def threeTable (url : Str) (rows : List Row) : DbTable :=
  { name := url, columns := [(['a'], .text), (['b'], .text), (['c'], .text)], rows }

/-- What is made of the table in the schema. -/
def threeSpec (url : Str) : TableSpec :=
  { name := url, columns := [{ name := ['a'] }, { name := ['b'] }, { name := ['c'] }] }

/-- The table of the group. -/
def threeT (url : Str) : Table :=
  { schema := { columns := [{ name := some ['a'], number := 1 }, { name := some ['b'], number := 2 }, { name := some ['c'], number := 3 }] }
    url := url, group := some ({}, none) }

theorem three_schema : schema (threeGroup "t.csv".toList).group true = .ok [threeSpec "t.csv".toList] := by
  decide +kernel

theorem three_read {ext : Ext} {x : MExt} {fx : FExt} {text : Str} {rows : List (Int × List Str)}
    (h : DataRows (threeT "t.csv".toList) text rows none) :
    (threeFile "t.csv".toList).read ext x fx (threeDisk "t.csv".toList text) =
      match (iterEvents ext x (threeT "t.csv".toList) true false rows none).err with
      | some e => .error e
      | none => .ok [("t.csv".toList, (iterEvents ext x (threeT "t.csv".toList) true false rows none).rows.map Prod.snd)] := by
  have h1 : (threeT "t.csv".toList).readRows ext x fx (threeDisk "t.csv".toList text) (some ⟨false, [['d'], "md.json".toList]⟩) =
      match (iterEvents ext x (threeT "t.csv".toList) true false rows none).err with
      | some e => .error e
      | none => .ok ((iterEvents ext x (threeT "t.csv".toList) true false rows none).rows.map Prod.snd) := by
    rw [← iterdicts_eq h]
    rfl
  have h2 : (threeGroup "t.csv".toList).group.tabledict = [("t.csv".toList, threeT "t.csv".toList)] := by decide +kernel
  unfold FGroup.read
  rw [show (threeFile "t.csv".toList).desc.group.tabledict = [("t.csv".toList, threeT "t.csv".toList)] from h2]
  simp only [mapRes]
  rw [show (threeFile "t.csv".toList).fname = some ⟨false, [['d'], "md.json".toList]⟩ from rfl, h1]
  cases (iterEvents ext x (threeT "t.csv".toList) true false rows none).err <;> rfl

theorem three_write {ext : Ext} {x : MExt} {fx : FExt} {sx : SqlExt} {d : Disk} {old : Option Database} {rows : List RowDict} {db : Database}
    (h : (threeFile "t.csv".toList).read ext x fx d = .ok [("t.csv".toList, rows)])
    (hw : Db.write ext sx nameTranslator false [threeSpec "t.csv".toList] [("t.csv".toList, rows)] = .ok db) :
    writeFromTg ext x fx sx nameTranslator false true true d (threeFile "t.csv".toList) old = (some db, none) := by
  unfold writeFromTg
  rw [show (threeFile "t.csv".toList).desc = threeGroup "t.csv".toList from rfl, three_schema, h]
  simp only
  unfold callWrite
  rw [if_neg (by simp only [Dict.keys, List.map]; decide)]
  exact (C70_written (.inr rfl) db).2 hw

/-- The columns in another order than in the schema, and all cells there: stored in the right columns. -/
theorem C81_example (ext : Ext) (x : MExt) (fx : FExt) (sx : SqlExt) (hr : ∀ db n rows r, sx.refuse db n rows r = false)
    (old : Option Database) :
    writeFromTg ext x fx sx nameTranslator false true true (threeDisk "t.csv".toList "a,c,b\n1,2,3\n4,5,6\n".toList)
        (threeFile "t.csv".toList) old =
      (some [threeTable "t.csv".toList [[(['a'], .text ['1']), (['b'], .text ['3']), (['c'], .text ['2'])],
        [(['a'], .text ['4']), (['b'], .text ['6']), (['c'], .text ['5'])]]], none) := by
  have h : DataRows (threeT "t.csv".toList) "a,c,b\n1,2,3\n4,5,6\n".toList
      [(1, [['a'], ['c'], ['b']]), (2, [['1'], ['2'], ['3']]), (3, [['4'], ['5'], ['6']])] none :=
    ⟨_, rfl, by decide +kernel, by decide +kernel⟩
  refine three_write (rows := [[(['a'], .one (.str ['1'])), (['c'], .one (.str ['2'])), (['b'], .one (.str ['3']))],
    [(['a'], .one (.str ['4'])), (['c'], .one (.str ['5'])), (['b'], .one (.str ['6']))]]) ((three_read h).trans rfl) ?_
  simp [Db.write, createAll, create, badTable, oddTable, oddName, foldName, Char.toLower, ColSpec.check, threeSpec, threeTable, nameTranslator, ColSpec.dbType, Dict.keys, writeTables, writeTable,
    rowLoop, Db.rowStep, pkOf, itemLoop, itemStep, stored, asList, convert, Db.bind, Db.insert, insertIn, insertRows, insertRow, hr, newRow, Dict.get,
    affinity, Dict.has, writeRefs]
  rfl

theorem three_sqlTable {s : TableSpec} (h : IsSqlTable (threeFile "t.csv".toList).desc.group true s) : s = threeSpec "t.csv".toList := by
  have hT : ∀ {t : Table} {s : TableSpec}, TableNamed (threeFile "t.csv".toList).desc.group t.url t → fromTable t true = .ok s →
      s = threeSpec "t.csv".toList := by
    intro t s ht hs
    have h : (threeFile "t.csv".toList).desc.group.tables = [threeT "t.csv".toList] := rfl
    have := (tableNamed_mem ht).1
    rw [h, List.mem_singleton] at this
    subst this
    exact (Except.ok.inj hs).symm.trans (by decide +kernel)
  cases h with
  | table ht hs => exact hT ht hs
  | assoc ht hs ha =>
    rw [hT ht hs] at ha
    simp [threeSpec] at ha

/-- The example meets the hypotheses of `C81_stored`. -/
theorem C81_example_aligned (ext : Ext) (x : MExt) (fx : FExt) (sx : SqlExt) (hr : ∀ db n rows r, sx.refuse db n rows r = false)
    (old : Option Database) :
    (∃ db, FromTg ext x fx sx nameTranslator false true true (threeDisk "t.csv".toList "a,c,b\n1,2,3\n4,5,6\n".toList)
      (threeFile "t.csv".toList) old db) ∧
    TableNamed (threeFile "t.csv".toList).desc.group "t.csv".toList (threeT "t.csv".toList) ∧
    VirtualLast (threeT "t.csv".toList).schema.columns ∧
    ∀ text, FileText fx (threeDisk "t.csv".toList "a,c,b\n1,2,3\n4,5,6\n".toList) (threeFile "t.csv".toList).fname
      (threeT "t.csv".toList) text → Aligned (threeT "t.csv".toList) text := by
  refine ⟨⟨_, C81_example ext x fx sx hr old, ?_, fun s s' hs hs' _ => by rw [three_sqlTable hs, three_sqlTable hs']⟩, ⟨[], [], rfl, rfl, by simp⟩, ⟨_, [], (List.append_nil _).symm, ?_, by simp⟩, ?_⟩
  · intro t fk r ht hfk
    have : t = threeT "t.csv".toList := by
      have h : (threeFile "t.csv".toList).desc.group.tables = [threeT "t.csv".toList] := rfl
      rw [h] at ht
      simpa using ht
    subst this
    simp [threeT] at hfk
  · intro c hc
    simp [threeT] at hc
    rcases hc with rfl | rfl | rfl <;> rfl
  · rintro text ⟨l, h1, h2⟩
    have hl : l = .file ⟨false, [['d'], "t.csv".toList]⟩ := (Except.ok.inj h1).symm.trans rfl
    subst hl
    have ht : text = "a,c,b\n1,2,3\n4,5,6\n".toList := (Except.ok.inj h2).symm
    subst ht
    exact ⟨[(1, [['a'], ['c'], ['b']])], [(2, [['1'], ['2'], ['3']]), (3, [['4'], ['5'], ['6']])], none,
      ⟨_, rfl, by decide +kernel, by decide +kernel⟩, by decide +kernel, by decide +kernel, .inr (by decide +kernel)⟩

/-- … but if the first row is short, the values of all others are stored under the wrong names: here `b` and `c` are swapped in the second
row. -/
theorem C81_violated_short (ext : Ext) (x : MExt) (fx : FExt) (sx : SqlExt) (hr : ∀ db n rows r, sx.refuse db n rows r = false)
    (old : Option Database) :
    writeFromTg ext x fx sx nameTranslator false true true (threeDisk "t.csv".toList "a,c,b\n1\n4,5,6\n".toList)
        (threeFile "t.csv".toList) old =
      (some [threeTable "t.csv".toList [[(['a'], .text ['1']), (['b'], .null), (['c'], .null)],
        [(['a'], .text ['4']), (['b'], .text ['5']), (['c'], .text ['6'])]]], none) ∧
    (threeFile "t.csv".toList).read ext x fx (threeDisk "t.csv".toList "a,c,b\n1\n4,5,6\n".toList) =
      .ok [("t.csv".toList, [[(['a'], .one (.str ['1'])), (['b'], .one .none), (['c'], .one .none)],
        [(['a'], .one (.str ['4'])), (['c'], .one (.str ['5'])), (['b'], .one (.str ['6']))]])] := by
  have h : DataRows (threeT "t.csv".toList) "a,c,b\n1\n4,5,6\n".toList
      [(1, [['a'], ['c'], ['b']]), (2, [['1']]), (3, [['4'], ['5'], ['6']])] none :=
    ⟨_, rfl, by decide +kernel, by decide +kernel⟩
  have hread : (threeFile "t.csv".toList).read ext x fx (threeDisk "t.csv".toList "a,c,b\n1\n4,5,6\n".toList) =
      .ok [("t.csv".toList, [[(['a'], .one (.str ['1'])), (['b'], .one .none), (['c'], .one .none)],
        [(['a'], .one (.str ['4'])), (['c'], .one (.str ['5'])), (['b'], .one (.str ['6']))]])] := (three_read h).trans rfl
  refine ⟨three_write hread ?_, hread⟩
  simp [Db.write, createAll, create, badTable, oddTable, oddName, foldName, Char.toLower, ColSpec.check, threeSpec, threeTable, nameTranslator, ColSpec.dbType, Dict.keys, writeTables, writeTable,
    rowLoop, Db.rowStep, pkOf, itemLoop, itemStep, stored, asList, convert, Db.bind, Db.insert, insertIn, insertRows, insertRow, hr, newRow, Dict.get,
    affinity, Dict.has, writeRefs]
  rfl

/-- A table named `self`, `force`, `_exists_ok` or `_skip_extra` can not be written: the name is taken for that of an argument. -/
theorem C81_violated_name {ext : Ext} {x : MExt} {fx : FExt} {sx : SqlExt} {tr : Translator} {skip force drop : Bool} {d : Disk} {g : FGroup}
    {t : Table} (ht : t ∈ g.desc.group.tables) (hn : t.url ∈ ["self".toList, "force".toList, "_exists_ok".toList, "_skip_extra".toList])
    (old : Option Database) : ∃ e, writeFromTg ext x fx sx tr skip force drop d g old = (old, some e) := by
  unfold writeFromTg
  split
  · exact ⟨_, rfl⟩
  · split
    · exact ⟨_, rfl⟩
    · rename_i items hr
      unfold callWrite
      rw [if_pos]
      · exact ⟨_, rfl⟩
      · refine List.any_eq_true.2 ⟨t.url, ?_, List.contains_iff_mem.2 hn⟩
        rw [(get_mapRes (f := fun p => p.2.readRows ext x fx d g.fname) hr t.url).1]
        unfold TableGroup.tabledict
        exact (Dict.mem_keys_ofPairs _ _).2 (List.mem_map.2 ⟨_, List.mem_map.2 ⟨t, ht, rfl⟩, rfl⟩)

end Csvw.Props
