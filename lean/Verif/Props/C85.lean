import Verif.Lemmas.Convert4
import Verif.Props.C72
/-!
# C85: what can be read and is valid can be converted to SQLite
-/

namespace Csvw.Props
open Csvw Csvw.Py Csvw.Spec Csvw.Db Csvw.Table

/-- A table group, the data of which was read, which can be converted to a database: there are tables in SQL for it, with names which differ (not
only by case), at most 100 of them; and the tables and their data can be converted. -/
structure GroupConvertible (ext : Ext) (fx : FExt) (d : Disk) (g : FGroup) (items : List (Str × List RowDict)) : Prop where
  expressible : Expressible g.desc.group
  acyclic : NoCycles g.desc.group true
  fresh : FreshNames g.desc.group
  few : ∃ names, CoversNames g.desc.group names ∧ names.length ≤ 100
  names : ∀ s s', IsSqlTable g.desc.group true s → IsSqlTable g.desc.group true s' → foldName s.name = foldName s'.name → s = s'
  plain : ∀ s, IsSqlTable g.desc.group true s → PlainNames s
  tables : ∀ t, TableNamed g.desc.group t.url t → TableConvertible g.desc.group t
  files : ∀ t text, TableNamed g.desc.group t.url t → FileText fx d g.fname t text → Aligned t text
  rows : ∀ t rows, TableNamed g.desc.group t.url t → Dict.get t.url items = some rows → RowsConvertible ext g.desc.group items t rows

/-! ## Proof -/

theorem plainKeys_mem {t : Table} {drop : Bool} {fks plain : List ForeignKey} (h : PlainKeys t drop fks plain) {fk : ForeignKey}
    (hm : fk ∈ plain) : fk ∈ fks ∧ PlainKey t drop fk := by
  induction h with
  | nil => cases hm
  | take h _ ih =>
    rcases List.mem_cons.1 hm with rfl | hm
    · exact ⟨by simp, h⟩
    · exact ⟨List.mem_cons_of_mem _ (ih hm).1, (ih hm).2⟩
  | skip h _ ih => exact ⟨List.mem_cons_of_mem _ (ih hm).1, (ih hm).2⟩

theorem spec_foreign {t : Table} {drop : Bool} {s : TableSpec} (h : fromTable t drop = .ok s) {e : List Str × Str × List Str}
    (he : e ∈ s.foreignKeys) : ∃ fk ∈ t.schema.foreignKeys, PlainKey t drop fk ∧ fk.resource = some e.2.1 ∧ e.1.Perm fk.columnReference ∧
      e.2.2.Perm fk.refColumns ∧ (fk.columnReference.length = fk.refColumns.length → OrderPreserving (fk.columnReference.zip fk.refColumns) →
        (e.1.zip e.2.2).Perm (fk.columnReference.zip fk.refColumns)) := by
  obtain ⟨plain, h1, h2⟩ := C45_iff h
  obtain ⟨fk, hfk, h3, h4, h5, h6⟩ := All2_mem_right h2 e he
  obtain ⟨h7, h8⟩ := plainKeys_mem h1 hfk
  exact ⟨fk, h7, h8, h3, h4, h5, fun hl ho => (h6 hl).2 ho⟩

theorem fold_context (a b : Str) : foldName (a ++ '_' :: b) ≠ foldName "context".toList := by
  intro h
  have : '_' ∈ foldName "context".toList := by
    rw [← h]
    exact List.mem_map.2 ⟨'_', by simp, by decide⟩
  revert this
  decide

section
variable {ext : Ext} {x : MExt} {fx : FExt} {d : Disk} {g : FGroup} {items : List (Str × List RowDict)}

theorem convertible_distinct (hc : GroupConvertible ext fx d g items) :
    ∀ s s', IsSqlTable g.desc.group true s → IsSqlTable g.desc.group true s' → s.name = s'.name → s = s' :=
  fun s s' h h' he => hc.names s s' h h' (by rw [he])

/-- The rows of a table. -/
theorem items_of_table (hr : g.read ext x fx d = .ok items) {t : Table} (ht : TableNamed g.desc.group t.url t) :
    ∃ rows, t.readRows ext x fx d g.fname = .ok rows ∧ Dict.get t.url items = some rows := by
  obtain ⟨_, h⟩ := get_mapRes (f := fun p => p.2.readRows ext x fx d g.fname) hr t.url
  exact h t (((tabledict_iff _ _).1 t).2 ht)

theorem items_none (hr : g.read ext x fx d = .ok items) {n : Str} (hn : ∀ u ∈ g.desc.group.tables, u.url ≠ n) : Dict.get n items = none := by
  obtain ⟨h, _⟩ := get_mapRes (f := fun p => p.2.readRows ext x fx d g.fname) hr n
  have := ((tabledict_iff g.desc.group n).2).2 hn
  rw [Dict.get_eq_none_iff] at this ⊢
  rw [h]
  exact this

theorem items_rows (hc : GroupConvertible ext fx d g items) (hr : g.read ext x fx d = .ok items) {t : Table}
    (ht : TableNamed g.desc.group t.url t) : ∃ rows, Dict.get t.url items = some rows ∧ FileRows ext t rows ∧
      RowsConvertible ext g.desc.group items t rows := by
  obtain ⟨rows, h1, h2⟩ := items_of_table hr ht
  obtain ⟨text, h3, _, rfl⟩ := readRows_text h1
  have ht' := hc.tables t ht
  exact ⟨_, h2, file_rows ht'.noVirtual (nodup_headers ht'.headers.1) (hc.files t text ht h3), hc.rows t _ ht h2⟩

/-- A key which is no list is in the table itself. -/
theorem own_key (hc : GroupConvertible ext fx d g items) {t : Table} (ht : TableNamed g.desc.group t.url t) {s : TableSpec}
    (hs : fromTable t true = .ok s) {k : Str} {c : CCol} (hk : KeyColumn t k c) (row : RowDict) :
    Dict.get k (ownItems s row) = Dict.get k row := by
  obtain ⟨h1, rfl, h2, _⟩ := hk
  rw [get_ownItems, plain_own (nodup_headers (hc.tables t ht).headers.1) hs h1 h2]
  rfl

theorem own_column (hc : GroupConvertible ext fx d g items) {t : Table} (ht : TableNamed g.desc.group t.url t) {s : TableSpec}
    (hs : fromTable t true = .ok s) {k : Str} {c : CCol} (hk : KeyColumn t k c) :
    ∃ cs ∈ s.columns, cs.name = k ∧ cs.separator = none ∧ SameColumn c cs := by
  obtain ⟨h1, rfl, h2, _⟩ := hk
  obtain ⟨cs, h3, h4⟩ := same_of_col hs h1 (plain_own (nodup_headers (hc.tables t ht).headers.1) hs h1 h2)
  refine ⟨cs, h3, h4.name, ?_, h4⟩
  have := h4.separator
  rw [h2] at this
  exact (Except.ok.inj this).symm

/-- The name of an association table is not that of a table. -/
theorem assoc_unused (hc : GroupConvertible ext fx d g items) {t : Table} (ht : TableNamed g.desc.group t.url t) {s : TableSpec}
    (hs : fromTable t true = .ok s) {k : Str} {a : AssocSpec} (ha : Dict.get k s.manyToMany = some a) :
    ∀ u ∈ g.desc.group.tables, u.url ≠ a.name := by
  obtain ⟨fk, h1, h2, h3, _, pk, rc, r, _, _, h4, rfl⟩ := fromTable_links hs ha
  exact hc.fresh t fk r (tableNamed_mem ht).1 h1 h2 h3 h4

theorem columns_fold {l : List CCol} {m : List ColSpec} (h : All2 SameColumn l m) :
    m.map (fun c => c.name) = l.map fun c => c.col.header := by
  induction h with
  | nil => rfl
  | cons h _ ih => simp [h.name, ih]

/-- **C85** The tables of the database and the data are such that it can be loaded. -/
theorem convertible_loadable (hc : GroupConvertible ext fx d g items) (hr : g.read ext x fx d = .ok items) {tables : List TableSpec}
    (h : schema g.desc.group true = .ok tables) : Loadable ext nameTranslator tables items := by
  have hdist := convertible_distinct hc
  obtain ⟨hnd, hall, _⟩ := C43_tables h
  have hex := C43_exact h hdist
  have hspec : ∀ t, TableNamed g.desc.group t.url t → ∃ s ∈ tables, fromTable t true = .ok s := fun t ht => spec_of_table h hdist ht
  -- the spec with the name of a table
  have hnamed : ∀ u, TableNamed g.desc.group u.url u → ∀ s ∈ tables, s.name = u.url → fromTable u true = .ok s := by
    intro u hu s hs hsn
    obtain ⟨s', h1, h2⟩ := hspec u hu
    have := hdist s s' (hall s hs) (hall s' h1) (by rw [hsn, fromTable_name h2])
    rw [this]
    exact h2
  have htr : ∀ q n, PlainName q → PlainName n → PlainName (nameTranslator q (some n)) := by
    intro q n h1 h2
    show PlainName (if n = [] then q else n)
    split
    · exact h1
    · exact h2
  refine ⟨?_, ?_, ?_, ?_, ?_, ?_, ?_, ?_, ?_⟩
  · -- names
    rw [List.Nodup, List.pairwise_map] at hnd ⊢
    refine hnd.imp_of_mem ?_
    intro a b ha hb hab he
    exact hab (by rw [hc.names a b (hall a ha) (hall b hb) he])
  · -- columns
    intro s hs
    cases hall s hs with
    | @table t _ ht hf =>
      have ht' := hc.tables t ht
      refine ⟨?_, ?_, ?_⟩
      · obtain ⟨c, hcm, hsep⟩ := ht'.stored
        obtain ⟨cs, h1, _⟩ := same_of_col hf hcm (plain_own (nodup_headers ht'.headers.1) hf hcm hsep)
        exact List.ne_nil_of_mem h1
      · have e1 := columns_fold (C48_columns hf).2.2
        have e2 : s.columns.map (fun c => foldName (nameTranslator s.name (some c.name))) =
            (s.columns.map (fun c => c.name)).map foldName := by
          rw [List.map_map]
          apply List.map_congr_left
          intro c hcm
          obtain ⟨cc, h1, h2, _⟩ := same_of_spec hf hcm
          have hne : c.name ≠ [] := by
            rw [h2.name]
            obtain ⟨c', hc', rfl⟩ := List.mem_map.1 h1
            exact ht'.headers.2 c' hc'
          simp [nameTranslator, hne]
        rw [e2, e1, List.map_map]
        have e3 : t.schema.columns.map (fun c => foldName c.header) = t.ccols.map fun c => foldName c.col.header := by
          unfold ccols
          rw [List.map_map]
          rfl
        have h4 := ht'.headers.1
        rw [e3] at h4
        exact h4.sublist (List.Sublist.map _ List.filter_sublist)
      · intro cs hcs dt hdt
        obtain ⟨c, h1, h2, _⟩ := same_of_spec hf hcs
        rw [h2.datatype] at hdt
        have hb : cs.base = dt.base := by rw [h2.base, hdt]
        rcases (ht'.columns c h1).limits dt hdt with h3 | ⟨h3, h4⟩
        · exact .inl h3
        · refine .inr ⟨?_, hb.symm, ?_⟩
          · have := h2.separator
            rw [h3] at this
            exact (Except.ok.inj this).symm
          · rw [hb]
            exact h4
    | @assoc t s' ht hf c a ha =>
      obtain ⟨c', hget⟩ : ∃ c', Dict.get c' s'.manyToMany = some a :=
        ⟨c, Dict.get_of_mem_nodup (manyToMany_nodup hf) ha⟩
      obtain ⟨fk, h1, h2, h3, h4, pk, rc, r, h5, h6, h7, rfl⟩ := fromTable_links hf hget
      obtain ⟨r', u, k, h8, h9, h10, h11, h12⟩ := (hc.tables t ht).links fk h1 h2 h3
      rw [h7] at h8
      cases h8
      rw [h6] at h10
      cases h10
      refine ⟨by simp [AssocSpec.toSpec], ?_, ?_⟩
      · have hn : ∀ n : Str, n ≠ [] → ∀ q, nameTranslator q (some n) = n := by
          intro n hn q
          simp [nameTranslator, hn]
        have hfc := fold_context
        have hd := h12 pk h5
        simp only [AssocSpec.toSpec, List.map_cons, List.map_nil, associationTable]
        split
        · rename_i he
          rw [hn _ (by simp), hn _ (by simp), hn _ (by decide), he]
          have e1 : ∀ z : Str, (r ++ '_' :: rc) ++ z = r ++ '_' :: (rc ++ z) := by intro z; simp
          rw [List.nodup_cons, List.nodup_cons]
          refine ⟨?_, ?_, by simp⟩
          · simp only [List.mem_cons, List.not_mem_nil, or_false, not_or]
            refine ⟨?_, by rw [e1]; exact hfc _ _⟩
            unfold foldName
            simp only [List.map_append]
            rw [List.append_cancel_left_eq]
            decide
          · simp only [List.mem_cons, List.not_mem_nil, or_false]
            rw [e1]; exact hfc _ _
        · rename_i he
          rw [hn _ (by simp), hn _ (by simp), hn _ (by decide)]
          rw [List.nodup_cons, List.nodup_cons]
          refine ⟨?_, ?_, by simp⟩
          · simp only [List.mem_cons, List.not_mem_nil, or_false, not_or]
            exact ⟨fun hh => he (hd hh), hfc _ _⟩
          · simp only [List.mem_cons, List.not_mem_nil, or_false]
            exact hfc _ _
      · intro cs hcs dt hdt
        simp only [AssocSpec.toSpec, List.mem_cons, List.not_mem_nil, or_false] at hcs
        rcases hcs with rfl | rfl | rfl <;> cases hdt
  · -- keys
    intro s hs k hk
    cases hall s hs with
    | @table t _ ht hf =>
      rw [(C48_columns hf).2.1] at hk
      obtain ⟨c, hkc⟩ := (hc.tables t ht).key k hk
      obtain ⟨cs, h1, h2, h3, h4⟩ := own_column hc ht hf hkc
      exact ⟨cs, h1, h2, h3, by rw [h4.base]; exact hkc.2.2.2⟩
    | @assoc t s' ht hf c a ha => simp [AssocSpec.toSpec] at hk
  · -- foreign keys
    intro s hs e he k hk
    cases hall s hs with
    | @table t _ ht hf =>
      obtain ⟨fk, h1, h2, h3, h4, h5, h6⟩ := spec_foreign hf he
      obtain ⟨r, u, pk, h7, h8, h9, h10, h11, h12, h13, h14⟩ := (hc.tables t ht).foreign fk h1 h2
      have hk' := h4.mem_iff.1 hk
      obtain ⟨i, hi, rfl⟩ := List.mem_iff_getElem.1 hk'
      have hq : (fk.columnReference[i], fk.refColumns[i]'(by omega)) ∈ fk.columnReference.zip fk.refColumns := by
        rw [List.mem_iff_getElem]
        exact ⟨i, by simp; omega, by simp⟩
      obtain ⟨c, _, hkc, _⟩ := h14 _ hq
      obtain ⟨cs, g1, g2, g3, _⟩ := own_column hc ht hf hkc
      exact ⟨cs, g1, g2, g3⟩
    | @assoc t s' ht hf c a ha =>
      simp only [AssocSpec.toSpec, List.mem_cons, List.not_mem_nil, or_false] at he
      rcases he with rfl | rfl
      · simp only [List.mem_cons, List.not_mem_nil, or_false] at hk
        subst hk
        exact ⟨{ name := a.acol }, by simp [AssocSpec.toSpec], rfl, rfl⟩
      · simp only [List.mem_cons, List.not_mem_nil, or_false] at hk
        subst hk
        exact ⟨{ name := a.bcol }, by simp [AssocSpec.toSpec], rfl, rfl⟩
  · -- apart
    intro s hs cs hcs
    cases hall s hs with
    | @table t _ ht hf =>
      obtain ⟨c, h1, h2, h3⟩ := same_of_spec hf hcs
      rw [h2.name, ← Dict.has_iff_mem_keys, h3]
      simp
    | @assoc t s' ht hf c a ha => simp [AssocSpec.toSpec, Dict.keys]
  · -- rows
    intro s hs rows hrows
    cases hall s hs with
    | @table t _ ht hf =>
      obtain ⟨rows', h1, h2, h3⟩ := items_rows hc hr ht
      unfold tableData at hrows
      rw [fromTable_name hf, h1] at hrows
      obtain rfl := Option.some.inj hrows
      exact rows_valid (hc.tables t ht) h2 h3 hf
    | @assoc t s' ht hf c a ha =>
      have := items_none hr (assoc_unused hc ht hf (Dict.get_of_mem_nodup (manyToMany_nodup hf) ha))
      unfold tableData at hrows
      rw [show a.toSpec.name = a.name from rfl, this] at hrows
      cases hrows
  · -- references
    intro before s after hb e he
    have hs : s ∈ tables := by rw [hb]; simp
    have hbefore : ∀ u ∈ before, u ∈ tables := fun u hu => by rw [hb]; simp [hu]
    have hord := C43_order h hb e he
    cases hall s hs with
    | @table t _ ht hf =>
      have ht' := hc.tables t ht
      obtain ⟨fk, h1, h2, h3, h4, h5, h6⟩ := spec_foreign hf he
      obtain ⟨r, u, pk, h7, h8, h9, h10, h11, h12, h13, h14⟩ := ht'.foreign fk h1 h2
      rw [h3] at h7
      cases h7
      have hself : e.2.1 ≠ s.name := by
        intro hh
        exact h2.2.2 ⟨rfl, by rw [h3, hh, fromTable_name hf]⟩
      obtain ⟨p, hp, hpn⟩ : ∃ p ∈ before, p.name = e.2.1 := by
        rcases hord with hh | hh
        · exact absurd hh hself
        · exact hh
      have hu : TableNamed g.desc.group u.url u := by rw [(tableNamed_mem h8).2]; exact h8
      have hpf := hnamed u hu p (hbefore p hp) (hpn.trans (tableNamed_mem h8).2.symm)
      have hzip := h6 h11 h13
      refine ⟨p, by simp [hp], hpn, ⟨pk, ?_, h10.trans h5.symm⟩, ?_, ?_, ?_⟩
      · rw [(C48_columns hpf).2.1, h9]
      · rw [h4.length_eq, h5.length_eq, h11]
      · intro hnil
        rw [hnil] at h4
        exact h12 h4.symm.eq_nil
      · intro rows hrows
        obtain ⟨rows', g1, g2, g3⟩ := items_rows hc hr ht
        unfold tableData at hrows
        rw [fromTable_name hf, g1] at hrows
        obtain rfl := Option.some.inj hrows
        constructor
        · intro q hq c hcm c' hcm' hcn hcn'
          obtain ⟨cc, cc', k1, k2, k3⟩ := h14 q (hzip.mem_iff.1 hq)
          obtain ⟨c1, m1, m2, _⟩ := same_of_spec hf hcm
          obtain ⟨c2, m3, m4, _⟩ := same_of_spec hpf hcm'
          have e1 : c1 = cc := header_unique (nodup_headers ht'.headers.1) m1 k1.1 (by rw [← m2.name, hcn, k1.2.1])
          have e2 : c2 = cc' := header_unique (nodup_headers (hc.tables u hu).headers.1) m3 k2.1 (by rw [← m4.name, hcn', k2.2.1])
          subst e1 e2
          rw [m2.base, m4.base]
          exact k3
        · intro earlier row later hsplit
          rw [if_neg hself]
          have hmem : row ∈ rows'.map (ownItems s) := by rw [hsplit]; simp
          obtain ⟨row0, hrow0, rfl⟩ := List.mem_map.1 hmem
          rcases g3.foreign fk h1 h2 _ h3 row0 hrow0 with ⟨k, hk, hnull⟩ | ⟨row1, hrow1, hq⟩
          · refine .inl ⟨k, h4.symm.mem_iff.1 hk, .inr ?_⟩
            obtain ⟨i, hi, rfl⟩ := List.mem_iff_getElem.1 hk
            have hq : (fk.columnReference[i], fk.refColumns[i]'(by omega)) ∈ fk.columnReference.zip fk.refColumns := by
              rw [List.mem_iff_getElem]
              exact ⟨i, by simp; omega, by simp⟩
            obtain ⟨c, _, hkc, _⟩ := h14 _ hq
            rw [own_key hc ht hf hkc]
            exact hnull
          · obtain ⟨rows2, f1, f2, f3⟩ := items_rows hc hr hu
            rw [(tableNamed_mem h8).2] at f1
            rw [f1] at hrow1
            refine .inr ⟨ownItems p row1, ?_, ?_⟩
            · unfold tableData
              rw [hpn, f1]
              exact List.mem_map_of_mem hrow1
            · intro q hqm
              have hqm' := hzip.mem_iff.1 hqm
              obtain ⟨cc, cc', k1, k2, k3⟩ := h14 q hqm'
              rw [own_key hc ht hf k1, own_key hc hu hpf k2]
              exact hq q hqm'
    | @assoc t s' ht hf c a ha =>
      have hget := Dict.get_of_mem_nodup (manyToMany_nodup hf) ha
      have hun := assoc_unused hc ht hf hget
      have hnone := items_none hr hun
      obtain ⟨fk, h1, h2, h3, h4, pk, rc, r, h5, h6, h7, rfl⟩ := fromTable_links hf hget
      obtain ⟨r', u, k, h8, h9, h10, h11, h12⟩ := (hc.tables t ht).links fk h1 h2 h3
      rw [h7] at h8
      cases h8
      rw [h6] at h10
      cases h10
      have hu : TableNamed g.desc.group u.url u := by rw [(tableNamed_mem h9).2]; exact h9
      have hdata : ∀ rows, tableData items (associationTable t.url pk r rc).toSpec ≠ some rows := by
        intro rows hh
        unfold tableData at hh
        rw [show (associationTable t.url pk r rc).toSpec.name = (associationTable t.url pk r rc).name from rfl, hnone] at hh
        cases hh
      simp only [AssocSpec.toSpec, List.mem_cons, List.not_mem_nil, or_false] at he
      rcases he with rfl | rfl
      · obtain ⟨p, hp, hpn⟩ : ∃ p ∈ before, p.name = t.url := by
          rcases hord with hh | hh
          · exact absurd hh (hun t (tableNamed_mem ht).1)
          · exact hh
        have hpf := hnamed t ht p (hbefore p hp) hpn
        refine ⟨p, by simp [hp], hpn, ⟨[pk], by rw [(C48_columns hpf).2.1, h5], List.Perm.refl _⟩, rfl, by simp, ?_⟩
        intro rows hh
        exact absurd hh (hdata rows)
      · obtain ⟨p, hp, hpn⟩ : ∃ p ∈ before, p.name = r := by
          rcases hord with hh | hh
          · exact absurd ((tableNamed_mem h9).2.trans hh) (hun u (tableNamed_mem hu).1)
          · exact hh
        have hpf := hnamed u hu p (hbefore p hp) (hpn.trans (tableNamed_mem h9).2.symm)
        refine ⟨p, by simp [hp], hpn, ⟨[rc], by rw [(C48_columns hpf).2.1, h11], List.Perm.refl _⟩, rfl, by simp, ?_⟩
        intro rows hh
        exact absurd hh (hdata rows)
  · -- links
    intro s hs k a hget
    cases hall s hs with
    | @assoc t s' ht hf c a' ha => simp [AssocSpec.toSpec, Dict.get] at hget
    | @table t _ ht hf =>
      have ht' := hc.tables t ht
      have hun := assoc_unused hc ht hf hget
      have hnone := items_none hr hun
      have hin := (hex _).2 (IsSqlTable.assoc ht hf (Dict.get_mem hget))
      obtain ⟨fk, h1, h2, h3, h4, pk, rc, r, h5, h6, h7, rfl⟩ := fromTable_links hf hget
      obtain ⟨r', u, k', h8, h9, h10, h11, h12⟩ := ht'.links fk h1 h2 h3
      rw [h7] at h8
      cases h8
      rw [h6] at h10
      cases h10
      have hu : TableNamed g.desc.group u.url u := by rw [(tableNamed_mem h9).2]; exact h9
      obtain ⟨p, hp, hpf⟩ := hspec u hu
      have hpn : p.name = r := (fromTable_name hpf).trans (tableNamed_mem h9).2
      refine ⟨hin, hnone, (fromTable_name hf).symm, by rw [(C48_columns hf).2.1, h5]; rfl, p, hp, hpn,
        by rw [(C48_columns hpf).2.1, h11]; rfl, ?_⟩
      intro rows hrows row hrow
      obtain ⟨rows', g1, g2, g3⟩ := items_rows hc hr ht
      rw [fromTable_name hf, g1] at hrows
      cases hrows
      obtain ⟨l1, l2⟩ := g3.links fk h1 h2 h3 r h7 row hrow
      constructor
      · obtain ⟨c, hkc⟩ := ht'.key pk (by rw [h5]; simp)
        obtain ⟨w, hw, _⟩ := key_value ht' g2 g3.safe hf hrow hkc.1 hkc.2.2.1
        rw [hkc.2.1] at hw
        exact ⟨w, hw, l1 pk h5 w hw⟩
      · intro v hv
        have hgv := Dict.get_of_mem_nodup (g2.nodup row hrow) hv
        obtain ⟨col, hcol, he, htr⟩ := h3
        rw [h4] at he
        have hk : k = col.header := (List.cons.inj he).1
        subst hk
        have hcm : (⟨col, t.parents⟩ : CCol) ∈ t.ccols := List.mem_map.2 ⟨col, hcol, rfl⟩
        obtain ⟨o, ho⟩ := hc.expressible.separator t _ ht hcm
        have hone := own_separator (c := ⟨col, t.parents⟩) htr ho
        have hsame : SameColumn ⟨col, t.parents⟩ { name := col.header,
                                                   required := CCol.required ⟨col, t.parents⟩,
                                                   base := columnBase ⟨col, t.parents⟩,
                                                   csvw := CCol.datatype ⟨col, t.parents⟩,
                                                   separator := o } := ⟨rfl, rfl, rfl, ho, rfl⟩
        rcases cell_valid g2 g3.safe hrow hcm (ht'.columns _ hcm) hsame hgv with ⟨rfl, _⟩ | ⟨h, _⟩ | ⟨_, l, rfl, _⟩
        · exact .inl rfl
        · exact absurd h hone
        · refine .inr ⟨l, rfl, ?_⟩
          intro w hw
          obtain ⟨row', hrow', hg'⟩ := l2 col.header rc h4 h6 l hgv w hw
          obtain ⟨rows2, f1, f2, f3⟩ := items_rows hc hr hu
          rw [(tableNamed_mem h9).2] at f1
          rw [f1] at hrow'
          obtain ⟨c2, hkc2⟩ := (hc.tables u hu).key rc (by rw [h11]; simp)
          refine ⟨ownItems p row', ?_, ?_⟩
          · unfold tableData
            rw [hpn, f1]
            exact List.mem_map_of_mem hrow'
          · exact (own_key hc hu hpf hkc2 row').trans hg'
  · -- names which can be quoted
    intro s hs
    obtain ⟨p1, p2, p3⟩ := hc.plain s (hall s hs)
    -- the names of a column which is referenced
    have href : ∀ u, TableNamed g.desc.group u.url u → ∀ k c, KeyColumn u k c → PlainName u.url ∧ PlainName (nameTranslator u.url (some k)) := by
      intro u hu k c hk
      obtain ⟨su, g1, g2⟩ := hspec u hu
      obtain ⟨cs, g3, g4, _⟩ := own_column hc hu g2 hk
      obtain ⟨q1, _, q3⟩ := hc.plain su (hall su g1)
      rw [fromTable_name g2] at q1
      exact ⟨q1, htr _ _ q1 (g4 ▸ q3 cs g3)⟩
    refine ⟨⟨p1, p2⟩, fun c hcm => htr _ _ p1 (p3 c hcm), ?_⟩
    intro e he
    cases hall s hs with
    | @table t _ ht hf =>
      obtain ⟨fk, h1, h2, h3, h4, h5, h6⟩ := spec_foreign hf he
      obtain ⟨r, u, pk, h7, h8, h9, h10, h11, h12, h13, h14⟩ := (hc.tables t ht).foreign fk h1 h2
      rw [h3] at h7
      obtain rfl := Option.some.inj h7
      have hu : TableNamed g.desc.group u.url u := by rw [(tableNamed_mem h8).2]; exact h8
      have hcol : ∀ k ∈ fk.refColumns, PlainName u.url ∧ PlainName (nameTranslator u.url (some k)) := by
        intro k hk
        obtain ⟨i, hi, rfl⟩ := List.mem_iff_getElem.1 hk
        have hq : (fk.columnReference[i]'(by omega), fk.refColumns[i]) ∈ fk.columnReference.zip fk.refColumns := by
          rw [List.mem_iff_getElem]
          exact ⟨i, by simp; omega, by simp⟩
        obtain ⟨_, c', _, hkc, _⟩ := h14 _ hq
        exact href u hu _ _ hkc
      rw [(tableNamed_mem h8).2] at hcol
      refine ⟨?_, ?_, ?_, fun k hk => (hcol k (h5.mem_iff.1 hk)).2⟩
      · intro h0
        rw [h0] at h4
        exact h12 (List.nil_perm.1 h4)
      · rw [h4.length_eq, h5.length_eq, h11]
      · cases hrc : fk.refColumns with
        | nil => rw [hrc] at h11; exact absurd (List.length_eq_zero_iff.1 h11) h12
        | cons k l => exact (hcol k (by rw [hrc]; simp)).1
    | @assoc t s' ht hf c a ha =>
      obtain ⟨fk, h1, h2, h3, h4, pk, rc, r, h5, h6, h7, rfl⟩ := fromTable_links hf (Dict.get_of_mem_nodup (manyToMany_nodup hf) ha)
      obtain ⟨r', u, k, h8, h9, h10, h11, h12⟩ := (hc.tables t ht).links fk h1 h2 h3
      rw [h7] at h8
      cases h8
      rw [h6] at h10
      cases h10
      have hu : TableNamed g.desc.group u.url u := by rw [(tableNamed_mem h9).2]; exact h9
      obtain ⟨c1, hk1⟩ := (hc.tables t ht).key pk (by rw [h5]; simp)
      obtain ⟨c2, hk2⟩ := (hc.tables u hu).key rc (by rw [h11]; simp)
      have e1 := href t ht _ _ hk1
      have e2 := href u hu _ _ hk2
      rw [(tableNamed_mem h9).2] at e2
      simp only [AssocSpec.toSpec, List.mem_cons, List.not_mem_nil, or_false] at he
      rcases he with rfl | rfl
      · refine ⟨by simp, rfl, e1.1, ?_⟩
        intro k hk
        rw [List.mem_singleton.1 hk]
        exact e1.2
      · refine ⟨by simp, rfl, e2.1, ?_⟩
        intro k hk
        rw [List.mem_singleton.1 hk]
        exact e2.2

/-! ## Theorems -/

variable {sx : SqlExt} {cmp : SqlCmp} {skip force : Bool} {old : Option Database}

/-- **C85** If the data of a table group can be read, and group and data can be converted, then `Database(tg, fname).write_from_tg()` writes it to
the database file: afterwards, there is a table in it for each table, with one row for each row of the data, in the same order, which holds its values. -/
theorem C85_converts (hc : GroupConvertible ext fx d g items) (hr : g.read ext x fx d = .ok items)
    (hp : ∀ t ∈ g.desc.group.tables, t.url ∉ writeParams)
    (hE : ∀ tables, schema g.desc.group true = .ok tables → Enforces sx cmp nameTranslator tables) (hI : ReadsIntegers sx)
    (hold : old = none ∨ force = true) :
    ∃ db, writeFromTg ext x fx sx nameTranslator skip force true d g old = (some db, none) ∧
      ∀ t, TableNamed g.desc.group t.url t → ∃ spec rows, fromTable t true = .ok spec ∧ Dict.get t.url items = some rows ∧
        ∃ u ∈ db, u.name = t.url ∧ All2 (StoresRow ext sx nameTranslator spec) rows u.rows := by
  obtain ⟨names, hn, hlen⟩ := hc.few
  obtain ⟨tables, hs⟩ := C44_accepted hc.expressible hc.acyclic hc.fresh hn hlen
  obtain ⟨db, hdb⟩ := C72_load (skip := skip) (convertible_loadable hc hr hs) (hE tables hs) hI
  have hw : writeFromTg ext x fx sx nameTranslator skip force true d g old = (some db, none) := by
    unfold writeFromTg
    rw [hs]
    simp only [hr]
    unfold callWrite
    rw [if_neg, (C70_written hold db).2 hdb]
    simp only [List.any_eq_true, not_exists, not_and]
    intro k hk hw
    obtain ⟨h, _⟩ := get_mapRes (f := fun p => p.2.readRows ext x fx d g.fname) hr k
    rw [h] at hk
    by_cases hu : ∃ u ∈ g.desc.group.tables, u.url = k
    · obtain ⟨u, hu, rfl⟩ := hu
      exact hp u hu (by simpa using hw)
    · have := ((tabledict_iff g.desc.group k).2).2 fun u hu' he => hu ⟨u, hu', he⟩
      rw [Dict.get_eq_none_iff] at this
      exact this hk
  refine ⟨db, hw, ?_⟩
  intro t ht
  obtain ⟨spec, rows, h1, h2, h3⟩ := C81_stored (tr := nameTranslator)
    ⟨hw, hc.fresh, fun s s' h1 h2 h3 => by rw [hc.names s s' h1 h2 h3]⟩ ht (virtualLast_of (hc.tables t ht).noVirtual) (hc.files t · ht)
  obtain ⟨rows', h4, h5⟩ := items_of_table hr ht
  rw [h2] at h4
  cases h4
  exact ⟨spec, rows, h1, h5, h3⟩

/-- **C85** The same for the command: `csvw2sqlite md.json db.sqlite` succeeds, whether the database exists or not. -/
theorem C85_command {other : Base → Derived → J → Res Val} {lk : EncLookup} {p : PPath} (hf : FGroup.fromFile ext x other lk fx d p = .ok g)
    (hc : GroupConvertible ext fx d g items) (hr : g.read ext x fx d = .ok items)
    (hp : ∀ t ∈ g.desc.group.tables, t.url ∉ writeParams)
    (hE : ∀ tables, schema g.desc.group true = .ok tables → Enforces sx cmp nameTranslator tables) (hI : ReadsIntegers sx) :
    ∃ db, csvw2sqlite ext x other lk fx sx d p old = (some db, none) ∧
      ∀ t, TableNamed g.desc.group t.url t → ∃ spec rows, fromTable t true = .ok spec ∧ Dict.get t.url items = some rows ∧
        ∃ u ∈ db, u.name = t.url ∧ All2 (StoresRow ext sx nameTranslator spec) rows u.rows := by
  unfold csvw2sqlite
  rw [hf]
  exact C85_converts hc hr hp hE hI (.inr rfl)

end
end Csvw.Props
