import Verif.Lemmas.DbLoad
/-!
# C72: valid data can be loaded into the database
-/

namespace Csvw.Props
open Csvw.Datatypes Csvw.Py Csvw.Spec Csvw.Db

section
variable {ext : Ext} {sx : SqlExt} {tr : Translator} {skip : Bool} {cmp : SqlCmp}

theorem map_eq_of_zip {α β γ : Type} {f : α → γ} {g : β → γ} {as : List α} {bs : List β} (hl : as.length = bs.length)
    (h : ∀ q ∈ as.zip bs, f q.1 = g q.2) : as.map f = bs.map g := by
  induction as generalizing bs with
  | nil => cases bs with
    | nil => rfl
    | cons b r => simp at hl
  | cons a as ih => cases bs with
    | nil => simp at hl
    | cons b bs =>
      rw [List.map_cons, List.map_cons, h (a, b) (by simp), ih (by simpa using hl)]
      exact fun q hq => h q (by rw [List.zip_cons_cons]; exact List.mem_cons_of_mem _ hq)

/-- The value stored in a column for a row dict. -/
def cellImage (ext : Ext) (sx : SqlExt) (c : ColSpec) (row : RowDict) : Sql :=
  match Dict.get c.name row with
  | some v => image ext sx c v
  | none => .null

theorem valid_cell {t : TableSpec} (hn : (t.columns.map fun c => tr t.name (some c.name)).Nodup)
    {rows : List RowDict} (hv : RowsValid ext t rows) {row : RowDict} (hr : row ∈ rows) {c : ColSpec} (hc : c ∈ t.columns) :
    sqlCell tr t (rowImage ext sx tr t row) c.name = some (cellImage ext sx c row) := by
  obtain ⟨-, h2, h3, -⟩ := hv.keys row hr
  rw [sqlCell_image hn h3 h2 hc]
  unfold cellImage
  cases hg : Dict.get c.name row with
  | none => rfl
  | some v => simp only [(stored_valid (sx := sx) (hv.cells row hr c hc v hg)).2.1]

theorem cellImage_null {t : TableSpec}
    {rows : List RowDict} (hv : RowsValid ext t rows) {row : RowDict} (hr : row ∈ rows) {c : ColSpec} (hc : c ∈ t.columns)
    (h : cellImage ext sx c row = .null) : NullIn row c.name ∧ c.required = false := by
  unfold cellImage at h
  cases hg : Dict.get c.name row with
  | none =>
    refine ⟨.inl hg, ?_⟩
    cases hq : c.required with
    | false => rfl
    | true => exact absurd (hv.required row hr c hc hq) ((Dict.get_eq_none_iff _ _).1 hg)
  | some v =>
    rw [hg] at h
    obtain ⟨rfl, h2⟩ := (stored_valid (sx := sx) (hv.cells row hr c hc v hg)).2.2 h
    exact ⟨.inr hg, h2⟩

theorem cellImage_of_null {c : ColSpec} {row : RowDict} (h : NullIn row c.name) : cellImage ext sx c row = .null := by
  unfold cellImage
  rcases h with h | h
  · rw [h]
  · rw [h]
    simp only [image, stored_null]

/-- What is stored only depends on the datatype. -/
theorem image_base {c c' : ColSpec} (hs : c.separator = none) (hs' : c'.separator = none) (hb : c.base = c'.base) (v : CVal) :
    image ext sx c v = image ext sx c' v := by
  unfold image stored
  rw [hs, hs', hb]

/-- The rows of the database for a table. -/
def loadedTable (ext : Ext) (sx : SqlExt) (tr : Translator) (items : List (Str × List RowDict)) (t : TableSpec) : DbTable :=
  { name := tr t.name none, columns := sqlColumns tr t, rows := ((tableData items t).getD []).map (rowImage ext sx tr t) }

/-- The names of the columns differ. -/
theorem columns_exact {tables : List TableSpec} {items : List (Str × List RowDict)} (L : Loadable ext tr tables items) {t : TableSpec}
    (ht : t ∈ tables) : t.columns ≠ [] ∧ (t.columns.map fun c => tr t.name (some c.name)).Nodup ∧ ∀ c ∈ t.columns, ColumnFits c := by
  obtain ⟨h1, h2, h3⟩ := L.columns t ht
  refine ⟨h1, nodup_of_map (f := foldName) ?_, h3⟩
  rw [List.map_map]
  exact h2

theorem typeOf_eq {t : TableSpec} (hn : (t.columns.map fun c => tr t.name (some c.name)).Nodup) {c : ColSpec} (hc : c ∈ t.columns) :
    typeOf t c.name = c.dbType := by
  have hkeys : Dict.keys (sqlColumns tr t) = t.columns.map fun c => tr t.name (some c.name) := by
    simp [Dict.keys, sqlColumns, List.map_map, Function.comp_def]
  have huniq := columns_names_nodup (tr := tr) (t := t) (by rw [hkeys]; exact hn)
  unfold typeOf
  cases hf : t.columns.find? (fun c' => c'.name = c.name) with
  | none => exact absurd (List.find?_eq_none.1 hf c hc) (by simp)
  | some c' =>
    have h1 := List.find?_some hf
    have h2 := List.mem_of_find?_eq_some hf
    simp only [decide_eq_true_eq] at h1
    rw [huniq c' h2 c hc (by rw [h1])]
    rfl

theorem cellImage_affinity {t : TableSpec} {rows : List RowDict} (hv : RowsValid ext t rows) {row : RowDict} (hr : row ∈ rows) {c : ColSpec}
    (hc : c ∈ t.columns) : affinity sx c.dbType (cellImage ext sx c row) = cellImage ext sx c row := by
  unfold cellImage
  cases hg : Dict.get c.name row with
  | none => exact affinity_null _
  | some v => exact (stored_valid (hv.cells row hr c hc v hg)).2.1

theorem constraints_met {tables : List TableSpec} {items : List (Str × List RowDict)} (L : Loadable ext tr tables items)
    {before after : List TableSpec} {t : TableSpec} (ht : tables = before ++ t :: after) {rows earlier later : List RowDict} {row : RowDict}
    (hr : tableData items t = some rows) (he : rows = earlier ++ row :: later) {db : Database}
    (inv : ∀ p ∈ before, lookup (tr p.name none) db = some (loadedTable ext sx tr items p)) :
    ConstraintsMet sx cmp tr tables db t (earlier.map (rowImage ext sx tr t)) (rowImage ext sx tr t row) := by
  have htm : t ∈ tables := by rw [ht]; simp
  obtain ⟨-, hn, hf⟩ := columns_exact L htm
  have hv := L.rows t htm rows hr
  have hrow : row ∈ rows := by rw [he]; simp
  have cell : ∀ r ∈ rows, ∀ c ∈ t.columns, sqlCell tr t (rowImage ext sx tr t r) c.name = some (cellImage ext sx c r) :=
    fun r hr c hc => valid_cell hn hv hr hc
  refine ⟨?_, ?_, ?_, ?_⟩
  · intro c hc hq h
    rw [cell row hrow c hc] at h
    have := (cellImage_null hv hrow hc (Option.some.inj h)).2
    rw [hq] at this
    cases this
  · intro c hc v hg hvn cond hcond
    rw [cell row hrow c hc] at hg
    have hg := Option.some.inj hg
    unfold cellImage at hg
    cases hget : Dict.get c.name row with
    | none => rw [hget] at hg; exact absurd hg.symm hvn
    | some u =>
      rw [hget] at hg
      simp only at hg
      rcases hv.cells row hrow c hc u hget with ⟨rfl, -⟩ | ⟨hs, w, rfl, hw, hd⟩ | ⟨hs, -⟩
      · simp only [image, stored_null] at hg
        exact absurd hg.symm hvn
      · rw [← hg]
        exact check_valid (hf c hc) hs hw hd hcond
      · rw [check_unlimited fun d hd => ((hf c hc) d hd).resolve_right fun h => hs h.1] at hcond
        cases hcond
  · intro pk hpk hne
    obtain ⟨hnn, hpw⟩ := hv.primary pk hpk hne
    have hcols : ∀ k ∈ pk, ∃ c ∈ t.columns, c.name = k ∧ c.separator = none ∧ ExactBase c.base := by
      have := L.keys t htm
      rw [hpk] at this
      exact this
    have hval : ∀ r ∈ rows, ∀ k ∈ pk, ∀ c ∈ t.columns, c.name = k →
        ∃ w, Dict.get k r = some (.one w) ∧ ValueOf c.base w ∧ cellImage ext sx c r = image ext sx c (.one w) := by
      intro r hr' k hk c hc hck
      obtain ⟨w, hwn, hg⟩ := hnn r hr' k hk
      refine ⟨w, hg, ?_, ?_⟩
      · rcases hv.cells r hr' c hc (.one w) (by rw [hck]; exact hg) with ⟨h, -⟩ | ⟨-, w', h, hw', -⟩ | ⟨-, l, h, -⟩
        · cases h; exact absurd rfl hwn
        · cases h; exact hw'
        · cases h
      · unfold cellImage
        rw [hck, hg]
    refine ⟨?_, ?_⟩
    · intro r hr' _ heq
      obtain ⟨row', hrow', rfl⟩ := List.mem_map.1 hr'
      have hmem' : row' ∈ rows := by rw [he]; exact List.mem_append_left _ hrow'
      rw [he] at hpw
      obtain ⟨k, hk, hdiff⟩ := (List.pairwise_append.1 hpw).2.2 row' hrow' row (List.mem_cons_self ..)
      obtain ⟨c, hc, hck, hcs, hex⟩ := hcols k hk
      have := List.map_inj_left.1 heq k hk
      rw [← hck, cell row' hmem' c hc, cell row hrow c hc] at this
      obtain ⟨w', hg', hw', hi'⟩ := hval row' hmem' k hk c hc hck
      obtain ⟨w, hg, hw, hi⟩ := hval row hrow k hk c hc hck
      rw [hi, hi'] at this
      have := image_inj hcs hex hw' hw (Option.some.inj this)
      subst this
      exact hdiff (by rw [hg, hg'])
    · rintro k rfl ⟨c, hc, hck, hty⟩
      right
      obtain ⟨w, hg, hw, hi⟩ := hval row hrow k (List.mem_singleton.2 rfl) c hc hck
      have hkeys : Dict.keys (sqlColumns tr t) = t.columns.map fun c => tr t.name (some c.name) := by
        simp [Dict.keys, sqlColumns, List.map_map, Function.comp_def]
      have hsep : c.separator = none := by
        obtain ⟨c', hc', hck', hs', -⟩ := hcols k (List.mem_singleton.2 rfl)
        rw [columns_names_nodup (tr := tr) (t := t) (by rw [hkeys]; exact hn) c hc c' hc' (by rw [hck, hck'])]
        exact hs'
      have hb : c.base = .integer ∨ c.base = .boolean := by
        revert hty
        simp only [ColSpec.dbType, hsep]
        cases c.base <;> simp
      rw [← hck, cell row hrow c hc, hi]
      rcases hb with hb | hb
      · rw [hb] at hw
        cases w with
        | int i =>
          refine ⟨i, ?_⟩
          simp only [image, stored, asList, convert, hb, Db.bind]
          rw [if_pos hw.2]
        | _ => simp [ValueOf, TextBase, Base.kind] at hw
      · rw [hb] at hw
        cases w with
        | bool x =>
          refine ⟨if x then 1 else 0, ?_⟩
          simp only [image, stored, asList, convert, hb, Db.bind]
          cases x <;> simp
        | _ => simp [ValueOf, TextBase, Base.kind] at hw
  · intro fk hfk
    obtain ⟨p, hp, hpn, ⟨pk, hpk, hperm⟩, hlen, -, hdata⟩ := L.references before t after ht fk hfk
    obtain ⟨hbase, hdata⟩ := hdata rows hr
    have hpt : p ∈ tables := by
      rw [ht]
      rcases List.mem_append.1 hp with h | h
      · exact List.mem_append_left _ h
      · rw [List.mem_singleton.1 h]; simp
    refine ⟨p, hpt, hpn, ⟨pk, hpk, hperm⟩, ?_⟩
    rcases hdata earlier row later he with ⟨k, hk, hnull⟩ | ⟨row', hrow', hq⟩
    · left
      obtain ⟨c, hc, rfl, -⟩ := L.foreign t htm fk hfk k hk
      exact ⟨c.name, hk, by rw [cell row hrow c hc, cellImage_of_null hnull]⟩
    · right
      -- the table referenced and its rows
      have hsame : fk.2.1 = t.name → p = t := by
        intro hs
        have hnames := L.names
        rw [ht] at hnames hpt
        rcases List.mem_append.1 hp with h | h
        · exfalso
          rw [List.map_append, List.nodup_append] at hnames
          refine hnames.2.2 (foldName (tr p.name none)) (List.mem_map_of_mem (f := fun t : TableSpec => foldName (tr t.name none)) h) (foldName (tr t.name none)) (by simp) ?_
          rw [hpn, hs]
        · exact List.mem_singleton.1 h
      obtain ⟨-, hnp, hfp⟩ := columns_exact L hpt
      have hprow : ∃ prows, tableData items p = some prows ∧ row' ∈ prows := by
        by_cases hs : fk.2.1 = t.name
        · rw [if_pos hs] at hrow'
          refine ⟨rows, by rw [hsame hs]; exact hr, ?_⟩
          rw [he]
          rcases List.mem_append.1 hrow' with h | h
          · exact List.mem_append_left _ h
          · rw [List.mem_singleton.1 h]; simp
        · rw [if_neg hs] at hrow'
          cases hg : tableData items p with
          | none => rw [hg] at hrow'; simp at hrow'
          | some prows => rw [hg] at hrow'; exact ⟨prows, rfl, hrow'⟩
      obtain ⟨prows, hpg, hpr⟩ := hprow
      have hvp := L.rows p hpt prows hpg
      refine ⟨rowImage ext sx tr p row', ?_, ?_⟩
      · by_cases hs : fk.2.1 = t.name
        · rw [if_pos hs] at hrow' ⊢
          rw [hsame hs]
          rcases List.mem_append.1 hrow' with h | h
          · exact List.mem_append_left _ (List.mem_map_of_mem h)
          · rw [List.mem_singleton.1 h]; simp
        · rw [if_neg hs]
          have hpb : p ∈ before := by
            rcases List.mem_append.1 hp with h | h
            · exact h
            · exact absurd (by rw [← hpn, List.mem_singleton.1 h]) hs
          have hl := inv p hpb
          refine ⟨_, List.mem_of_find?_eq_some hl, rfl, ?_⟩
          unfold loadedTable
          rw [hpg]
          exact List.mem_map_of_mem hpr
      · refine ⟨hlen, ?_⟩
        intro q hqz
        have hq1 : q.1 ∈ fk.1 := (List.of_mem_zip hqz).1
        have hq2 : q.2 ∈ fk.2.2 := (List.of_mem_zip hqz).2
        obtain ⟨c, hc, hcn, hcs⟩ := L.foreign t htm fk hfk q.1 hq1
        obtain ⟨c', hc', hcn', hcs', -⟩ := L.keys p hpt q.2 (by rw [hpk]; exact hperm.mem_iff.2 hq2)
        have hb := hbase q hqz c hc c' hc' hcn hcn'
        have himg : cellImage ext sx c row = cellImage ext sx c' row' := by
          unfold cellImage
          rw [hcn, hcn', hq q hqz]
          cases Dict.get q.2 row' with
          | none => rfl
          | some v => simp only [image_base hcs hcs' hb]
        rw [← hcn, ← hcn', cell row hrow c hc, valid_cell hnp hvp hpr hc', typeOf_eq (tr := tr) hnp hc', Option.map_some, himg,
          cellImage_affinity hvp hpr hc']

theorem insertRows_valid {tables : List TableSpec} {items : List (Str × List RowDict)} (L : Loadable ext tr tables items)
    (hE : Enforces sx cmp tr tables)
    {before after : List TableSpec} {t : TableSpec} (ht : tables = before ++ t :: after) {rows : List RowDict}
    (hr : tableData items t = some rows) {db : Database}
    (inv : ∀ p ∈ before, lookup (tr p.name none) db = some (loadedTable ext sx tr items p)) {ks : List Str}
    (hks : ∀ row ∈ rows, Dict.keys row = ks) (earlier later : List RowDict) (he : rows = earlier ++ later) :
    insertRows sx db (ks.map fun k => tr t.name (some k)) (later.map fun row => row.map (itemImage ext sx t))
      { name := tr t.name none, columns := sqlColumns tr t, rows := earlier.map (rowImage ext sx tr t) } =
    .ok { name := tr t.name none, columns := sqlColumns tr t, rows := rows.map (rowImage ext sx tr t) } := by
  have htm : t ∈ tables := by rw [ht]; simp
  obtain ⟨-, hn, -⟩ := columns_exact L htm
  have hkeys : Dict.keys (sqlColumns tr t) = t.columns.map fun c => tr t.name (some c.name) := by
    simp [Dict.keys, sqlColumns, List.map_map, Function.comp_def]
  have huniq := columns_names_nodup (tr := tr) (t := t) (by rw [hkeys]; exact hn)
  induction later generalizing earlier with
  | nil =>
    rw [List.append_nil] at he
    rw [he]
    rfl
  | cons row later ih =>
    have hrow : row ∈ rows := by rw [he]; simp
    obtain ⟨h1, h2, h3, -⟩ := (L.rows t htm rows hr).keys row hrow
    rw [hks row hrow] at h1 h2 h3
    rw [List.map_cons]
    unfold insertRows insertRow
    rw [if_neg]
    · simp only
      have hnew : newRow sx (sqlColumns tr t) (ks.map fun k => tr t.name (some k)) (row.map (itemImage ext sx t)) =
          rowImage ext sx tr t row := by
        unfold rowImage
        rw [hks row hrow]
      rw [hnew, if_neg]
      · simp only
        have := ih (earlier ++ [row]) (by rw [he]; simp)
        rw [List.map_append] at this
        exact this
      · rw [hE db t htm]
        exact fun h => h (constraints_met L ht hr he inv)
    · simp only [not_or, Decidable.not_not, ne_eq]
      refine ⟨?_, by simpa using h1, ?_, ?_⟩
      · rw [List.length_map, List.length_map, ← hks row hrow]
        simp [Dict.keys]
      · rw [List.Nodup, List.pairwise_map]
        refine List.Pairwise.imp_of_mem ?_ h2
        intro a b ha hb hab heq
        obtain ⟨ca, hca, rfl⟩ := h3 a ha
        obtain ⟨cb, hcb, rfl⟩ := h3 b hb
        exact hab (by rw [huniq ca hca cb hcb heq])
      · rw [List.any_eq_true]
        rintro ⟨x, hx, hno⟩
        obtain ⟨k, hk, rfl⟩ := List.mem_map.1 hx
        obtain ⟨c, hc, rfl⟩ := h3 k hk
        have : Dict.has (tr t.name (some c.name)) (sqlColumns tr t) = true := by
          rw [Dict.has_iff_mem_keys, hkeys]
          exact List.mem_map.2 ⟨c, hc, rfl⟩
        rw [this] at hno
        cases hno

theorem get_own {t : TableSpec} {k : Str} (hk : k ∉ Dict.keys t.manyToMany) (row : RowDict) : Dict.get k (ownItems t row) = Dict.get k row := by
  induction row with
  | nil => rfl
  | cons p r ih =>
    obtain ⟨a, v⟩ := p
    unfold ownItems at ih ⊢
    rw [List.filter_cons]
    split
    · simp only [Dict.get]
      rw [ih]
    · next h =>
      have : a ≠ k := by
        rintro rfl
        exact hk (by simpa [Dict.has_iff_mem_keys] using h)
      simp only [Dict.get, if_neg this]
      exact ih

/-- A row of an association table: two keys, and the name of the column. -/
def LinkOk (tables : List TableSpec) (items : List (Str × List RowDict)) (ref : AssocSpec × List CVal) : Prop :=
  ∃ t ∈ tables, ∃ k, Dict.get k t.manyToMany = some ref.1 ∧ ∃ rows row, Dict.get t.name items = some rows ∧ row ∈ rows ∧
    ∃ w l w', Dict.get ref.1.apk row = some (.one w) ∧ (k, .many l) ∈ row ∧ w' ∈ l ∧ ref.2 = [.one w, .one w', .one (.str k)]

theorem pk_own {tables : List TableSpec} {items : List (Str × List RowDict)} (L : Loadable ext tr tables items) {t : TableSpec}
    (ht : t ∈ tables) {k : Str} (hk : k ∈ t.primaryKey.getD []) (row : RowDict) : Dict.get k (ownItems t row) = Dict.get k row := by
  obtain ⟨c, hc, rfl, -⟩ := L.keys t ht k hk
  exact get_own (L.apart t ht c hc) row

theorem writeTable_valid {tables : List TableSpec} {items : List (Str × List RowDict)} (L : Loadable ext tr tables items)
    (hE : Enforces sx cmp tr tables)
    {before after : List TableSpec} {t : TableSpec} (ht : tables = before ++ t :: after) {rows : List RowDict}
    (hr : Dict.get t.name items = some rows) {db : Database}
    (inv : ∀ p ∈ before, lookup (tr p.name none) db = some (loadedTable ext sx tr items p))
    (hl : lookup (tr t.name none) db = some (emptyTable tr t)) :
    ∃ db' refs, writeTable ext sx tr skip t rows db = .ok (db', refs) ∧ (∀ ref ∈ refs, LinkOk tables items ref) ∧
      lookup (tr t.name none) db' = some (loadedTable ext sx tr items t) ∧
      ∀ m, foldName m ≠ foldName (tr t.name none) → lookup m db' = lookup m db := by
  have htm : t ∈ tables := by rw [ht]; simp
  obtain ⟨-, hn, hf⟩ := columns_exact L htm
  have hdata : tableData items t = some (rows.map (ownItems t)) := by
    unfold tableData
    rw [hr]
    rfl
  have hv := L.rows t htm _ hdata
  have hown : ∀ {row}, row ∈ rows → ownItems t row ∈ rows.map (ownItems t) := fun h => List.mem_map_of_mem h
  have hstep : ∀ row ∈ rows, rowStep ext sx t skip row = .ok (rowState ext sx t row) := by
    intro row hrow
    obtain ⟨-, h2, h3, -⟩ := hv.keys _ (hown hrow)
    refine rowStep_valid h3 ?_ ?_ ?_
    · intro p hp c hc hcp
      refine (stored_valid (hv.cells _ (hown hrow) c hc p.2 ?_)).1
      rw [hcp]
      exact Dict.get_of_mem_nodup h2 hp
    · intro pk hpk k hk
      obtain ⟨w, -, hg⟩ := (hv.primary pk hpk (List.ne_nil_of_mem hk)).1 _ (hown hrow) k hk
      rw [pk_own L htm (by rw [hpk]; exact hk)] at hg
      exact ⟨_, hg⟩
    · intro p hp a ha
      obtain ⟨-, -, -, hpk, q, -, -, -, hrows⟩ := L.links t htm p.1 a ha
      obtain ⟨⟨w, hw, htr⟩, hcell⟩ := hrows rows hr row hrow
      refine ⟨?_, ?_⟩
      · intro pk hpk'
        unfold pkOf at hpk'
        rw [hpk] at hpk'
        simp only [hw] at hpk'
        cases hpk'
        exact htr
      · rcases hcell p.2 hp with h | ⟨l, h, -⟩
        · exact .inl h
        · exact .inr ⟨l, h⟩
  unfold writeTable
  rw [rowLoop_valid hstep]
  simp only
  generalize hks : ((rows.map (rowState ext sx t)).head?.map RowState.keys).getD [] = ks
  have hkeys : ∀ row ∈ rows.map (ownItems t), Dict.keys row = ks := by
    intro row hrow
    cases rows with
    | nil => simp at hrow
    | cons r0 rest =>
      simp only [List.map_cons, List.head?_cons, Option.map_some, Option.getD_some] at hks
      rw [← hks]
      exact (hv.keys (ownItems t r0) (List.mem_cons_self ..)).2.2.2 row hrow
  have hins := insertRows_valid L hE ht hdata inv hkeys [] (rows.map (ownItems t)) rfl
  have hvals : (rows.map (rowState ext sx t)).map RowState.values =
      (rows.map (ownItems t)).map fun row => row.map (itemImage ext sx t) := by
    rw [List.map_map, List.map_map]
    rfl
  obtain ⟨db', hdb⟩ := insertIn_exists (sx := sx) (all := db) hl hins
  unfold Db.insert
  rw [hvals, hdb]
  refine ⟨db', _, rfl, ?_, ?_, fun m hm => insertIn_other hdb hm⟩
  · intro ref href
    obtain ⟨st, hst, href⟩ := List.mem_flatMap.1 href
    obtain ⟨row, hrow, rfl⟩ := List.mem_map.1 hst
    obtain ⟨p, hp, href⟩ := List.mem_flatMap.1 href
    cases hm : Dict.get p.1 t.manyToMany with
    | none => rw [hm] at href; cases href
    | some a =>
      rw [hm] at href
      obtain ⟨-, -, -, hpk, q, -, -, -, hrows⟩ := L.links t htm p.1 a hm
      obtain ⟨⟨w, hw, htr⟩, hcell⟩ := hrows rows hr row hrow
      rcases hcell p.2 hp with h | ⟨l, h, -⟩
      · rw [h] at href; cases href
      · rw [h] at href
        obtain ⟨w', hw', rfl⟩ := List.mem_map.1 href
        refine ⟨t, htm, p.1, hm, rows, row, hr, hrow, w, l, w', hw, ?_, hw', ?_⟩
        · rw [← h]; exact hp
        · simp only [pkOf, hpk, hw]
  · obtain ⟨t', h1, h2⟩ := insertIn_same hdb hl
    have hins' : insertRows sx db (ks.map fun k => tr t.name (some k)) ((rows.map (ownItems t)).map fun row => row.map (itemImage ext sx t))
        (emptyTable tr t) = .ok (loadedTable ext sx tr items t) := by
      unfold loadedTable
      rw [hdata]
      exact hins
    rw [hins'] at h2
    cases h2
    exact h1

theorem writeTables_valid {tables : List TableSpec} {items : List (Str × List RowDict)} (L : Loadable ext tr tables items)
    (hE : Enforces sx cmp tr tables) (before after : List TableSpec) (ht : tables = before ++ after) {db : Database} {refs : Refs}
    (inv : ∀ p ∈ before, lookup (tr p.name none) db = some (loadedTable ext sx tr items p))
    (hrefs : ∀ ref ∈ refs, LinkOk tables items ref)
    (hl : ∀ t ∈ after, lookup (tr t.name none) db = some (emptyTable tr t)) :
    ∃ db' refs', writeTables ext sx tr skip items db refs after = .ok (db', refs') ∧ (∀ ref ∈ refs', LinkOk tables items ref) ∧
      ∀ p ∈ tables, lookup (tr p.name none) db' = some (loadedTable ext sx tr items p) := by
  induction after generalizing before db refs with
  | nil =>
    rw [List.append_nil] at ht
    exact ⟨db, refs, rfl, hrefs, by rw [ht]; exact inv⟩
  | cons t after ih =>
    have hnames := L.names
    rw [ht, List.map_append, List.map_cons, List.nodup_append, List.nodup_cons] at hnames
    obtain ⟨-, ⟨hna, -⟩, hnb⟩ := hnames
    unfold writeTables
    cases hr : Dict.get t.name items with
    | none =>
      simp only
      refine ih (before ++ [t]) (by rw [ht]; simp) ?_ hrefs (fun t' ht' => hl t' (List.mem_cons_of_mem _ ht'))
      intro p hp
      rcases List.mem_append.1 hp with hp | hp
      · exact inv p hp
      · rw [List.mem_singleton.1 hp, hl t (List.mem_cons_self ..)]
        simp [loadedTable, emptyTable, tableData, hr]
    | some rows =>
      obtain ⟨db1, refs1, h1, h0, h2, h3⟩ := writeTable_valid (skip := skip) L hE ht hr inv (hl t (List.mem_cons_self ..))
      simp only
      rw [h1]
      simp only
      refine ih (before ++ [t]) (by rw [ht]; simp) ?_ ?_ ?_
      · intro p hp
        rcases List.mem_append.1 hp with hp | hp
        · rw [h3 _ (hnb _ (List.mem_map_of_mem (f := fun t : TableSpec => foldName (tr t.name none)) hp) _ (List.mem_cons_self ..))]
          exact inv p hp
        · rw [List.mem_singleton.1 hp]
          exact h2
      · intro ref href
        rcases List.mem_append.1 href with h | h
        · exact hrefs ref h
        · exact h0 ref h
      · intro t' ht'
        rw [h3]
        · exact hl t' (List.mem_cons_of_mem _ ht')
        · intro heq
          exact hna (by rw [← heq]; exact List.mem_map_of_mem (f := fun t : TableSpec => foldName (tr t.name none)) ht')

/-- SQLite converts the text of an integer to this integer. -/
def ReadsIntegers (sx : SqlExt) : Prop := ∀ i : Int, sx.affinity .integer (.text (toString i).toList) = .int i

/-- A key, stored in a column of texts and compared with the column referenced, is the key. -/
theorem key_compare (hI : ReadsIntegers sx) {c : ColSpec} (hs : c.separator = none) (hb : ExactBase c.base) {w : Val} (hw : ValueOf c.base w) :
    ∃ q, bindCell (.one w) = .ok q ∧ affinity sx c.dbType (affinity sx .text q) = image ext sx c (.one w) := by
  obtain ⟨n, b, s, r, d⟩ := c
  simp only at hs hw hb
  subst hs
  cases w with
  | str x =>
    refine ⟨.text x, rfl, ?_⟩
    obtain ⟨h, -⟩ := hw
    cases b <;> first
      | (exfalso; revert h; simp [TextBase, Base.kind]; done)
      | simp [image, stored, asList, convert, plainText, toText, Base.kind, Db.bind, Except.map, affinity, ColSpec.dbType]
  | int i =>
    obtain ⟨hk, h1, h2⟩ := hw
    obtain rfl : b = .integer := by
      rcases hb with h | h | h | h
      · exfalso; simp [TextBase, hk] at h
      · exact h
      · subst h; simp [Base.kind] at hk
      · subst h; simp [Base.kind] at hk
    refine ⟨.int i, ?_, ?_⟩
    · simp only [bindCell, Db.bind]
      exact if_pos ⟨h1, h2⟩
    · have hm : image ext sx ⟨n, .integer, none, r, d⟩ (.one (.int i)) = .int i := by
        simp only [image, stored, asList, convert, Db.bind]
        rw [if_pos ⟨h1, h2⟩]
      rw [hm]
      exact hI i
  | bool x =>
    simp only [ValueOf] at hw
    subst hw
    refine ⟨.int (if x then 1 else 0), rfl, ?_⟩
    have hm : image ext sx ⟨n, .boolean, none, r, d⟩ (.one (.bool x)) = .int (if x then 1 else 0) := by
      simp only [image, stored, asList, convert, Db.bind]
      cases x <;> simp
    rw [hm]
    exact hI _
  | bytes x =>
    have : b = .hexBinary := by
      simp only [ValueOf] at hw
      cases b <;> first
        | rfl
        | (exfalso; revert hw; simp [Base.kind]; done)
        | (exfalso; revert hb; simp [ExactBase, TextBase, Base.kind]; done)
    subst this
    exact ⟨.blob x, rfl, rfl⟩
  | _ =>
    exfalso
    simp only [ValueOf] at hw <;>
    cases b <;> first
      | (revert hw; simp [Base.kind]; done)
      | (revert hb; simp [ExactBase, TextBase, Base.kind]; done)

theorem not_malformed {c : ColSpec} (hf : ColumnFits c) : (c.check.any ColSpec.Cond.malformed) = false := by
  rw [Bool.eq_false_iff]
  intro h
  obtain ⟨cond, hc, hm⟩ := List.any_eq_true.1 h
  unfold ColSpec.check at hc
  cases hcs : c.csvw with
  | none => rw [hcs] at hc; simp at hc
  | some d =>
    rw [hcs] at hc
    simp only at hc
    have hlen : ∀ {a b e : Option Int}, cond ∈ ColSpec.lenCond .lenEq a ++ ColSpec.lenCond .lenGe b ++ ColSpec.lenCond .lenLe e → False := by
      intro a b e hc
      rcases List.mem_append.1 hc with hc | hc
      · rcases List.mem_append.1 hc with hc | hc <;> obtain ⟨m, -, rfl⟩ := lenCond_mem hc <;> simp [ColSpec.Cond.malformed] at hm
      · obtain ⟨m, -, rfl⟩ := lenCond_mem hc
        simp [ColSpec.Cond.malformed] at hm
    rcases hf d hcs with ⟨h1, h2, -⟩ | ⟨-, -, ⟨hb, h1, h2, -⟩ | ⟨-, h1, h2⟩⟩
    · rw [if_neg (by simp [h1, h2])] at hc
      exact hlen hc
    · split at hc
      · rcases List.mem_append.1 hc with hc | hc
        · obtain ⟨b, hb', rfl⟩ := List.mem_map.1 hc
          obtain ⟨n, rfl⟩ := h1 b (by simpa using hb')
          cases hfn : c.func <;> rw [hfn] at hm <;> simp [ColSpec.Cond.malformed] at hm
        · obtain ⟨b, hb', rfl⟩ := List.mem_map.1 hc
          obtain ⟨n, rfl⟩ := h2 b (by simpa using hb')
          cases hfn : c.func <;> rw [hfn] at hm <;> simp [ColSpec.Cond.malformed] at hm
      · exact hlen hc
    · rw [if_neg (by simp [h1, h2])] at hc
      exact hlen hc

theorem plain_name {n : Str} (h : PlainName n) : oddName n = false := by
  unfold oddName
  rw [Bool.eq_false_iff]
  intro ho
  obtain ⟨c, hc, he⟩ := List.any_eq_true.1 ho
  simp only [Bool.or_eq_true, decide_eq_true_eq] at he
  rcases he with rfl | rfl
  · exact h.1 hc
  · exact h.2 hc

theorem plain_any {α : Type} {f : α → Str} {l : List α} (h : ∀ x ∈ l, PlainName (f x)) : (l.any fun x => oddName (f x)) = false := by
  rw [Bool.eq_false_iff]
  intro ho
  obtain ⟨c, hc, he⟩ := List.any_eq_true.1 ho
  rw [plain_name (h c hc)] at he
  cases he

theorem plain_table {t : TableSpec} (h : PlainTable tr t) (hk : ∀ k ∈ t.primaryKey.getD [], PlainName (tr t.name (some k)))
    (hf : ∀ fk ∈ t.foreignKeys, ∀ k ∈ fk.1, PlainName (tr t.name (some k))) : oddTable tr t = false := by
  unfold oddTable
  rw [plain_name h.name.1, plain_any h.columns, plain_any hk]
  simp only [Bool.false_or]
  rw [Bool.eq_false_iff]
  intro ho
  obtain ⟨fk, hfk, he⟩ := List.any_eq_true.1 ho
  rw [plain_any (hf fk hfk), plain_name (h.foreign fk hfk).2.2.1, plain_any (h.foreign fk hfk).2.2.2] at he
  cases he

theorem create_valid {tables : List TableSpec} {items : List (Str × List RowDict)} (L : Loadable ext tr tables items) :
    createAll tr [] tables = .ok (tables.map (emptyTable tr)) := by
  have hgood : ∀ t ∈ tables, badTable tr t = false := by
    intro t ht
    obtain ⟨h1, h2, h3⟩ := L.columns t ht
    unfold badTable
    simp only [Bool.or_eq_false_iff]
    refine ⟨⟨⟨⟨⟨⟨?_, ?_⟩, ?_⟩, ?_⟩, ?_⟩, ?_⟩, ?_⟩
    · simpa using h1
    · simpa using h2
    · rw [Bool.eq_false_iff]
      intro h
      obtain ⟨c, hc, hm⟩ := List.any_eq_true.1 h
      rw [not_malformed (h3 c hc)] at hm
      cases hm
    · rw [Bool.eq_false_iff]
      intro h
      obtain ⟨k, hk, hm⟩ := List.any_eq_true.1 h
      obtain ⟨c, hc, rfl, -⟩ := L.keys t ht k hk
      have : (t.columns.map fun c => foldName (tr t.name (some c.name))).contains (foldName (tr t.name (some c.name))) = true := by
        rw [List.contains_iff_mem]
        exact List.mem_map.2 ⟨c, hc, rfl⟩
      rw [this] at hm
      cases hm
    · rw [Bool.eq_false_iff]
      intro h
      obtain ⟨fk, hfk, hm⟩ := List.any_eq_true.1 h
      obtain ⟨k, hk, hm⟩ := List.any_eq_true.1 hm
      obtain ⟨c, hc, rfl, -⟩ := L.foreign t ht fk hfk k hk
      have : (t.columns.map fun c => foldName (tr t.name (some c.name))).contains (foldName (tr t.name (some c.name))) = true := by
        rw [List.contains_iff_mem]
        exact List.mem_map.2 ⟨c, hc, rfl⟩
      rw [this] at hm
      cases hm
    · rw [Bool.eq_false_iff]
      intro h
      exact (L.plain t ht).name.2 (List.isPrefixOf_iff_prefix.1 h)
    · rw [Bool.eq_false_iff]
      intro h
      obtain ⟨fk, hfk, hm⟩ := List.any_eq_true.1 h
      obtain ⟨h4, h5, -⟩ := (L.plain t ht).foreign fk hfk
      simp only [Bool.or_eq_true, List.isEmpty_iff, decide_eq_true_eq] at hm
      exact hm.elim h4 (fun hm => hm h5)
  have hplain : ∀ t ∈ tables, oddTable tr t = false := fun t ht =>
    plain_table (L.plain t ht)
      (fun k hk => by obtain ⟨c, hc, rfl, -⟩ := L.keys t ht k hk; exact (L.plain t ht).columns c hc)
      (fun fk hfk k hk => by obtain ⟨c, hc, rfl, -⟩ := L.foreign t ht fk hfk k hk; exact (L.plain t ht).columns c hc)
  have key : ∀ (ts : List TableSpec) (db0 : Database), ((db0.map fun u => foldName u.name) ++ ts.map fun t => foldName (tr t.name none)).Nodup →
      (∀ t ∈ ts, badTable tr t = false) → (∀ t ∈ ts, oddTable tr t = false) → createAll tr db0 ts = .ok (db0 ++ ts.map (emptyTable tr)) := by
    intro ts
    induction ts with
    | nil => intro db0 _ _ _; simp [createAll]
    | cons t r ih =>
      intro db0 hn hb ho
      unfold createAll create
      simp only
      rw [if_neg (by rw [ho t (List.mem_cons_self ..)]; simp), if_neg, if_neg (by rw [hb t (List.mem_cons_self ..)]; simp)]
      · simp only
        rw [ih _ (by simpa using hn) (fun t' ht' => hb t' (List.mem_cons_of_mem _ ht')) (fun t' ht' => ho t' (List.mem_cons_of_mem _ ht'))]
        simp [emptyTable, sqlColumns]
      · rw [List.any_eq_true]
        rintro ⟨u, hu, he⟩
        simp only [decide_eq_true_eq] at he
        rw [List.map_cons, List.nodup_append] at hn
        exact hn.2.2 (foldName u.name) (List.mem_map_of_mem (f := fun u : DbTable => foldName u.name) hu) (foldName (tr t.name none)) (List.mem_cons_self ..) he
  rw [key tables [] (by simpa using L.names) hgood hplain]
  rfl

/-- The rows of a table are in the database. -/
def Loaded (ext : Ext) (sx : SqlExt) (tr : Translator) (items : List (Str × List RowDict)) (db : Database) (p : TableSpec) : Prop :=
  ∃ d, lookup (tr p.name none) db = some d ∧ d.name = tr p.name none ∧ d.columns = sqlColumns tr p ∧
    ∀ row ∈ (tableData items p).getD [], rowImage ext sx tr p row ∈ d.rows

theorem same_table {tables : List TableSpec} {items : List (Str × List RowDict)} (L : Loadable ext tr tables items) {t t' : TableSpec}
    (ht : t ∈ tables) (ht' : t' ∈ tables) (he : foldName (tr t.name none) = foldName (tr t'.name none)) : t = t' := by
  have hn := L.names
  clear L
  induction tables with
  | nil => cases ht
  | cons a r ih =>
    rw [List.map_cons, List.nodup_cons] at hn
    rcases List.mem_cons.1 ht with rfl | h1 <;> rcases List.mem_cons.1 ht' with rfl | h2
    · rfl
    · exact absurd (List.mem_map.2 ⟨t', h2, he.symm⟩) hn.1
    · exact absurd (List.mem_map.2 ⟨t, h1, he⟩) hn.1
    · exact ih h1 h2 hn.2

/-- A key which is found in the table referenced. -/
theorem key_found {tables : List TableSpec} {items : List (Str × List RowDict)} (L : Loadable ext tr tables items) (hI : ReadsIntegers sx)
    {p : TableSpec} (hp : p ∈ tables) {k : Str} (hk : p.primaryKey = some [k]) {row : RowDict} (hr : row ∈ (tableData items p).getD [])
    {w : Val} (hw : Dict.get k row = some (.one w)) {db : Database} (hl : Loaded ext sx tr items db p) :
    ∃ q, bindCell (.one w) = .ok q ∧ ∃ r, RowsOf db (tr p.name none) r ∧
      sqlCell tr p r k = (some (affinity sx .text q)).map (affinity sx (typeOf p k)) := by
  obtain ⟨-, hn, -⟩ := columns_exact L hp
  obtain ⟨c, hc, hck, hs, hex⟩ := L.keys p hp k (by rw [hk]; simp)
  cases hd : tableData items p with
  | none => rw [hd] at hr; simp at hr
  | some rows =>
    rw [hd] at hr
    have hr : row ∈ rows := hr
    have hv := L.rows p hp rows hd
    obtain ⟨w0, hw0, hg0⟩ := (hv.primary [k] hk (by simp)).1 row hr k (by simp)
    rw [hw] at hg0
    cases hg0
    have hval : ValueOf c.base w := by
      rcases hv.cells row hr c hc (.one w) (by rw [hck]; exact hw) with ⟨h, -⟩ | ⟨-, w', h, hw', -⟩ | ⟨-, l, h, -⟩
      · cases h; exact absurd rfl hw0
      · cases h; exact hw'
      · cases h
    obtain ⟨q, h1, h2⟩ := key_compare (ext := ext) (sx := sx) hI hs hex hval
    refine ⟨q, h1, rowImage ext sx tr p row, ?_, ?_⟩
    · obtain ⟨d, hd1, hd2, -, hd4⟩ := hl
      exact ⟨d, List.mem_of_find?_eq_some hd1, hd2, hd4 row (by rw [hd]; exact hr)⟩
    · rw [← hck, valid_cell hn hv hr hc, typeOf_eq (tr := tr) hn hc, Option.map_some, h2]
      unfold cellImage
      rw [hck, hw]

theorem writeRefs_valid {tables : List TableSpec} {items : List (Str × List RowDict)} (L : Loadable ext tr tables items)
    (hE : Enforces sx cmp tr tables) (hI : ReadsIntegers sx) : ∀ (refs : Refs) (db : Database), (∀ ref ∈ refs, LinkOk tables items ref) →
      (∀ p ∈ tables, Loaded ext sx tr items db p) → ∃ db', writeRefs sx tr refs db = .ok db'
  | [], db, _, _ => ⟨db, rfl⟩
  | (a, vs) :: refs, db, hrefs, hdb => by
    obtain ⟨t, ht, k, hm, rows, row, hr, hrow, w, l, w', hw, hkl, hwl, hvs⟩ := hrefs _ (List.mem_cons_self ..)
    simp only at hm hw hvs
    obtain ⟨has, hnone, hat, hpk, p, hp, hpn, hppk, hrows⟩ := L.links t ht k a hm
    have hown : ownItems t row ∈ (tableData items t).getD [] := by
      unfold tableData
      rw [hr]
      exact List.mem_map_of_mem hrow
    obtain ⟨q, hq, r, hrt, hrc⟩ := key_found (tr := tr) L hI ht hpk hown (by rw [pk_own L ht (by rw [hpk]; simp)]; exact hw) (hdb t ht)
    obtain ⟨row', hrow', hg'⟩ : ∃ row' ∈ (tableData items p).getD [], Dict.get a.bpk row' = some (.one w') := by
      rcases (hrows rows hr row hrow).2 _ hkl with h | ⟨l', h, hall⟩
      · cases h
      · cases h; exact hall w' hwl
    obtain ⟨q', hq', r', hrt', hrc'⟩ := key_found (tr := tr) L hI hp hppk hrow' hg' (hdb p hp)
    obtain ⟨d, hd1, hd2, hd3, hd4⟩ := hdb _ has
    have hbind : bindAll vs = .ok [q, q', .text k] := by
      rw [hvs]
      simp only [bindAll, hq, hq']
      rfl
    -- the new row
    obtain ⟨-, hcn, -⟩ := columns_exact L has
    have hcn : [tr a.name (some a.acol), tr a.name (some a.bcol), tr a.name (some "context".toList)].Nodup := hcn
    simp only [List.nodup_cons, List.mem_cons, List.not_mem_nil, or_false, not_or, not_false_eq_true, List.nodup_nil, and_true] at hcn
    obtain ⟨⟨n1, n2⟩, n3⟩ := hcn
    have hcols : sqlColumns tr a.toSpec = [(tr a.name (some a.acol), .text), (tr a.name (some a.bcol), .text),
      (tr a.name (some "context".toList), .text)] := rfl
    have hnew : newRow sx (sqlColumns tr a.toSpec) [tr a.name (some a.acol), tr a.name (some a.bcol), tr a.name (some "context".toList)]
        [q, q', .text k] = [(tr a.name (some a.acol), affinity sx .text q), (tr a.name (some a.bcol), affinity sx .text q'),
          (tr a.name (some "context".toList), .text k)] := by
      rw [hcols]
      simp only [newRow, List.map_cons, List.map_nil, List.zip_cons_cons, Dict.get, if_true, if_neg n1, if_neg n2, if_neg n3,
        Option.getD_some]
      rfl
    have hca : sqlCell tr a.toSpec [(tr a.name (some a.acol), affinity sx .text q), (tr a.name (some a.bcol), affinity sx .text q'),
        (tr a.name (some "context".toList), .text k)] a.acol = some (affinity sx .text q) := by
      unfold sqlCell
      exact if_pos rfl
    have hcb : sqlCell tr a.toSpec [(tr a.name (some a.acol), affinity sx .text q), (tr a.name (some a.bcol), affinity sx .text q'),
        (tr a.name (some "context".toList), .text k)] a.bcol = some (affinity sx .text q') := by
      unfold sqlCell
      exact (if_neg n1).trans (if_pos rfl)
    have hmet : ConstraintsMet sx cmp tr tables db a.toSpec d.rows [(tr a.name (some a.acol), affinity sx .text q),
        (tr a.name (some a.bcol), affinity sx .text q'), (tr a.name (some "context".toList), .text k)] := by
      have hplain : ∀ c ∈ a.toSpec.columns, c.required = false ∧ c.check = [] := by
        intro c hc
        simp only [AssocSpec.toSpec, List.mem_cons, List.not_mem_nil, or_false] at hc
        rcases hc with rfl | rfl | rfl <;> exact ⟨rfl, rfl⟩
      refine ⟨?_, ?_, ?_, ?_⟩
      · intro c hc hreq
        rw [(hplain c hc).1] at hreq
        cases hreq
      · intro c hc v _ _ cond hcond
        rw [(hplain c hc).2] at hcond
        cases hcond
      · intro pk hpk'
        cases hpk'
      · intro fk hfk
        simp only [AssocSpec.toSpec, List.mem_cons, List.not_mem_nil, or_false] at hfk
        rcases hfk with rfl | rfl
        · refine ⟨t, ht, hat.symm, ⟨_, hpk, List.Perm.refl _⟩, .inr ⟨r, ?_, rfl, ?_⟩⟩
          · rw [if_neg]
            · exact hrt
            · intro he
              have : t = a.toSpec := same_table L ht has (by rw [← hat]; exact congrArg (fun n => foldName (tr n none)) he)
              rw [this] at hm
              cases hm
          · intro z hz
            simp only [List.zip_cons_cons, List.zip_nil_right, List.mem_singleton] at hz
            subst hz
            simp only
            rw [hca]
            exact hrc
        · refine ⟨p, hp, hpn, ⟨_, hppk, List.Perm.refl _⟩, .inr ⟨r', ?_, rfl, ?_⟩⟩
          · rw [if_neg]
            · exact hrt'
            · intro he
              have : p = a.toSpec := same_table L hp has (by rw [hpn]; exact congrArg (fun n => foldName (tr n none)) he)
              rw [this] at hppk
              cases hppk
          · intro z hz
            simp only [List.zip_cons_cons, List.zip_nil_right, List.mem_singleton] at hz
            subst hz
            simp only
            rw [hcb]
            exact hrc'
    have hins : insertRows sx db ((atKey a).2.map fun k => tr a.name (some k)) [[q, q', .text k]] d =
        .ok { d with rows := d.rows ++ [[(tr a.name (some a.acol), affinity sx .text q), (tr a.name (some a.bcol), affinity sx .text q'),
          (tr a.name (some "context".toList), .text k)]] } := by
      unfold insertRows insertRow
      have hk3 : ((atKey a).2.map fun k => tr a.name (some k)) =
        [tr a.name (some a.acol), tr a.name (some a.bcol), tr a.name (some "context".toList)] := rfl
      rw [hk3, if_neg]
      · simp only
        rw [hd3, hnew, if_neg]
        · rfl
        · rw [hd2, show tr a.toSpec.name none = tr a.toSpec.name none from rfl, hE db a.toSpec has]
          exact fun h => h hmet
      · simp only [not_or, Decidable.not_not, ne_eq, List.length_cons, List.length_nil, not_false_eq_true, true_and, reduceCtorEq]
        refine ⟨?_, ?_⟩
        · simp only [List.nodup_cons, List.mem_cons, List.not_mem_nil, or_false, not_or, not_false_eq_true, List.nodup_nil, and_true]
          exact ⟨⟨n1, n2⟩, n3⟩
        rw [hd3, hcols]
        simp [Dict.has]
    obtain ⟨db', hdb'⟩ := insertIn_exists (sx := sx) (all := db) hd1 hins
    have hdb1 : Db.insert sx (tr a.name none) ((atKey a).2.map fun k => tr a.name (some k)) [[q, q', .text k]] db = .ok db' := hdb'
    unfold writeRefs
    simp only [hbind, hdb1]
    refine writeRefs_valid L hE hI refs db' (fun ref h => hrefs ref (List.mem_cons_of_mem _ h)) ?_
    intro p' hp'
    by_cases he : foldName (tr p'.name none) = foldName (tr a.name none)
    · have : p' = a.toSpec := same_table L hp' has he
      subst this
      obtain ⟨t', h1, h2⟩ := insertIn_same hdb' hd1
      rw [hins] at h2
      cases h2
      refine ⟨_, h1, hd2, hd3, ?_⟩
      intro row hrow
      exact List.mem_append_left _ (hd4 row hrow)
    · obtain ⟨d', h1, h2⟩ := hdb p' hp'
      exact ⟨d', by rw [insertIn_other hdb' he]; exact h1, h2⟩

/-- **C72**: If the data is valid, it can be loaded into the database: with an engine which refuses exactly the rows which violate
constraints, no row is refused. Columns may be list-valued, and so may foreign keys. -/
theorem C72_load {tables : List TableSpec} {items : List (Str × List RowDict)} (L : Loadable ext tr tables items)
    (hE : Enforces sx cmp tr tables) (hI : ReadsIntegers sx) : ∃ db, write ext sx tr skip tables items = .ok db := by
  unfold write
  rw [create_valid L]
  simp only
  obtain ⟨db', refs, h, h1, h2⟩ := writeTables_valid (skip := skip) L hE [] tables rfl (by simp) (refs := []) (by simp)
    (fun t ht => lookup_created L.names ht)
  rw [h]
  simp only
  refine writeRefs_valid L hE hI refs db' h1 ?_
  intro p hp
  exact ⟨_, h2 p hp, rfl, rfl, fun row hrow => List.mem_map_of_mem hrow⟩

end

end Csvw.Props
