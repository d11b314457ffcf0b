import Verif.Props.C87
import Verif.Props.C37
import Verif.Props.C40Sound
import Verif.Props.C57b
import Verif.Lemmas.Metadata
/-!
# C88: what the library writes, it reports as valid
-/

namespace Csvw.Props
open Csvw Csvw.Py Csvw.Spec Csvw.Table Csvw.Datatypes Csvw.TableGroup

/-! ## Specification -/

/-- The cell `s` is read in column `c` without warning. (See `C88_quiet`, `C88_quiet_plain` for common cases.) -/
def Quiet (ext : Ext) (c : CCol) (s : Str) : Prop := c.readWarns ext s = false

/-- The rows can be written to the data file of the table and are read back (as in C37): all columns have names, which are different, and are not virtual; the rows have these
columns; values are read as they are written, without warning; the dialect has a quote character, which is doubled or escaped (without changing the cells), and no row written would be skipped. -/
structure Writable (ext : Ext) (x : MExt) (v : CsvLib.CsvVer) (t : Table) (dicts : List RowDict) : Prop where
  columns : ∀ c ∈ t.schema.columns, c.virtual = false ∧ ∃ a n, c.name = some (a :: n)
  distinct : t.colnames.Nodup
  some_column : t.colnames ≠ []
  keys : ∀ d ∈ dicts, Dict.keys d = t.colnames
  dialect : ∃ dl q lt, QuoteDialect v t.getDialect dl q lt
  cells : ∃ rows, All2 (RowRoundTrips ext x t) dicts rows ∧ (∀ row ∈ rows, ∀ p ∈ t.dataCols.zip row, Quiet ext p.1 p.2) ∧
    EscapesKept v t.getDialect (fileRows t rows) ∧
    NoSkipping t.getDialect (fileRows t rows) ∧ Storable t.getDialect (fileRows t rows) ∧ ¬ Spec.StartsWithBom (fileRows t rows)

/-- The table reads the same from `text'` as from `text`. -/
def ReadsLike (ext : Ext) (x : MExt) (t : Table) (text text' : Str) : Prop :=
  ∀ strict log, t.iterdicts ext x strict log text' = t.iterdicts ext x strict log text

/-- The rows have primary keys, and these are different. -/
def KeysHold (eq : PyEq) (t : Table) (dicts : List RowDict) : Prop :=
  ∀ key, t.schema.primaryKey = some key → (∀ d ∈ dicts, HasKey key d) ∧ NoDuplicateKey eq key dicts

/-- All foreign keys of the group are well-formed, and satisfied by the rows of the tables; foreign keys are not null; and the keys referenced are unique. -/
structure ReferencesHold (eq : PyEq) (rows : Table → List RowDict) (g : TableGroup) : Prop where
  schema : g.validateSchema false = .ok ()
  table : ∀ t fk, IsForeignKey g t fk → ∃ r u, fk.resource = some r ∧ TableNamed g r u ∧ ∀ row ∈ rows u, HasKey fk.refColumns row
  columns : ∀ t fk, IsForeignKey g t fk → fk.columnReference ≠ [] ∧ fk.refColumns.length = fk.columnReference.length ∧
    ∀ row ∈ rows t, ∀ c ∈ fk.columnReference, c ∈ Dict.keys row
  hash : ∀ t fk, IsForeignKey g t fk → ∀ row ∈ rows t, ∀ key, Reference fk.columnReference row key → ∀ v ∈ key, hashable v = true
  notNull : ∀ t ∈ g.tables, ∀ fk ∈ t.schema.foreignKeys, ∀ row ∈ rows t, ∀ c ∈ fk.columnReference, ¬ IsNone (valueOf row c)
  satisfied : AllSatisfied eq rows g
  unique : AllUnique eq rows g

/-! ## Proof -/

section
variable {ext : Ext} {x : MExt} {t : Table}

/-- **C40** Without a log, the strict check succeeds, if all data can be read, and all foreign keys are satisfied and not null and reference unique keys. -/
theorem C40_strict_nolog {eq : PyEq} {read : Reader} {g : TableGroup} (herr : ∀ t ∈ g.tables, (read t false).err = none)
    (hn : ¬ ∃ t ∈ g.tables, ∃ fk ∈ t.schema.foreignKeys, NullInKey read t fk)
    (hch : ∀ t fk, IsForeignKey g t fk → Checkable read false g t fk) (hv : g.validateSchema false = .ok ())
    (hs : AllSatisfied eq (fun t => rowsOf (read t false)) g) (hu : AllUnique eq (fun t => rowsOf (read t false)) g) :
    g.checkReferentialIntegrity eq read false true = .ok true := by
  obtain ⟨ks, hks, _, _⟩ := foreignKeys_ok hch
  unfold checkReferentialIntegrity schemaOk
  simp only [if_true]
  rw [(nullChecks_eq (fun p hp => herr p.1 (mem_allPairs.1 hp).1)).2 (by
    rintro ⟨p, hp, hpn⟩
    exact hn ⟨p.1, (mem_allPairs.1 hp).1, p.2, (mem_allPairs.1 hp).2, hpn⟩)]
  simp only
  rw [hv, hks]
  simp only
  obtain ⟨d, b, h1, h2, h3⟩ := integrity_eq (eq := eq) (strict := true) hch hks true
  rw [h1, h2.2 hs, h3.2 fun _ => hu]
  rfl

theorem cellLoop_quiet {log : Bool} {hs : List HCol} {vs : List Str} {st st' : RowSt} (hd : CellsDescribed hs)
    (hq : ∀ p ∈ hs.zip vs, ∀ c, p.1.col = some c → c.readWarns ext p.2 = false)
    (h : cellLoop ext true log st hs vs = .ok st') (hw : st.warned = false) : st'.warned = false := by
  induction hs generalizing st vs with
  | nil => unfold cellLoop at h; cases h; exact hw
  | cons e hs ih =>
    cases vs with
    | nil => unfold cellLoop at h; cases h; exact hw
    | cons v vs =>
      unfold cellLoop at h
      cases hc : cellStep ext true log st e v with
      | error e => rw [hc] at h; simp at h
      | ok st1 =>
        rw [hc] at h
        refine ih (fun e he => hd e (by simp [he])) (fun p hp => hq p (by simp [hp])) h ?_
        obtain ⟨c, hcol⟩ := hd e (by simp)
        have hq1 := hq (e, v) (by simp) c hcol
        unfold cellStep at hc
        rw [hcol] at hc
        simp only [if_true] at hc
        cases hst : storeCell true log st c v (c.read ext v, false) with
        | error e => rw [hst] at hc; simp at hc
        | ok st2 =>
          rw [hst] at hc
          cases hc
          simp only at hq1
          simp only [hq1, Bool.or_false]
          unfold storeCell logOrRaise at hst
          split at hst
          · cases hst
            rename_i heq
            have := (Prod.mk.inj heq).2
            subst this
            simp [hw]
          · simp only [if_true] at hst
            split at hst
            · cases hst; exact hw
            · simp at hst
          · simp at hst

theorem rowStep_warned {log : Bool} {hs : List HCol} {row : List Str} (hd : CellsDescribed hs)
    (hq : ∀ p ∈ hs.zip row, ∀ c, p.1.col = some c → c.readWarns ext p.2 = false) {res : RowDict} {b w : Bool}
    (h : rowStep ext x t true log hs row = .ok (res, b, w)) : w = false := by
  unfold rowStep at h
  cases hc : cellLoop ext true log { required := requiredKeys hs } hs row with
  | error e => rw [hc] at h; simp at h
  | ok st =>
    rw [hc] at h
    simp only at h
    have hw := cellLoop_quiet hd hq hc rfl
    cases hr : checkRequired log st with
    | error e => rw [hr] at h; simp at h
    | ok st' =>
      rw [hr] at h
      simp only at h
      have hww : st'.warned = st.warned := by
        unfold checkRequired logOrRaise at hr
        split at hr
        · split at hr
          · cases hr; rfl
          · simp at hr
        · cases hr; rfl
      cases ha : addVirtual x (addMissing st'.res t.colnames) t.virtualCols with
      | error e => rw [ha] at h; simp at h
      | ok q =>
        rw [ha] at h
        simp only [Except.ok.injEq, Prod.mk.injEq] at h
        rw [← h.2.2, hww, hw]

theorem iterRows_warned {log : Bool} {err : Option PyErr} {hs : List HCol} (hne : hs ≠ []) (hd : CellsDescribed hs) {rows : List (Int × List Str)}
    (hq : ∀ r ∈ rows, ∀ p ∈ hs.zip r.2, ∀ c, p.1.col = some c → c.readWarns ext p.2 = false) :
    (iterRows ext x t true log err hs rows).warned = false := by
  induction rows with
  | nil => rfl
  | cons r rs ih =>
    obtain ⟨n, row⟩ := r
    unfold iterRows
    rw [rowCols_of_ne hne]
    cases hr : rowStep ext x t true log hs row with
    | error e => rfl
    | ok o =>
      obtain ⟨res, b, w⟩ := o
      simp only
      rw [rowStep_warned hd (hq (n, row) (by simp)) hr, ih fun r hr => hq r (by simp [hr])]
      rfl

theorem headerWarns_named (hc : ∀ c ∈ t.schema.columns, c.virtual = false ∧ ∃ a n, c.name = some (a :: n)) :
    headerWarns t t.colnames = false := by
  have hcol : t.colnames = t.schema.columns.map Column.header := by
    unfold colnames dataCols ccols
    rw [List.filter_map, List.map_map, List.filter_eq_self.2]
    · rfl
    · intro c h
      simp [(hc c h).1]
  unfold headerWarns
  rw [hcol, Bool.or_eq_false_iff]
  constructor
  · simp
  · rw [List.any_eq_false]
    rintro ⟨h, c⟩ hm
    have : h = c.header ∧ c ∈ t.schema.columns := by
      obtain ⟨i, hi, he⟩ := List.mem_iff_getElem.1 hm
      simp only [List.getElem_zip, List.getElem_map, Prod.mk.injEq] at he
      rw [← he.1, ← he.2]
      exact ⟨rfl, List.getElem_mem _⟩
    obtain ⟨rfl, hm'⟩ := this
    obtain ⟨-, a, n, hn⟩ := hc c hm'
    have hh : c.header = a :: n := by
      unfold Column.header
      rw [hn]
      rfl
    have h1 : nonEmpty c.name = some (a :: n) := by rw [hn]; rfl
    simp only [hh, hasTitle, h1, if_true]
    simp

theorem written_events {v : CsvLib.CsvVer} {dicts : List RowDict} (hw : Writable ext x v t dicts) {strict : Bool} {text : Str}
    (ht : t.write ext x v strict (dicts.map .dict) = .ok text) :
    ∃ evs, DataRows t text evs none ∧ HeaderInOrder t evs ∧
      (∀ log, (iterEvents ext x t true log evs none).err = none ∧ (iterEvents ext x t true log evs none).rows.map Prod.snd = dicts ∧
        (iterEvents ext x t true log evs none).warned = false) := by
  obtain ⟨dl, q, lt, hd⟩ := hw.dialect
  obtain ⟨rows, hcells, hquiet, hq, hs, hc, hb⟩ := hw.cells
  have hsame := fun log => C37_same (ext := ext) (x := x) v strict log dl q lt (fun c hc => (hw.columns c hc).1) hw.distinct hw.some_column hcells hw.keys hd hq hs hc hb
  have hk : strict = true → ∀ d ∈ dicts, ∀ k ∈ Dict.keys d, k ∈ t.colnames := fun _ d hd k hk => by rw [← hw.keys d hd]; exact hk
  obtain ⟨cfg, text', h1, h2, h3⟩ := dialect_roundtrip hd hq hs hc hb
  have : text' = text := by
    have := write_eq (v := v) h1 hcells hk
    rw [ht, h2] at this
    exact (Except.ok.inj this).symm
  subst this
  unfold Dsv.readFile at h3
  simp only [Prod.mk.injEq] at h3
  have hrows : DataRows t text' (Dsv.collect cfg.dialect (Dsv.openText cfg text')).1 none := ⟨cfg, h1, rfl, h3.2⟩
  generalize (Dsv.collect cfg.dialect (Dsv.openText cfg text')).1 = evs at h3 hrows
  have hbody : (∀ log, (iterEvents ext x t true log evs none).err = none ∧ (iterEvents ext x t true log evs none).rows.map Prod.snd = dicts) := by
    intro log
    obtain ⟨text2, g1, g2, g3⟩ := hsame log
    rw [ht] at g1
    cases g1
    rw [iterdicts_eq hrows] at g2 g3
    exact ⟨g2, g3⟩
  have hlast : VirtualLast t.schema.columns := ⟨t.schema.columns, [], by simp, fun c hc => (hw.columns c hc).1, by simp⟩
  have hm := matchCols_colnames hlast true
  have hne' := indexed_ne_nil hm hw.some_column
  have hdesc : CellsDescribed (indexed (t.dataCols.map fun c => (c.col.header, some c))) := by
    intro e he
    unfold indexed at he
    rw [List.mem_mapIdx] at he
    obtain ⟨i, hi, rfl⟩ := he
    simp
  have hbw : ∀ log body, (∀ r ∈ body, r.2 ∈ rows) → (iterBody ext x t true log t.colnames body none).warned = false := by
    intro log body hin
    unfold iterBody
    rw [hm]
    simp only
    split
    · rfl
    · refine iterRows_warned hne' hdesc ?_
      intro r hr p hp c hpc
      refine hquiet r.2 (hin r hr) (c, p.2) ?_
      obtain ⟨i, hi, he⟩ := List.mem_iff_getElem.1 hp
      rw [List.getElem_zip] at he
      subst he
      simp only at hpc ⊢
      unfold indexed at hpc
      rw [List.getElem_mapIdx] at hpc
      simp only [List.getElem_map, Option.some.injEq] at hpc
      subst hpc
      rw [List.mem_iff_getElem]
      simp only [List.length_zip, indexed, List.length_mapIdx, List.length_map] at hi
      exact ⟨i, by simpa using hi, by rw [List.getElem_zip]⟩
  refine ⟨evs, hrows, ?_, fun log => ⟨(hbody log).1, (hbody log).2, ?_⟩⟩
  · intro hh r hr
    have h4 := h3.1
    unfold fileRows at h4
    rw [if_pos hh] at h4
    cases evs with
    | nil => simp at hr
    | cons p r' =>
      simp only [List.head?_cons, Option.some.injEq] at hr
      subst hr
      simp only [List.map_cons, List.cons_append, List.nil_append, List.cons.injEq] at h4
      exact h4.1
  · have h4 := h3.1
    unfold fileRows at h4
    unfold iterEvents
    cases hh : t.getDialect.header with
    | false =>
      rw [hh] at h4
      simp only [Bool.false_eq_true, if_false, List.nil_append] at h4 ⊢
      exact hbw log evs fun r hr => by rw [← h4]; exact List.mem_map_of_mem hr
    | true =>
      rw [hh] at h4
      simp only [if_true] at h4 ⊢
      cases evs with
      | nil => rfl
      | cons p r' =>
        obtain ⟨n, header⟩ := p
        simp only [List.map_cons, List.cons_append, List.nil_append, List.cons.injEq] at h4
        obtain ⟨rfl, h4⟩ := h4
        simp only [Bool.not_true, Bool.false_and, Bool.false_or]
        exact hbw log r' fun r hr => by rw [← h4]; exact List.mem_map_of_mem hr

theorem written_strict {v : CsvLib.CsvVer} {dicts : List RowDict} (hw : Writable ext x v t dicts) {strict : Bool} {text : Str}
    (ht : t.write ext x v strict (dicts.map .dict) = .ok text) (log : Bool) :
    (t.iterdicts ext x true log text).err = none ∧ (t.iterdicts ext x true log text).rows.map Prod.snd = dicts ∧
    (t.iterdicts ext x true log text).warned = false := by
  obtain ⟨evs, h1, _, h3⟩ := written_events hw ht
  rw [iterdicts_eq h1]
  exact h3 log

theorem written_lax {v : CsvLib.CsvVer} {dicts : List RowDict} (hw : Writable ext x v t dicts) {strict : Bool} {text : Str}
    (ht : t.write ext x v strict (dicts.map .dict) = .ok text) :
    (t.iterdicts ext x false false text).err = none ∧ (t.iterdicts ext x false false text).rows.map Prod.snd = dicts ∧
    (t.iterdicts ext x false false text).warned = false := by
  obtain ⟨evs, h1, h2, h3⟩ := written_events hw ht
  obtain ⟨he, hr, hwn⟩ := h3 false
  rw [iterdicts_eq h1]
  unfold iterEvents at he hr hwn ⊢
  cases hd : t.getDialect.header with
  | false =>
    rw [hd] at he hr hwn
    simp only [Bool.false_eq_true, if_false] at he hr hwn ⊢
    rw [iterBody_lax he]
    exact ⟨he, hr, hwn⟩
  | true =>
    rw [hd] at he hr hwn
    simp only [if_true] at he hr hwn ⊢
    cases evs with
    | nil => exact ⟨he, hr, hwn⟩
    | cons p evs =>
      have := h2 hd p rfl
      obtain ⟨n, header⟩ := p
      simp only at this
      subst this
      simp only [Bool.not_true, Bool.false_and, Bool.false_or] at he hr hwn
      simp only [Bool.not_false, Bool.true_and, headerWarns_named hw.columns, Bool.false_or]
      rw [iterBody_lax he]
      exact ⟨he, hr, hwn⟩

theorem written_valid {eq : PyEq} {v : CsvLib.CsvVer} {dicts : List RowDict} (hw : Writable ext x v t dicts) {strict : Bool} {text : Str}
    (ht : t.write ext x v strict (dicts.map .dict) = .ok text) (hk : KeysHold eq t dicts) : TableValid ext x eq text t := by
  obtain ⟨h1, _, h3⟩ := written_lax hw ht
  obtain ⟨s1, s2, s3⟩ := written_strict hw ht true
  refine ⟨h1, h3, ?_, fun _ _ _ => s3⟩
  cases hp : t.schema.primaryKey with
  | none => exact C39_none (.inl hp)
  | some key =>
    cases key with
    | nil => exact C39_none (.inr hp)
    | cons k ks =>
      obtain ⟨k1, k2⟩ := hk _ hp
      rw [C39_iff hp (by simp)]
      unfold validRows
      rw [s2]
      exact ⟨s1, k1, k2⟩

end

section
variable {ext : Ext} {x : MExt} {eq : PyEq} {data : Str → Str} {d : Dataset}

/-- The check of referential integrity succeeds, and no warnings are issued when reading for it. -/
theorem integrity_holds {g : TableGroup} {rows : Table → List RowDict}
    (hread : ∀ t ∈ g.tables, ∀ log, (fileReader ext x data t log).err = none ∧ rowsOf (fileReader ext x data t log) = rows t ∧
      (fileReader ext x data t log).warned = false) (hr : ReferencesHold eq rows g) :
    g.checkReferentialIntegrity eq (fileReader ext x data) false true = .ok true ∧
      ∀ t ∈ Dataset.readTables g, (t.iterdicts ext x true false (data t.url)).warned = false := by
  have hch : ∀ t fk, IsForeignKey g t fk → Checkable (fileReader ext x data) false g t fk := by
    intro t fk hfk
    obtain ⟨r, u, h1, h2, h3⟩ := hr.table t fk hfk
    obtain ⟨c1, c2, c3⟩ := hr.columns t fk hfk
    have hmu := (tableNamed_mem h2).1
    have hmt : t ∈ g.tables := hfk.1
    refine ⟨⟨r, u, h1, h2, (hread u hmu false).1, ?_⟩, ⟨c1, c2⟩, (hread t hmt false).1, ?_, ?_⟩
    · rw [(hread u hmu false).2.1]; exact h3
    · rw [(hread t hmt false).2.1]; exact c3
    · rw [(hread t hmt false).2.1]; exact hr.hash t fk hfk
  refine ⟨?_, ?_⟩
  · refine C40_strict_nolog (fun t hm => (hread t hm false).1) ?_ hch hr.schema ?_ ?_
    · rintro ⟨t, hm, fk, hfk, row, hrow, c, hc, hn⟩
      rw [(hread t hm false).2.1] at hrow
      exact hr.notNull t hm fk hfk row hrow c hc hn
    · intro t fk hfk r u h1 h2 row hrow key hkey
      simp only at hrow ⊢
      rw [(hread t hfk.1 false).2.1] at hrow
      rw [(hread u (tableNamed_mem h2).1 false).2.1]
      exact hr.satisfied t fk hfk r u h1 h2 row hrow key hkey
    · intro t fk hfk r u h1 h2
      simp only
      rw [(hread u (tableNamed_mem h2).1 false).2.1]
      exact hr.unique t fk hfk r u h1 h2
  · intro t hm
    have : t ∈ g.tables := by
      unfold Dataset.readTables at hm
      rcases List.mem_append.1 hm with hm | hm
      · exact (List.mem_filter.1 hm).1
      · obtain ⟨ks, hk, hall, _⟩ := foreignKeys_ok hch
        rw [hk] at hm
        obtain ⟨k, hkm, rfl⟩ := List.mem_map.1 hm
        obtain ⟨p, _, hp⟩ := All2_mem_right hall k hkm
        unfold fkeyOf at hp
        split at hp
        · simp at hp
        · split at hp
          · simp at hp
          · rename_i st hst
            cases hp
            exact (tableNamed_mem (((tabledict_iff g _).1 st).1 hst)).1
    exact (hread t this false).2.2

/-- Validity only depends on what is read. -/
theorem TableValid.like {t : Table} {text text' : Str} (h : TableValid ext x eq text t) (hl : ReadsLike ext x t text text') : TableValid ext x eq text' t := by
  refine ⟨by rw [hl]; exact h.readable, by rw [hl]; exact h.noWarning, ?_, fun k h1 h2 => by rw [hl]; exact h.keyNoWarning k h1 h2⟩
  have : t.checkPrimaryKey ext x eq false text' = t.checkPrimaryKey ext x eq false text := by
    unfold checkPrimaryKey
    rw [hl]
  rw [this]
  exact h.key

/-- **C88** If the rows of all tables of a group, such that keys and references hold, were written by `Table.write`, and the data files are read like the text
written (for example because they contain this text), then `is_valid` returns `True` (if the description was loaded without warnings). -/
theorem C88_group_like {g : TableGroup} (hd : d.desc = .inr g) (hw : d.warned = false) {v : CsvLib.CsvVer} {strict : Bool} {rows : Table → List RowDict}
    (ht : ∀ t ∈ g.tables, Writable ext x v t (rows t) ∧
      (∃ text, t.write ext x v strict ((rows t).map .dict) = .ok text ∧ ReadsLike ext x t text (data t.url)) ∧ KeysHold eq t (rows t))
    (hr : ReferencesHold eq rows g) : ∃ d', d.isValid ext x eq data = .ok (true, d') := by
  rw [C57_iff (.group hd)]
  refine ⟨hw, ?_, integrity_holds (fun t hm log => ?_) hr⟩
  · rintro t (h | ⟨h, hm⟩)
    · rw [hd] at h; cases h
    · rw [hd] at h
      cases h
      obtain ⟨h1, ⟨text, h2, h4⟩, h3⟩ := ht t hm
      exact (written_valid h1 h2 h3).like h4
  · obtain ⟨h1, ⟨text, h2, h4⟩, -⟩ := ht t hm
    have := written_strict h1 h2 log
    rw [← h4] at this
    exact this

/-- **C88** If the rows of all tables of a group, such that keys and references hold, were written to the data files by `Table.write`, then `is_valid` returns `True`
(if the description was loaded without warnings). -/
theorem C88_group {g : TableGroup} (hd : d.desc = .inr g) (hw : d.warned = false) {v : CsvLib.CsvVer} {strict : Bool} {rows : Table → List RowDict}
    (ht : ∀ t ∈ g.tables, Writable ext x v t (rows t) ∧ t.write ext x v strict ((rows t).map .dict) = .ok (data t.url) ∧ KeysHold eq t (rows t))
    (hr : ReferencesHold eq rows g) : ∃ d', d.isValid ext x eq data = .ok (true, d') :=
  C88_group_like hd hw (fun t hm => ⟨(ht t hm).1, ⟨_, (ht t hm).2.1, fun _ _ => rfl⟩, (ht t hm).2.2⟩) hr

theorem integrity_noKeys {g : TableGroup} {read : Reader} (h : ∀ t ∈ g.tables, t.schema.foreignKeys = []) {log strict : Bool} :
    g.checkReferentialIntegrity eq read log strict = .ok true := by
  have h1 : (g.tables.flatMap fun t => t.schema.foreignKeys.map fun fk => (t, fk)) = [] := by
    rw [List.flatMap_eq_nil_iff]
    intro t ht
    rw [h t ht]
    rfl
  have h2 : g.fkPairs = [] := by
    unfold fkPairs
    rw [List.flatMap_eq_nil_iff]
    intro t ht
    rw [h t ht]
    rfl
  have h3 : g.foreignKeys = .ok [] := by unfold TableGroup.foreignKeys; rw [h2]; rfl
  have h4 : g.validateSchema false = .ok () := by
    unfold validateSchema
    rw [h3]
    rfl
  unfold checkReferentialIntegrity schemaOk
  rw [h1, h3, h4]
  cases strict <;> simp [nullChecks, groupBy, tableGroups]

/-- **C88** The same for a single table without foreign keys. -/
theorem C88_table {t : Table} (hd : d.desc = .inl t) (hw : d.warned = false) (hf : t.schema.foreignKeys = []) {v : CsvLib.CsvVer} {strict : Bool}
    {rows : List RowDict} (hr : Writable ext x v t rows) (ht : t.write ext x v strict (rows.map .dict) = .ok (data t.url)) (hk : KeysHold eq t rows) :
    ∃ d', d.isValid ext x eq data = .ok (true, d') := by
  rw [C57_iff (.single hd)]
  have hno : ∀ u ∈ [{ t with group := some ({}, none) }], u.schema.foreignKeys = [] := by
    intro u hu
    rw [List.mem_singleton] at hu
    subst hu
    exact hf
  refine ⟨hw, ?_, integrity_noKeys hno, ?_⟩
  · rintro u (h | ⟨h, hm⟩)
    · rw [hd] at h
      cases h
      exact written_valid hr ht hk
    · rw [hd] at h; cases h
  · intro u hu
    exfalso
    unfold Dataset.readTables at hu
    have h2 : fkPairs ⟨[{ t with group := some ({}, none) }]⟩ = [] := by
      unfold fkPairs
      rw [List.flatMap_eq_nil_iff]
      intro t ht
      rw [hno t ht]
      rfl
    have h3 : foreignKeys ⟨[{ t with group := some ({}, none) }]⟩ = .ok [] := by unfold TableGroup.foreignKeys; rw [h2]; rfl
    rw [h3] at hu
    simp [hf] at hu

/-! ## Cells which are read without warning -/

/-- Reading a cell of a column without datatype issues no warning. -/
theorem C88_quiet_plain {c : CCol} (h : c.datatype = none) (s : Str) : Quiet ext c s := by
  unfold Quiet CCol.readWarns
  rw [h]
  simp only
  split <;> rfl

theorem parseWarns_noformat {dt : Datatype} (hf : dt.format.truthy = false) {s : Str}
    (hs : dt.base.kind = .decimal ∨ dt.base.kind = .integer → special s = none) : dt.parseWarns ext s = false := by
  unfold Datatype.parseWarns
  rw [Bool.or_eq_false_iff]
  constructor
  · unfold derivedWarns
    split
    · rw [hf, Bool.false_and]
    · rw [hf, Bool.false_and]
    · rw [hf, Bool.false_and]
    · rw [hf, Bool.false_and]
    · rw [hf, Bool.false_and]
    · unfold orFmt
      rw [if_neg (by rw [hf]; simp)]
      rfl
    · rw [hf, Bool.false_and]
    · rfl
  · split
    · rename_i hk _
      unfold decWarns
      split
      · rw [hs (.inl hk)]
      · rfl
    · rename_i hk _
      unfold decWarns
      split
      · rw [hs (.inr hk)]
      · rfl
    · rfl

/-- Reading a cell issues no warning if the datatype of the column has no format and, for numbers, no value in the cell is written `INF`, `-INF` or `NaN`. -/
theorem C88_quiet {c : CCol} {dt : Datatype} (h : c.datatype = some dt) (hf : dt.format.truthy = false) {v : Str}
    (hs : dt.base.kind = .decimal ∨ dt.base.kind = .integer → ∀ s, CellItem c v s → s ≠ "INF".toList ∧ s ≠ "-INF".toList ∧ s ≠ "NaN".toList) :
    Quiet ext c v := by
  have hsp : ∀ s, CellItem c v s → dt.parseWarns ext s = false := by
    intro s hi
    refine parseWarns_noformat hf fun hk => ?_
    obtain ⟨h1, h2, h3⟩ := hs hk s hi
    unfold special
    rw [if_neg h1, if_neg h2, if_neg h3]
  have hitems : ∀ l : List (Option Str), (∀ s, some s ∈ l → CellItem c v s) → CCol.itemsWarn ext dt l = false := by
    intro l
    induction l with
    | nil => intro _; rfl
    | cons a r ih =>
      intro hl
      cases a with
      | none => exact ih fun s hs => hl s (by simp [hs])
      | some a =>
        unfold CCol.itemsWarn
        rw [hsp a (hl a (by simp)), Bool.false_or]
        cases dt.read ext a with
        | error e => rfl
        | ok w => exact ih fun s hs => hl s (by simp [hs])
  unfold Quiet CCol.readWarns
  simp only
  split
  · rfl
  · rw [h]
    cases hp : c.prepare (c.orDefault v) with
    | error e => rfl
    | ok r =>
      cases r with
      | none => rfl
      | one s =>
        refine hsp s ?_
        unfold CCol.prepare at hp
        split at hp
        · rename_i hsep
          split at hp
          · cases hp
          · rename_i hn
            cases hp
            exact ⟨hn, .inl ⟨hsep, rfl⟩⟩
        · split at hp
          · cases hp
          · split at hp <;> cases hp
        · split at hp
          · cases hp
          · split at hp <;> cases hp
      | many l =>
        refine hitems l ?_
        unfold CCol.prepare at hp
        split at hp
        · split at hp <;> cases hp
        · rename_i sep hsep
          split at hp
          · cases hp; simp
          · rename_i hne
            split at hp
            · cases hp
            · rename_i hn
              cases hp
              intro s hs
              obtain ⟨part, hpart, he⟩ := List.mem_map.1 hs
              unfold CCol.unNull at he
              split at he
              · cases he
              · rename_i hnull
                cases he
                exact ⟨hnull, .inr ⟨sep, hsep, hne, hn, part, hpart, rfl⟩⟩
        · split at hp
          · cases hp; simp
          · split at hp <;> cases hp

end
end Csvw.Props
