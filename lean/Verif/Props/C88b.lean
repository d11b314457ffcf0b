import Verif.Props.C88
import Verif.Props.C87b
/-!
# C88: an example
-/

namespace Csvw.Props
open Csvw Csvw.Py Csvw.Spec Csvw.Db Csvw.Table Csvw.Datatypes

/-- The rows of the two tables of `C85_valid_example`. -/
def sortedRows (t : Table) : List RowDict := if t.url = "a.csv".toList then sortedA else sortedB

section
variable (ext : Ext) (x : MExt)

theorem sorted_rowsOf {t : Table} (ht : t ∈ linkedFile.desc.group.tables) (log : Bool) : TableGroup.rowsOf (fileReader ext x sortedData t log) = sortedRows t := by
  have : linkedFile.desc.group.tables = [linkedA, linkedB] := rfl
  rw [this] at ht
  simp only [List.mem_cons, List.not_mem_nil, or_false] at ht
  rcases ht with rfl | rfl
  · unfold fileReader
    rw [show linkedA.url = "a.csv".toList from rfl, sortedA_iter]
    rfl
  · unfold fileReader
    rw [show linkedB.url = "b.csv".toList from rfl, sortedB_iter]
    rfl

theorem noBom {c : Char} {s : Str} {cells : List Str} {rest : List (List Str)} (h : c ≠ Spec.bom) : ¬ Spec.StartsWithBom (((c :: s) :: cells) :: rest) := by
  rintro ⟨s', cells', rest', h'⟩
  simp only [List.cons.injEq] at h'
  exact h h'.1.1.1

/-- The hypotheses of `C88_group` are met by the rows of two tables which reference each other. -/
theorem C88_example (v : CsvLib.CsvVer) (strict : Bool) :
    (∀ t ∈ linkedFile.desc.group.tables, Writable ext x v t (sortedRows t) ∧ (∃ text, t.write ext x v strict ((sortedRows t).map .dict) = .ok text) ∧
      KeysHold exactEq t (sortedRows t)) ∧
    (linkedFile.desc.group.tables.map Table.url).Nodup ∧ ReferencesHold exactEq sortedRows linkedFile.desc.group := by
  have hA : Writable ext x v linkedA sortedA := by
    refine ⟨?_, by decide +kernel, by decide +kernel, by decide +kernel, ⟨',', '"', ['\r', '\n'], ⟨rfl, rfl, ⟨_, rfl⟩, .inl rfl, by decide, by decide, by decide, by decide, .inr rfl⟩⟩,
      ⟨[[['x'], ['p'], "p q".toList], [['y'], ['q'], ['q']]], ?_, ?_, .inl rfl, ⟨rfl, rfl, rfl, by decide, by decide⟩, by unfold Storable; decide, noBom (by decide)⟩⟩
    · intro c hc
      have hc' : c ∈ linkedGroup.tables[0].like.schema.columns := hc
      simp only [linkedGroup, List.getElem_cons_zero, List.mem_cons, List.not_mem_nil, or_false] at hc'
      rcases hc' with rfl | rfl | rfl <;> exact ⟨rfl, _, _, rfl⟩
    · exact .cons (.cons ⟨⟨_, rfl, rfl⟩, rfl⟩ (.cons ⟨⟨_, rfl, rfl⟩, rfl⟩ (.cons ⟨⟨_, rfl, rfl⟩, rfl⟩ .nil)))
        (.cons (.cons ⟨⟨_, rfl, rfl⟩, rfl⟩ (.cons ⟨⟨_, rfl, rfl⟩, rfl⟩ (.cons ⟨⟨_, rfl, rfl⟩, rfl⟩ .nil))) .nil)
    · intro row _ p hp
      exact C88_quiet_plain (linkedA_ccols (List.mem_filter.1 (List.of_mem_zip hp).1).1).2.1 _
  have hB : Writable ext x v linkedB sortedB := by
    refine ⟨?_, by decide +kernel, by decide +kernel, by decide +kernel, ⟨',', '"', ['\r', '\n'], ⟨rfl, rfl, ⟨_, rfl⟩, .inl rfl, by decide, by decide, by decide, by decide, .inr rfl⟩⟩,
      ⟨[[['p']], [['q']]], ?_, ?_, .inl rfl, ⟨rfl, rfl, rfl, by decide, by decide⟩, by unfold Storable; decide, noBom (by decide)⟩⟩
    · intro c hc
      have hc' : c ∈ linkedGroup.tables[1].like.schema.columns := hc
      simp only [linkedGroup, List.getElem_cons_zero, List.getElem_cons_succ, List.mem_cons, List.not_mem_nil, or_false] at hc'
      rcases hc' with rfl
      exact ⟨rfl, _, _, rfl⟩
    · exact .cons (.cons ⟨⟨_, rfl, rfl⟩, rfl⟩ .nil) (.cons (.cons ⟨⟨_, rfl, rfl⟩, rfl⟩ .nil) .nil)
    · intro row _ p hp
      exact C88_quiet_plain (linkedB_ccols (List.mem_filter.1 (List.of_mem_zip hp).1).1).2.2.1 _
  have hwrite : ∀ t dicts, Writable ext x v t dicts → ∃ text, t.write ext x v strict (dicts.map .dict) = .ok text := by
    intro t dicts hw
    obtain ⟨dl, q, lt, hd⟩ := hw.dialect
    obtain ⟨rows, hcells, _, hq, hs, hc, hb⟩ := hw.cells
    obtain ⟨text, h, _⟩ := C37_same (ext := ext) (x := x) v strict false dl q lt (fun c hc => (hw.columns c hc).1) hw.distinct hw.some_column hcells hw.keys hd hq hs hc hb
    exact ⟨text, h⟩
  obtain ⟨ds', hv⟩ := sorted_valid ext x
  obtain ⟨r1, r2, r3, r4, r5⟩ := C57_references hv (.group rfl)
  refine ⟨?_, by decide +kernel, ?_⟩
  · intro t ht
    have hk : KeysHold exactEq t (sortedRows t) := by
      intro key hp
      have hne : key ≠ [] := by
        have h2 : t = linkedA ∨ t = linkedB := by
          have h2 : linkedFile.desc.group.tables = [linkedA, linkedB] := rfl
          rw [h2] at ht
          simpa using ht
        rcases h2 with rfl | rfl
        · have h : some ["id".toList] = some key := hp
          cases h
          simp
        · have h : some ["id".toList] = some key := hp
          cases h
          simp
      have h0 := ((C57_iff (.group rfl)).1 ⟨ds', hv⟩).2.1 t (.member rfl ht)
      obtain ⟨_, h2, h3⟩ := (C39_iff hp hne).1 h0.key
      have : validRows ext x t (sortedData t.url) = sortedRows t := sorted_rowsOf ext x ht true
      rw [this] at h2 h3
      exact ⟨h2, h3⟩
    have ht' : t = linkedA ∨ t = linkedB := by
      have h2 : linkedFile.desc.group.tables = [linkedA, linkedB] := rfl
      rw [h2] at ht
      simpa using ht
    rcases ht' with rfl | rfl
    · exact ⟨hA, hwrite _ _ hA, hk⟩
    · exact ⟨hB, hwrite _ _ hB, hk⟩
  · constructor
    · exact r1
    · intro t fk hfk
      obtain ⟨r, u, h1, h2, _, h4⟩ := (r2 t fk hfk).table
      rw [sorted_rowsOf ext x (tableNamed_mem h2).1] at h4
      exact ⟨r, u, h1, h2, h4⟩
    · intro t fk hfk
      have h := r2 t fk hfk
      refine ⟨h.columns.1, h.columns.2, ?_⟩
      have := h.keys
      rw [sorted_rowsOf ext x hfk.1] at this
      exact this
    · intro t fk hfk
      have := (r2 t fk hfk).hash
      rw [sorted_rowsOf ext x hfk.1] at this
      exact this
    · intro t ht fk hfk row hrow c hc hn
      refine r5 t ht fk hfk ⟨row, ?_, c, hc, hn⟩
      rw [sorted_rowsOf ext x ht]
      exact hrow
    · intro t fk hfk r u h1 h2 row hrow key hkey
      have := r3 t fk hfk r u h1 h2
      unfold Satisfied at this
      simp only at this
      rw [sorted_rowsOf ext x hfk.1, sorted_rowsOf ext x (tableNamed_mem h2).1] at this
      exact this row hrow key hkey
    · intro t fk hfk r u h1 h2
      have := r4 t fk hfk r u h1 h2
      simp only at this
      rw [sorted_rowsOf ext x (tableNamed_mem h2).1] at this
      exact this

end
end Csvw.Props

namespace Csvw.Props
open Csvw Csvw.Py Csvw.Spec Csvw.Table Csvw.Datatypes

/-! ## Deviations -/

/-- A table with one column without name, with the English title `a`. -/
def titledTable : Table :=
  { schema := { columns := [{ titles := some [(some "en".toList, [['a']])], number := 1 }] }, url := "t.csv".toList }

/-- **C88 does not hold** for columns which have a title in some language but no name: the header is written as `_col.1`, and the
rows are read back, but `is_valid` does not return `True`. -/
theorem C88_violated_titles (ext : Ext) (x : MExt) (eq : PyEq) (v : CsvLib.CsvVer) :
    ∃ text, titledTable.write ext x v true ([[("_col.1".toList, .one (.str ['5']))]].map .dict) = .ok text ∧
      (titledTable.iterdicts ext x true false text).err = none ∧
      (titledTable.iterdicts ext x true false text).rows.map Prod.snd = [[("_col.1".toList, .one (.str ['5']))]] ∧
      ∀ d : Dataset, d.desc = .inl titledTable → ¬ ∃ d', d.isValid ext x eq (fun _ => text) = .ok (true, d') := by
  have hc := C02_dialect_roundtrip v titledTable.getDialect ',' '"' ['\r', '\n'] [["_col.1".toList], [['5']]]
    ⟨rfl, rfl, ⟨_, rfl⟩, .inl rfl, by decide, by decide, by decide, by decide, .inr rfl⟩ rfl
    ⟨rfl, rfl, rfl, by decide, by decide⟩ (by unfold Storable; decide) (noBom (by decide))
  obtain ⟨cfg, text, h1, h2, h3⟩ := hc
  have hcells : All2 (RowRoundTrips ext x titledTable) [[("_col.1".toList, .one (.str ['5']))]] [[['5']]] := .cons (.cons ⟨⟨_, rfl, rfl⟩, rfl⟩ .nil) .nil
  obtain ⟨text', g1, g2, g3⟩ := C37_same (ext := ext) (x := x) (t := titledTable) (rows := [[['5']]]) v true false ',' '"' ['\r', '\n'] (by simp [titledTable]) (by decide) (by decide)
    hcells (by decide)
    ⟨rfl, rfl, ⟨_, rfl⟩, .inl rfl, by decide, by decide, by decide, by decide, .inr rfl⟩ (.inl rfl)
    ⟨rfl, rfl, rfl, by decide, by decide⟩ (by unfold Storable; decide) (noBom (by decide))
  have : text' = text := by
    have := write_eq (ext := ext) (x := x) (strict := true) (v := v) h1 hcells (by decide)
    rw [show fileRows titledTable [[['5']]] = [["_col.1".toList], [['5']]] from rfl, h2, g1] at this
    exact Except.ok.inj this
  subst this
  refine ⟨text', g1, g2, g3, ?_⟩
  intro d hd hv
  have := (((C57_iff (.single hd)).1 hv).2.1 titledTable (.single hd)).noWarning
  unfold Dsv.readFile at h3
  simp only [Prod.mk.injEq] at h3
  have hrows : DataRows titledTable text' (Dsv.collect cfg.dialect (Dsv.openText cfg text')).1 none := ⟨cfg, h1, rfl, h3.2⟩
  generalize (Dsv.collect cfg.dialect (Dsv.openText cfg text')).1 = evs at h3 hrows
  rw [iterdicts_eq hrows] at this
  cases evs with
  | nil => simp at h3
  | cons p r =>
    obtain ⟨n, header⟩ := p
    simp only [List.map_cons, List.cons.injEq] at h3
    obtain ⟨⟨rfl, _⟩, _⟩ := h3
    unfold iterEvents at this
    rw [if_pos (by rfl)] at this
    simp only [Bool.or_eq_false_iff] at this
    have h0 := this.1
    revert h0
    decide

end Csvw.Props
