import Verif.Lemmas.Table
import Verif.Props.C31_C33
import Verif.Props.C34
/-!
# C35 and C38: reading tables
-/

namespace Csvw.Props
open Csvw.Spec Csvw.Table

section
variable {ext : Ext} {x : MExt} {t : Table}

/-! ## C35 -/

theorem mem_iterBody {strict log : Bool} {header : List Str} {rows : List (Int × List Str)} {err : Option PyErr}
    {n : Int} {d : RowDict} (h : (n, d) ∈ (iterBody ext x t strict log header rows err).rows) :
    ∃ hs row w, (n, row) ∈ rows ∧ rowStep ext x t strict log hs row = .ok (d, false, w) ∧
      ∃ l, matchCols t strict header = .ok l ∧ (indexed l ≠ [] → hs = indexed l) := by
  unfold iterBody at h
  split at h
  · simp at h
  · rename_i l hl
    split at h
    · simp at h
    · obtain ⟨hs, row, w, h1, h2, h3⟩ := mem_iterRows h
      exact ⟨hs, row, w, h1, h2, l, hl, h3⟩

theorem mem_iterEvents {strict log : Bool} {rows : List (Int × List Str)} {err : Option PyErr}
    {n : Int} {d : RowDict} (h : (n, d) ∈ (iterEvents ext x t strict log rows err).rows) :
    ∃ header rows', (n, d) ∈ (iterBody ext x t strict log header rows' err).rows := by
  unfold iterEvents at h
  split at h
  · split at h
    · simp at h
    · exact ⟨_, _, h⟩
  · exact ⟨_, _, h⟩

theorem mem_colnames {c : Column} (hc : c ∈ t.schema.columns) (hv : c.virtual = false) : c.header ∈ t.colnames := by
  unfold colnames dataCols ccols
  rw [List.mem_map]
  refine ⟨⟨c, t.parents⟩, ?_, rfl⟩
  rw [List.mem_filter]
  exact ⟨List.mem_map.2 ⟨c, hc, rfl⟩, by simp [hv]⟩

/-- **C35** Every dict which is yielded has a key for every non-virtual column: for all schemas and data, in strict and
non-strict mode, with and without log. -/
theorem C35_keys (strict log : Bool) (text : Str) {n : Int} {d : RowDict}
    (h : (n, d) ∈ (t.iterdicts ext x strict log text).rows) {c : Column} (hc : c ∈ t.schema.columns) (hv : c.virtual = false) :
    c.header ∈ Dict.keys d := by
  unfold Table.iterdicts at h
  split at h
  · simp at h
  · obtain ⟨header, rows', h'⟩ := mem_iterEvents h
    obtain ⟨hs, row, w, _, h2, _⟩ := mem_iterBody h'
    obtain ⟨st, st', _, _, _, h4, _, _⟩ := rowStep_ok h2
    rw [← Dict.has_iff_mem_keys]
    refine has_addVirtual h4 _ ?_
    rw [has_eq_isSome, get_addMissing, if_pos (mem_colnames hc hv)]
    cases Dict.get c.header st.res <;> rfl

theorem get_columndict {s : Schema} {k : Str} {c : Column} (h : Dict.get k s.columndict = some c) : c.header = k := by
  unfold Schema.columndict Dict.ofPairs at h
  rw [Dict.get_update] at h
  cases hg : Dict.get k ((s.columns.map fun c => (c.header, c)).reverse) with
  | none => rw [hg] at h; simp at h
  | some c' =>
    rw [hg] at h
    simp at h
    subst h
    have := Dict.get_mem hg
    simp only [List.mem_reverse, List.mem_map, Prod.mk.injEq] at this
    obtain ⟨c'', _, h1, h2⟩ := this
    rw [← h2]; exact h1

theorem columndict_isSome {s : Schema} {c : Column} (h : c ∈ s.columns) : (Dict.get c.header s.columndict).isSome := by
  rw [Dict.get_isSome_iff_mem_keys]
  unfold Schema.columndict
  rw [Dict.mem_keys_ofPairs]
  exact List.mem_map.2 ⟨(c.header, c), List.mem_map.2 ⟨c, h, rfl⟩, rfl⟩

theorem lookupCols_mem {header : List Str} {l : List (Str × Option CCol)} (h : lookupCols t header = .ok l)
    {p : Str × Option CCol} (hp : p ∈ l) :
    ∃ o, t.schema.getColumn p.1 = .ok o ∧ p.2 = o.map fun c => ⟨c, t.parents⟩ := by
  induction header generalizing l with
  | nil => cases h; simp at hp
  | cons a r ih =>
    unfold lookupCols at h
    split at h
    · simp at h
    · rename_i o ho
      split at h
      · simp at h
      · rename_i cs hcs
        cases h
        rcases List.mem_cons.1 hp with rfl | hp
        · exact ⟨o, ho, rfl⟩
        · exact ih hcs hp

theorem lookupCols_fst {header : List Str} {l : List (Str × Option CCol)} (h : lookupCols t header = .ok l) :
    l.map Prod.fst = header := by
  induction header generalizing l with
  | nil => cases h; rfl
  | cons a r ih =>
    unfold lookupCols at h
    split at h
    · simp at h
    · rename_i o ho
      split at h
      · simp at h
      · rename_i cs hcs
        cases h
        rw [List.map_cons, ih hcs]

theorem dataCols_of_virtualLast (hlast : VirtualLast t.schema.columns) : t.dataCols <+: t.ccols := by
  obtain ⟨data, virt, he, h1, h2⟩ := hlast
  unfold dataCols ccols
  rw [he, List.map_append, List.filter_append]
  rw [List.filter_eq_self.2 (by
    intro c hc; obtain ⟨d, hd, rfl⟩ := List.mem_map.1 hc; simp [h1 d hd])]
  rw [List.filter_eq_nil_iff.2 (by
    intro c hc; obtain ⟨d, hd, rfl⟩ := List.mem_map.1 hc; simp [h2 d hd])]
  rw [List.append_nil]
  exact List.prefix_append _ _

/-- If the header consists of the column names, the columns are matched with their own names. -/
theorem zip_colnames (hlast : VirtualLast t.schema.columns) :
    t.colnames.zip (t.ccols.map some) = t.dataCols.map fun c => (c.col.header, some c) := by
  obtain ⟨r, hr⟩ := dataCols_of_virtualLast hlast
  rw [← hr, List.map_append]
  unfold colnames
  generalize t.dataCols = l
  induction l with
  | nil => simp
  | cons a l ih => simpa using ih

theorem matchCols_colnames (hlast : VirtualLast t.schema.columns) (strict : Bool) :
    matchCols t strict t.colnames = .ok (t.dataCols.map fun c => (c.col.header, some c)) := by
  unfold matchCols
  rw [if_pos (.inl rfl), zip_colnames hlast]

/-- The cell with header `h` belongs to the column with header `k`: it is found by its name, title or property URL, or is not
described at all. -/
def BelongsTo (t : Table) (h k : Str) : Prop :=
  (∃ c, t.schema.getColumn h = .ok (some c) ∧ c.header = k) ∨ (t.schema.getColumn h = .ok none ∧ h = k)

theorem get_update_nil_none {ps : List (Str × CVal)} {k : Str} (h : ∀ p ∈ ps, p.1 ≠ k) :
    Dict.get k (Dict.update [] ps) = none := by
  rw [Dict.get_eq_none_iff]
  have : Dict.update [] ps = Dict.ofPairs ps := rfl
  rw [this, Dict.mem_keys_ofPairs]
  unfold Dict.keys
  rw [List.mem_map]
  rintro ⟨p, hp, rfl⟩
  exact h p hp rfl

theorem pairSteps_mem {log : Bool} {ps : List (HCol × Str)} {os : List (Option (Str × CVal))}
    (h : pairSteps ext log ps = .ok os) {q : Str × CVal} (hq : some q ∈ os) :
    ∃ p ∈ ps, pairStep ext log p = .ok (some q) := by
  induction ps generalizing os with
  | nil => cases h; simp at hq
  | cons p r ih =>
    unfold pairSteps at h
    split at h
    · simp at h
    · rename_i o ho
      split at h
      · simp at h
      · rename_i os' hos'
        cases h
        rcases List.mem_cons.1 hq with rfl | hq
        · exact ⟨p, List.mem_cons_self .., ho⟩
        · obtain ⟨p', hp', h'⟩ := ih hos' hq
          exact ⟨p', List.mem_cons_of_mem _ hp', h'⟩

theorem zip_indexed_mem {l : List (Str × Option CCol)} {row : List Str} {h : HCol} {v : Str}
    (hm : (h, v) ∈ (indexed l).zip row) : (h.key, v) ∈ (l.map Prod.fst).zip row ∧ (h.key, h.col) ∈ l := by
  rw [List.mem_iff_getElem] at hm
  obtain ⟨i, hi, he⟩ := hm
  rw [List.getElem_zip] at he
  simp only [Prod.mk.injEq] at he
  obtain ⟨h1, h2⟩ := he
  simp only [indexed, List.getElem_mapIdx] at h1
  have hlen : i < l.length := by simp [indexed] at hi; omega
  have hlen2 : i < row.length := by simp at hi; omega
  subst h1
  constructor
  · rw [List.mem_iff_getElem]
    refine ⟨i, by simp; omega, ?_⟩
    rw [List.getElem_zip]
    simp [h2]
  · exact List.getElem_mem hlen

/-- **C35** Columns not in the data have the value `None`: if no cell of the row has a header which belongs to column `c`
(because the header is missing or the row is too short), and no virtual column overwrites it. -/
theorem C35_none (log : Bool) {pre rows : List (Int × List Str)} {err : Option PyErr}
    (hlast : VirtualLast t.schema.columns)
    (hpre : pre.length = if t.getDialect.header then 1 else 0) (hne : headerOf t pre ≠ [])
    {n : Int} {d : RowDict} (h : (n, d) ∈ (iterEvents ext x t true log (pre ++ rows) err).rows)
    {c : Column} (hc : c ∈ t.schema.columns) (hv : c.virtual = false)
    (hvirt : ∀ v ∈ t.schema.columns, v.virtual = true → v.header ≠ c.header)
    (habs : ∀ row, (n, row) ∈ rows → ∀ p ∈ (headerOf t pre).zip row, ¬ BelongsTo t p.1 c.header) :
    Dict.get c.header d = some (.one .none) := by
  rw [iterEvents_pre hpre] at h
  obtain ⟨hs, row, w, hrow, h2, l, hl, hhs⟩ := mem_iterBody h
  have hhs := hhs (indexed_ne_nil hl hne)
  obtain ⟨st, st', h1, _, _, h4, _, _⟩ := rowStep_ok h2
  have hvk : ∀ p ∈ t.virtualCols, p.1 ≠ c.header := by
    intro p hp
    unfold virtualCols at hp
    obtain ⟨v, hv1, hv2⟩ := List.mem_filterMap.1 hp
    split at hv2
    · rename_i hcond
      simp only [Bool.and_eq_true, decide_eq_true_eq] at hcond
      simp only [Option.some.injEq] at hv2
      rw [← hv2]
      exact hvirt v hv1 hcond.1
    · simp at hv2
  rw [get_addVirtual h4 _ hvk, get_addMissing, if_pos (mem_colnames hc hv)]
  suffices hsuff : Dict.get c.header st.res = none by rw [hsuff]; rfl
  rw [cellLoop_strict] at h1
  cases hp : pairSteps ext log (hs.zip row) with
  | error e => rw [hp] at h1; simp [Except.map] at h1
  | ok os =>
    rw [hp] at h1
    simp only [Except.map, Except.ok.injEq] at h1
    rw [← h1]
    apply get_update_nil_none
    intro q hq
    obtain ⟨o, ho, rfl⟩ : ∃ o ∈ os, o = some q := by
      obtain ⟨o, ho, ho'⟩ := List.mem_filterMap.1 hq
      exact ⟨o, ho, ho'⟩
    obtain ⟨⟨hh, v⟩, hpair, hstep⟩ := pairSteps_mem hp ho
    rw [hhs] at hpair
    obtain ⟨hz, hm⟩ := zip_indexed_mem hpair
    have hfst : l.map Prod.fst = headerOf t pre := by
      unfold matchCols at hl
      split at hl
      · rename_i hcond
        have hcond : headerOf t pre = t.colnames := by simpa using hcond
        cases hl
        rw [List.map_fst_zip]
        rw [hcond, List.length_map]; exact colnames_length_le t
      · simp only [Bool.true_eq_false, false_and, if_false] at hl
        exact lookupCols_fst hl
    rw [hfst] at hz
    have hnot := habs row hrow _ hz
    intro hqk
    unfold matchCols at hl
    split at hl
    · rename_i hcond
      have hcond : headerOf t pre = t.colnames := by simpa using hcond
      rw [hcond, zip_colnames hlast] at hl
      cases hl
      obtain ⟨cc, hcc, he⟩ := List.mem_map.1 hm
      simp only [Prod.mk.injEq] at he
      obtain ⟨he1, he2⟩ := he
      have hkey : q.1 = hh.key := by
        unfold pairStep at hstep
        rw [← he2] at hstep
        simp only at hstep
        split at hstep
        · cases hstep; exact he1
        · split at hstep <;> simp at hstep
        · simp at hstep
      refine hnot (.inl ?_)
      have hcm : cc.col ∈ t.schema.columns := by
        unfold dataCols ccols at hcc
        obtain ⟨d', hd', rfl⟩ := List.mem_map.1 (List.mem_filter.1 hcc).1
        exact hd'
      have hsome := columndict_isSome hcm
      rw [he1] at hsome
      obtain ⟨c', hc'⟩ := Option.isSome_iff_exists.1 hsome
      refine ⟨c', ?_, ?_⟩
      · unfold Schema.getColumn; rw [hc']
      · rw [get_columndict hc', ← hkey, hqk]
    · simp only [Bool.true_eq_false, false_and, if_false] at hl
      obtain ⟨o, ho1, ho2⟩ := lookupCols_mem hl hm
      simp only at ho1 ho2
      unfold pairStep at hstep
      simp only at hstep
      cases o with
      | none =>
        rw [ho2] at hstep
        simp at hstep
        exact hnot (.inr ⟨ho1, by rw [← hqk, ← hstep]⟩)
      | some c' =>
        rw [ho2] at hstep
        simp only [Option.map_some] at hstep
        refine hnot (.inl ⟨c', ho1, ?_⟩)
        split at hstep
        · cases hstep; exact hqk
        · split at hstep <;> simp at hstep
        · simp at hstep

/-! ## C38 -/

/-- Reading the data file with only the row `r` (after the header row `pre`, if there is one). -/
def readOne (ext : Ext) (x : MExt) (t : Table) (log : Bool) (pre : List (Int × List Str)) (r : Int × List Str) : IterOut :=
  iterEvents ext x t true log (pre ++ [r]) none

/-- The header is accepted: there is no error with a data file with just the header row. -/
def HeaderOk (ext : Ext) (x : MExt) (t : Table) (pre : List (Int × List Str)) : Prop :=
  (iterEvents ext x t true true pre none).err = none

theorem headerOk_cols {pre : List (Int × List Str)} (hpre : pre.length = if t.getDialect.header then 1 else 0)
    (hh : HeaderOk ext x t pre) :
    ∃ l, matchCols t true (headerOf t pre) = .ok l ∧ missingCols t (indexed l) = false := by
  unfold HeaderOk at hh
  have := iterEvents_pre (ext := ext) (x := x) (log := true) (rows := []) (err := none) hpre
  rw [List.append_nil] at this
  rw [this] at hh
  unfold iterBody at hh
  split at hh
  · simp at hh
  · rename_i l hl
    split at hh
    · simp at hh
    · rename_i hm; exact ⟨l, hl, by simpa using hm⟩

theorem iterEvents_cols {log : Bool} {pre rows : List (Int × List Str)} {err : Option PyErr}
    (hpre : pre.length = if t.getDialect.header then 1 else 0) {l : List (Str × Option CCol)}
    (hl : matchCols t true (headerOf t pre) = .ok l) (hm : missingCols t (indexed l) = false) :
    iterEvents ext x t true log (pre ++ rows) err = iterRows ext x t true log err (indexed l) rows := by
  rw [iterEvents_pre hpre]
  unfold iterBody
  rw [hl]
  simp [hm]

theorem readOne_cols {log : Bool} {pre : List (Int × List Str)} {r : Int × List Str}
    (hpre : pre.length = if t.getDialect.header then 1 else 0) {l : List (Str × Option CCol)}
    (hl : matchCols t true (headerOf t pre) = .ok l) (hm : missingCols t (indexed l) = false) (hne : indexed l ≠ []) :
    readOne ext x t log pre r = match rowStep ext x t true log (indexed l) r.2 with
      | .error e => { err := some e }
      | .ok (d, bad, w) => { rows := if bad then [] else [(r.1, d)], warned := w } := by
  unfold readOne
  rw [iterEvents_cols hpre hl hm]
  obtain ⟨n, row⟩ := r
  unfold iterRows
  rw [rowCols_of_ne hne]
  cases rowStep ext x t true log (indexed l) row with
  | error e => rfl
  | ok o => obtain ⟨d, b, w⟩ := o; simp [iterRows]

/-- A single row: with a log it either raises, or yields what it yields without a log, or yields nothing and raises
`ValueError` without a log. -/
theorem C38_one {pre : List (Int × List Str)} (hpre : pre.length = if t.getDialect.header then 1 else 0)
    (hne : headerOf t pre ≠ []) (hh : HeaderOk ext x t pre) (r : Int × List Str) :
    ((readOne ext x t true pre r).err ≠ none ∧ (readOne ext x t false pre r).err ≠ none) ∨
    ((readOne ext x t true pre r).err = none ∧ (readOne ext x t false pre r).err = none ∧
      ∃ d, (readOne ext x t true pre r).rows = [(r.1, d)] ∧ (readOne ext x t false pre r).rows = [(r.1, d)]) ∨
    ((readOne ext x t true pre r).err = none ∧ (readOne ext x t true pre r).rows = [] ∧
      (readOne ext x t false pre r).err = some .valueError ∧ (readOne ext x t false pre r).rows = []) := by
  obtain ⟨l, hl, hm⟩ := headerOk_cols hpre hh
  have hne' := indexed_ne_nil hl hne
  rw [readOne_cols hpre hl hm hne', readOne_cols hpre hl hm hne']
  cases h1 : rowStep ext x t true true (indexed l) r.2 with
  | error e => obtain ⟨e', he'⟩ := rowStep_log_error h1; rw [he']; exact .inl (by simp)
  | ok o =>
    obtain ⟨d, b, w⟩ := o
    cases b with
    | false => rw [rowStep_log_good h1]; exact .inr (.inl (by simp))
    | true => rw [rowStep_log_bad h1]; exact .inr (.inr (by simp))

theorem single_readOne {pre : List (Int × List Str)} {r : Int × List Str}
    (hpre : pre.length = if t.getDialect.header then 1 else 0) {l : List (Str × Option CCol)}
    (hl : matchCols t true (headerOf t pre) = .ok l) (hm : missingCols t (indexed l) = false) (hne : indexed l ≠ []) :
    single ext x t (indexed l) r = (readOne ext x t false pre r).rows := by
  rw [readOne_cols hpre hl hm hne]
  unfold single
  cases h1 : rowStep ext x t true false (indexed l) r.2 with
  | error e => rfl
  | ok o => obtain ⟨d, b, w⟩ := o; have := rowStep_nolog_bad h1; subst this; rfl

/-- **C38** With a log, reading does not raise because of invalid rows, and yields exactly the rows which are read without
error in strict reading (without log), each with the same values, in order. The hypothesis says that no row raises an exception
other than those which are logged. -/
theorem C38_log {pre rows : List (Int × List Str)} {err : Option PyErr}
    (hpre : pre.length = if t.getDialect.header then 1 else 0) (hne : headerOf t pre ≠ []) (hh : HeaderOk ext x t pre)
    (hok : ∀ r ∈ rows, (readOne ext x t true pre r).err = none) :
    (iterEvents ext x t true true (pre ++ rows) err).err = err ∧
    (iterEvents ext x t true true (pre ++ rows) err).rows = rows.flatMap fun r => (readOne ext x t false pre r).rows := by
  obtain ⟨l, hl, hm⟩ := headerOk_cols hpre hh
  have hne' := indexed_ne_nil hl hne
  rw [iterEvents_cols hpre hl hm]
  have := iterRows_log (ext := ext) (x := x) (t := t) (err := err) hne' (rows := rows) (by
    intro r hr
    have := hok r hr
    rw [readOne_cols hpre hl hm hne'] at this
    cases h1 : rowStep ext x t true true (indexed l) r.2 with
    | error e => rw [h1] at this; simp at this
    | ok o => exact ⟨o, rfl⟩)
  refine ⟨this.2, this.1.trans ?_⟩
  congr 1
  funext r
  exact single_readOne hpre hl hm hne'

theorem iterRows_log_abort {hs : List HCol} (hne : hs ≠ []) {err : Option PyErr} {good : List (Int × List Str)} {r : Int × List Str}
    {rest : List (Int × List Str)} {e : PyErr} (hok : ∀ r ∈ good, ∃ o, rowStep ext x t true true hs r.2 = .ok o)
    (hr : rowStep ext x t true true hs r.2 = .error e) :
    (iterRows ext x t true true err hs (good ++ r :: rest)).rows = good.flatMap (single ext x t hs) ∧
    (iterRows ext x t true true err hs (good ++ r :: rest)).err = some e := by
  induction good with
  | nil =>
    obtain ⟨n, row⟩ := r
    simp only [List.nil_append]
    unfold iterRows
    rw [rowCols_of_ne hne]
    simp only at hr
    rw [hr]
    exact ⟨rfl, rfl⟩
  | cons p g ih =>
    obtain ⟨n, row⟩ := p
    obtain ⟨⟨d, b, w⟩, ho⟩ := hok _ (List.mem_cons_self ..)
    obtain ⟨ih1, ih2⟩ := ih fun r hr => hok r (List.mem_cons_of_mem _ hr)
    simp only [List.cons_append]
    unfold iterRows
    rw [rowCols_of_ne hne]
    simp only at ho
    rw [ho]
    simp only [ih1, ih2, List.flatMap_cons, and_true]
    cases b with
    | false => simp only [Bool.false_eq_true, if_false]; unfold single; simp only [rowStep_log_good ho]; rfl
    | true => simp only [if_true]; unfold single; simp only [rowStep_log_bad ho]; rfl

/-- **C38** With a log, a row with an exception which is not logged (any other than `ValueError`) ends the reading, with this exception, after
the valid rows before it. -/
theorem C38_log_abort {pre good rest : List (Int × List Str)} {r : Int × List Str} {e : PyErr} {err : Option PyErr}
    (hpre : pre.length = if t.getDialect.header then 1 else 0) (hne : headerOf t pre ≠ []) (hh : HeaderOk ext x t pre)
    (hok : ∀ r ∈ good, (readOne ext x t true pre r).err = none) (hr : (readOne ext x t true pre r).err = some e) :
    (iterEvents ext x t true true (pre ++ (good ++ r :: rest)) err).err = some e ∧
    (iterEvents ext x t true true (pre ++ (good ++ r :: rest)) err).rows = good.flatMap fun r => (readOne ext x t false pre r).rows := by
  obtain ⟨l, hl, hm⟩ := headerOk_cols hpre hh
  have hne' := indexed_ne_nil hl hne
  rw [iterEvents_cols hpre hl hm]
  have hre : rowStep ext x t true true (indexed l) r.2 = .error e := by
    rw [readOne_cols hpre hl hm hne'] at hr
    split at hr
    · next h => rw [h]; simpa using hr
    · simp at hr
  have := iterRows_log_abort (ext := ext) (x := x) (t := t) (err := err) (rest := rest) hne' (good := good) (by
    intro r hr
    have := hok r hr
    rw [readOne_cols hpre hl hm hne'] at this
    cases h1 : rowStep ext x t true true (indexed l) r.2 with
    | error e => rw [h1] at this; simp at this
    | ok o => exact ⟨o, rfl⟩) hre
  refine ⟨this.2, this.1.trans ?_⟩
  congr 1
  funext r
  exact single_readOne hpre hl hm hne'

/-- **C38** Without a log, reading yields the rows before the first invalid row, and then raises the exception of this row. -/
theorem C38_nolog {pre rows : List (Int × List Str)} {err : Option PyErr}
    (hpre : pre.length = if t.getDialect.header then 1 else 0) (hne : headerOf t pre ≠ []) (hh : HeaderOk ext x t pre) :
    ((∀ r ∈ rows, (readOne ext x t false pre r).err = none) ∧
      (iterEvents ext x t true false (pre ++ rows) err).rows = rows.flatMap (fun r => (readOne ext x t false pre r).rows) ∧
      (iterEvents ext x t true false (pre ++ rows) err).err = err) ∨
    ∃ good r rest e, rows = good ++ r :: rest ∧ (∀ r ∈ good, (readOne ext x t false pre r).err = none) ∧
      (readOne ext x t false pre r).err = some e ∧
      (iterEvents ext x t true false (pre ++ rows) err).rows = good.flatMap (fun r => (readOne ext x t false pre r).rows) ∧
      (iterEvents ext x t true false (pre ++ rows) err).err = some e := by
  obtain ⟨l, hl, hm⟩ := headerOk_cols hpre hh
  have hne' := indexed_ne_nil hl hne
  rw [iterEvents_cols hpre hl hm]
  have hsingle : single ext x t (indexed l) = fun r => (readOne ext x t false pre r).rows := by
    funext r; exact single_readOne hpre hl hm hne'
  have hok : ∀ r, (rowStep ext x t true false (indexed l) r.2).isOk = true → (readOne ext x t false pre r).err = none := by
    intro r hr
    rw [readOne_cols hpre hl hm hne']
    cases h1 : rowStep ext x t true false (indexed l) r.2 with
    | error e => rw [h1] at hr; simp [Except.isOk, Except.toBool] at hr
    | ok o => rfl
  rcases iterRows_nolog (ext := ext) (x := x) (t := t) (err := err) hne' (rows := rows) with
    ⟨h1, h2, h3⟩ | ⟨good, r, rest, e, h1, h2, h3, h4, h5⟩
  · left
    rw [hsingle] at h2
    exact ⟨fun r hr => hok r (h1 r hr), h2, h3⟩
  · right
    rw [hsingle] at h4
    refine ⟨good, r, rest, e, h1, fun r hr => hok r (h2 r hr), ?_, h4, h5⟩
    rw [readOne_cols hpre hl hm hne', h3]

/-! ### Which rows are valid -/

/-- The column descriptions of the cells: by position if the header consists of the column names, else by name, title or
property URL. -/
def CellColumns (t : Table) (pre : List (Int × List Str)) (l : List (Str × Option CCol)) : Prop :=
  matchCols t true (headerOf t pre) = .ok l

theorem requiredKeys_all_seen {hs : List HCol} {row : List Str} (hlen : hs.length ≤ row.length) :
    (requiredKeys hs).filter (fun k => !seen (hs.zip row) k) = [] := by
  rw [List.filter_eq_nil_iff]
  intro k hk
  unfold requiredKeys at hk
  obtain ⟨h, hh, rfl⟩ := List.mem_map.1 hk
  obtain ⟨hmem, hreq⟩ := List.mem_filter.1 hh
  simp only [Bool.not_eq_true, Bool.not_eq_false]
  unfold seen
  obtain ⟨i, hi, he⟩ := List.mem_iff_getElem.1 hmem
  have : (h, row[i]) ∈ hs.zip row := by
    rw [List.mem_iff_getElem]
    exact ⟨i, by simp; omega, by simp [he]⟩
  have hs : ((hs.zip row).any fun p => p.1.col.isSome && decide (p.1.key = h.key)) = true := by
    rw [List.any_eq_true]
    refine ⟨_, this, ?_⟩
    cases hc : h.col with
    | none => rw [hc] at hreq; simp at hreq
    | some c => simp [hc]
  rw [hs]; rfl

theorem pairSteps_isOk {ps : List (HCol × Str)} {log : Bool} :
    (∃ os, pairSteps ext log ps = .ok os) ↔ ∀ p ∈ ps, ∃ o, pairStep ext log p = .ok o := by
  induction ps with
  | nil => simp [pairSteps]
  | cons p r ih =>
    unfold pairSteps
    constructor
    · rintro ⟨os, h⟩
      cases hp : pairStep ext log p with
      | error e => rw [hp] at h; simp at h
      | ok o =>
        rw [hp] at h
        cases hr : pairSteps ext log r with
        | error e => rw [hr] at h; simp at h
        | ok os' =>
          intro q hq
          rcases List.mem_cons.1 hq with rfl | hq
          · exact ⟨o, hp⟩
          · exact (ih.1 ⟨os', hr⟩) q hq
    · intro h
      obtain ⟨o, ho⟩ := h p (List.mem_cons_self ..)
      obtain ⟨os, hos⟩ := ih.2 fun q hq => h q (List.mem_cons_of_mem _ hq)
      rw [ho, hos]
      exact ⟨_, rfl⟩

theorem indexed_zip_mem {l : List (Str × Option CCol)} {row : List Str} {q : Str × Option CCol} {v : Str}
    (hm : (q, v) ∈ l.zip row) : ∃ j, (⟨j, q.1, q.2⟩, v) ∈ (indexed l).zip row := by
  obtain ⟨i, hi, he⟩ := List.mem_iff_getElem.1 hm
  rw [List.getElem_zip] at he
  simp only [Prod.mk.injEq] at he
  refine ⟨i, ?_⟩
  rw [List.mem_iff_getElem]
  simp only [List.length_zip] at hi
  refine ⟨i, by simp [indexed]; omega, ?_⟩
  rw [List.getElem_zip]
  simp [indexed, he.1, he.2]

theorem zip_indexed_mem' {l : List (Str × Option CCol)} {row : List Str} {h : HCol} {v : Str}
    (hm : (h, v) ∈ (indexed l).zip row) : ((h.key, h.col), v) ∈ l.zip row := by
  obtain ⟨i, hi, he⟩ := List.mem_iff_getElem.1 hm
  rw [List.getElem_zip] at he
  simp only [Prod.mk.injEq] at he
  obtain ⟨h1, h2⟩ := he
  simp only [indexed, List.getElem_mapIdx] at h1
  simp only [List.length_zip, indexed, List.length_mapIdx] at hi
  subst h1
  rw [List.mem_iff_getElem]
  exact ⟨i, by simp; omega, by simp [h2]⟩

/-- A row with a cell for every header cell, when virtual columns cause no exceptions: what reading it does is determined by the
cells. -/
theorem rowStep_full {log : Bool} {l : List (Str × Option CCol)} {row : List Str} (hlen : l.length ≤ row.length)
    (hvirt : ∀ res, ∃ d, addVirtual x res t.virtualCols = .ok d) :
    (∃ o, rowStep ext x t true log (indexed l) row = .ok o) ↔ ∃ os, pairSteps ext log ((indexed l).zip row) = .ok os := by
  unfold rowStep
  rw [cellLoop_strict]
  constructor
  · rintro ⟨o, h⟩
    cases hp : pairSteps ext log ((indexed l).zip row) with
    | error e => rw [hp] at h; simp [Except.map] at h
    | ok os => exact ⟨os, rfl⟩
  · rintro ⟨os, hp⟩
    rw [hp]
    simp only [Except.map]
    rw [requiredKeys_all_seen (by rw [indexed_length]; exact hlen)]
    simp only [checkRequired, List.any_nil, Bool.false_eq_true, if_false]
    obtain ⟨d, hd⟩ := hvirt (addMissing (Dict.update [] (os.filterMap id)) t.colnames)
    rw [hd]
    exact ⟨_, rfl⟩

/-- **C38** A row (with a cell for every header cell) is read without error, and thus yielded with or without log, exactly if
every cell with a column description is read without error. -/
theorem C38_valid_iff {pre : List (Int × List Str)} (hpre : pre.length = if t.getDialect.header then 1 else 0)
    (hne : headerOf t pre ≠ []) (hh : HeaderOk ext x t pre) {l : List (Str × Option CCol)} (hl : CellColumns t pre l)
    (hvirt : ∀ res, ∃ d, addVirtual x res t.virtualCols = .ok d) (r : Int × List Str) (hlen : l.length ≤ r.2.length) :
    (readOne ext x t false pre r).err = none ↔
      ∀ q v, (q, v) ∈ l.zip r.2 → ∀ c, q.2 = some c → ∃ w, c.read ext v = .ok w := by
  obtain ⟨l', hl', hm⟩ := headerOk_cols hpre hh
  have : l' = l := by unfold CellColumns at hl; rw [hl] at hl'; exact (Except.ok.inj hl').symm
  subst this
  have hne' := indexed_ne_nil hl hne
  have h1 : (readOne ext x t false pre r).err = none ↔ ∃ o, rowStep ext x t true false (indexed l') r.2 = .ok o := by
    rw [readOne_cols hpre hl hm hne']
    cases rowStep ext x t true false (indexed l') r.2 with
    | error e => simp
    | ok o => simp
  rw [h1, rowStep_full hlen hvirt, pairSteps_isOk]
  constructor
  · intro h q v hq c hc
    obtain ⟨j, hj⟩ := indexed_zip_mem hq
    obtain ⟨o, ho⟩ := h _ hj
    unfold pairStep at ho
    simp only [hc] at ho
    cases hr : c.read ext v with
    | ok w => exact ⟨w, rfl⟩
    | error e => rw [hr] at ho; cases e <;> simp at ho
  · rintro h ⟨hcol, v⟩ hp
    have := zip_indexed_mem' hp
    unfold pairStep
    cases hc : hcol.col with
    | none => exact ⟨_, rfl⟩
    | some c =>
      obtain ⟨w, hw⟩ := h _ _ this c hc
      simp only [hw]; exact ⟨_, rfl⟩

/-- **C38** A row (with a cell for every header cell) does not raise with a log, if all errors of its cells are `ValueError`s. -/
theorem C38_no_raise {pre : List (Int × List Str)} (hpre : pre.length = if t.getDialect.header then 1 else 0)
    (hne : headerOf t pre ≠ []) (hh : HeaderOk ext x t pre) {l : List (Str × Option CCol)} (hl : CellColumns t pre l)
    (hvirt : ∀ res, ∃ d, addVirtual x res t.virtualCols = .ok d) (r : Int × List Str) (hlen : l.length ≤ r.2.length) :
    (readOne ext x t true pre r).err = none ↔
      ∀ q v, (q, v) ∈ l.zip r.2 → ∀ c, q.2 = some c → ∀ e, c.read ext v = .error e → e = .valueError := by
  obtain ⟨l', hl', hm⟩ := headerOk_cols hpre hh
  have : l' = l := by unfold CellColumns at hl; rw [hl] at hl'; exact (Except.ok.inj hl').symm
  subst this
  have hne' := indexed_ne_nil hl hne
  have h1 : (readOne ext x t true pre r).err = none ↔ ∃ o, rowStep ext x t true true (indexed l') r.2 = .ok o := by
    rw [readOne_cols hpre hl hm hne']
    cases rowStep ext x t true true (indexed l') r.2 with
    | error e => simp
    | ok o => simp
  rw [h1, rowStep_full hlen hvirt, pairSteps_isOk]
  constructor
  · intro h q v hq c hc e he
    obtain ⟨j, hj⟩ := indexed_zip_mem hq
    obtain ⟨o, ho⟩ := h _ hj
    unfold pairStep at ho
    simp only [hc, he] at ho
    cases e <;> simp at ho ⊢
  · rintro h ⟨hcol, v⟩ hp
    have := zip_indexed_mem' hp
    unfold pairStep
    cases hc : hcol.col with
    | none => exact ⟨_, rfl⟩
    | some c =>
      have hh := h _ _ this c hc
      simp only
      cases hr : c.read ext v with
      | ok w => exact ⟨_, rfl⟩
      | error e => have := hh e hr; subst this; exact ⟨_, rfl⟩

end

/-- The rows of the data file with their line numbers, and the exception with which the DSV reader ends, if any. -/
def DataRows (t : Table) (text : Str) (rows : List (Int × List Str)) (err : Option PyErr) : Prop :=
  ∃ cfg, Dsv.Cfg.ofDialect t.getDialect = .ok cfg ∧
    (Dsv.collect cfg.dialect (Dsv.openText cfg text)).1 = rows ∧ (Dsv.collect cfg.dialect (Dsv.openText cfg text)).2.1 = err

/-- `iterdicts` for a data file reads the rows of this file. -/
theorem iterdicts_eq {ext : Ext} {x : MExt} {t : Table} {strict log : Bool} {text : Str} {rows : List (Int × List Str)}
    {err : Option PyErr} (h : DataRows t text rows err) :
    t.iterdicts ext x strict log text = iterEvents ext x t strict log rows err := by
  obtain ⟨cfg, h1, h2, h3⟩ := h
  unfold Table.iterdicts
  rw [h1]
  simp only [h2, h3]

/-- A table with one column `a` of type `integer`. -/
def intTable : Table :=
  { schema := { columns := [{ name := some ['a'], props := { datatype := .dtype { base := .integer } }, number := 1 }] },
    url := "t.csv".toList }

/-- **C38 does not hold** for cells whose conversion raises other exceptions: `INF` in an integer column raises
`OverflowError` even with a log. -/
theorem C38_violated (ext : Ext) (x : MExt) :
    DataRows intTable "a\nINF\n5\n".toList [(1, [['a']]), (2, ["INF".toList]), (3, ["5".toList])] none ∧
    intTable.iterdicts ext x true true "a\nINF\n5\n".toList = { err := some .overflowError } := by
  have h : DataRows intTable "a\nINF\n5\n".toList [(1, [['a']]), (2, ["INF".toList]), (3, ["5".toList])] none :=
    ⟨_, rfl, by decide +kernel, by decide +kernel⟩
  exact ⟨h, (iterdicts_eq h).trans rfl⟩

/-- Non-vacuity: the same table with an invalid and a valid row. -/
example (ext : Ext) (x : MExt) :
    headerOf intTable [(1, [['a']])] ≠ [] ∧ HeaderOk ext x intTable [(1, [['a']])] ∧
    (∀ r ∈ [(2, ["x".toList]), (3, ["5".toList])], (readOne ext x intTable true [(1, [['a']])] r).err = none) ∧
    (iterEvents ext x intTable true true [(1, [['a']]), (2, ["x".toList]), (3, ["5".toList])] none).rows =
      [(3, [(['a'], .one (.int 5))])] := by
  refine ⟨by decide, rfl, ?_, rfl⟩
  intro r hr
  simp only [List.mem_cons, List.not_mem_nil, or_false] at hr
  rcases hr with rfl | rfl <;> rfl

end Csvw.Props
