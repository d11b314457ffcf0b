import Verif.Props.C36
import Verif.Props.C01_C04
/-!
# C37: writing and reading tables
-/

namespace Csvw.Props
open Csvw.Spec Csvw.Table Csvw.Datatypes

/-- The value of a row under a key: `None` if there is no such key. -/
def valueOf (d : RowDict) (k : Str) : CVal := (Dict.get k d).getD (.one .none)

/-- The value `v` of column `c` is written as cell `s`, and `s` is read as `v`. (C31 and C32 say for which columns and values
this holds.) -/
def CellRoundTrips (ext : Ext) (x : MExt) (c : CCol) (v : CVal) (s : Str) : Prop :=
  (∃ w, c.write ext v = .ok w ∧ Dsv.cellText (cellOf x w) = s) ∧ c.read ext s = .ok v

/-- The values of a row for the non-virtual columns are written as the cells of `row` and read back. -/
def RowRoundTrips (ext : Ext) (x : MExt) (t : Table) (d : RowDict) (row : List Str) : Prop :=
  All2 (fun c s => CellRoundTrips ext x c (valueOf d c.col.header) s) t.dataCols row

/-- The rows of a data file: header, if there is one, and data rows. -/
def fileRows (t : Table) (rows : List (List Str)) : List (List Str) :=
  (if t.getDialect.header then [t.colnames] else []) ++ rows

section
variable {ext : Ext} {x : MExt} {t : Table}

theorem writerow_text {v : CsvLib.CsvVer} {cfg : Dsv.Cfg} {s : Dsv.WState} {row row' : List Dsv.Cell}
    (h : row.map Dsv.cellText = row'.map Dsv.cellText) : Dsv.writerow v cfg s row = Dsv.writerow v cfg s row' := by
  unfold Dsv.writerow
  have : ∀ r : List Dsv.Cell, r.map (fun c => Dsv.escapeDoubled cfg.fmt (Dsv.cellText c)) =
      (r.map Dsv.cellText).map (Dsv.escapeDoubled cfg.fmt) := by intro r; simp [List.map_map, Function.comp_def]
  rw [this row, this row', h]

theorem writeCells_rt {d : RowDict} {cs : List CCol} {row : List Str}
    (h : All2 (fun c s => CellRoundTrips ext x c (valueOf d c.col.header) s) cs row) :
    ∃ ws, writeCells ext (cs.map fun c => (c, (Dict.get c.col.header d).getD (.one .none))) = .ok ws ∧
      (ws.map (cellOf x)).map Dsv.cellText = row := by
  induction h with
  | nil => exact ⟨[], rfl, rfl⟩
  | cons h _ ih =>
    obtain ⟨ws, h1, h2⟩ := ih
    obtain ⟨⟨w, hw, hs⟩, _⟩ := h
    refine ⟨w :: ws, ?_, by simp [hs, h2]⟩
    unfold valueOf at hw
    rw [List.map_cons]
    unfold writeCells
    rw [hw, h1]

theorem rowOf_rt {d : RowDict} {row : List Str} (h : RowRoundTrips ext x t d row) {strict : Bool}
    (hk : strict = true → ∀ k ∈ Dict.keys d, k ∈ t.colnames) :
    ∃ ws, rowOf ext t strict (.dict d) = .ok ws ∧ (ws.map (cellOf x)).map Dsv.cellText = row := by
  obtain ⟨ws, h1, h2⟩ := writeCells_rt h
  refine ⟨ws, ?_, h2⟩
  simp only [rowOf]
  rw [if_neg, h1]
  cases hs : strict with
  | false => simp
  | true =>
    simp only [Bool.true_and, Bool.not_eq_true, List.any_eq_false]
    intro k hk'
    simp [hk hs k hk']

theorem writeItems_rt {v : CsvLib.CsvVer} {cfg : Dsv.Cfg} {strict : Bool} {dicts : List RowDict} {rows : List (List Str)}
    (h : All2 (RowRoundTrips ext x t) dicts rows) (hk : strict = true → ∀ d ∈ dicts, ∀ k ∈ Dict.keys d, k ∈ t.colnames)
    (i : Nat) (s : Dsv.WState) :
    writeItems ext x v cfg t strict s (dicts.map .dict) =
      Dsv.writerowsFrom v cfg i s (rows.map fun r => .seq (r.map some)) := by
  induction h generalizing i s with
  | nil => rfl
  | cons h _ ih =>
    obtain ⟨ws, h1, h2⟩ := rowOf_rt h (strict := strict) fun hs => hk hs _ (List.mem_cons_self ..)
    rw [List.map_cons, List.map_cons]
    unfold writeItems Dsv.writerowsFrom
    rw [h1]
    simp only
    rename_i row _ _ _
    have e : Dsv.writerow v cfg s (ws.map (cellOf x)) = Dsv.writerow v cfg s (row.map some) :=
      writerow_text (by rw [h2]; simp [Function.comp_def, Dsv.cellText])
    rw [e]
    cases Dsv.writerow v cfg s (row.map some) with
    | error e => rfl
    | ok s' => exact ih (fun hs d hd => hk hs d (List.mem_cons_of_mem _ hd)) _ _

/-- Writing a table writes the header and the rows. -/
theorem write_eq {v : CsvLib.CsvVer} {cfg : Dsv.Cfg} (hcfg : Dsv.Cfg.ofDialect t.getDialect = .ok cfg) {strict : Bool}
    {dicts : List RowDict} {rows : List (List Str)}
    (h : All2 (RowRoundTrips ext x t) dicts rows) (hk : strict = true → ∀ d ∈ dicts, ∀ k ∈ Dict.keys d, k ∈ t.colnames) :
    t.write ext x v strict (dicts.map .dict) = Dsv.writeFile v cfg (fileRows t rows) := by
  unfold Table.write Dsv.writeFile Dsv.writerows fileRows
  rw [hcfg]
  simp only
  by_cases hh : t.getDialect.header = true
  · rw [if_pos hh, if_pos hh]
    simp only [List.cons_append, List.nil_append, List.map_cons]
    unfold Dsv.writerowsFrom
    cases Dsv.writerow v cfg {} (t.colnames.map some) with
    | error e => rfl
    | ok s =>
      simp only
      rw [writeItems_rt h hk 1]
      cases Dsv.writerowsFrom v cfg (0 + 1) s (rows.map fun r => .seq (r.map some)) <;> rfl
  · rw [if_neg hh, if_neg hh]
    simp only [List.nil_append]
    rw [writeItems_rt h hk 0]
    cases Dsv.writerowsFrom v cfg 0 {} (rows.map fun r => .seq (r.map some)) <;> rfl

theorem pairSteps_rt {log : Bool} {d : RowDict} {cs : List CCol} {row : List Str}
    (h : All2 (fun c s => CellRoundTrips ext x c (valueOf d c.col.header) s) cs row) :
    pairSteps ext log (((cs.map fun c => (c.col.header, some c)).zip row).map fun p => (⟨0, p.1.1, p.1.2⟩, p.2)) =
      .ok (cs.map fun c => some (c.col.header, valueOf d c.col.header)) := by
  induction h with
  | nil => rfl
  | cons h _ ih =>
    simp only [List.map_cons, List.zip_cons_cons]
    unfold pairSteps
    rw [ih]
    simp only [pairStep, h.2]

theorem all2_length {α β : Type} {R : α → β → Prop} {as : List α} {bs : List β} (h : All2 R as bs) : as.length = bs.length := by
  induction h with
  | nil => rfl
  | cons _ _ ih => simp [ih]

theorem addMissing_all {res : RowDict} {names : List Str} (h : ∀ k ∈ names, Dict.has k res = true) :
    addMissing res names = res := by
  unfold addMissing
  induction names with
  | nil => rfl
  | cons a r ih =>
    rw [List.foldl_cons]
    have : Dict.setdefault a (CVal.one .none) res = res := by
      unfold Dict.setdefault; rw [if_pos (h a (List.mem_cons_self ..))]
    rw [this]
    exact ih fun k hk => h k (List.mem_cons_of_mem _ hk)

/-- The dict of the values of a row for the non-virtual columns. -/
def dataDict (t : Table) (d : RowDict) : RowDict := t.colnames.map fun k => (k, valueOf d k)

theorem keys_dataDict (t : Table) (d : RowDict) : Dict.keys (dataDict t d) = t.colnames := by
  simp [dataDict, Dict.keys, Function.comp_def]

theorem rowStep_rt {log : Bool} {d d' : RowDict} {row : List Str} (h : RowRoundTrips ext x t d row)
    (hn : t.colnames.Nodup) (hv : addVirtual x (dataDict t d) t.virtualCols = .ok d') :
    ∃ w, rowStep ext x t true log (indexed (t.dataCols.map fun c => (c.col.header, some c))) row = .ok (d', false, w) := by
  rw [rowStep_full_eq (by rw [List.length_map, all2_length h]; omega), pairSteps_rt h]
  simp only
  have e1 : (t.dataCols.map fun c => some (c.col.header, valueOf d c.col.header)).filterMap id = dataDict t d := by
    unfold dataDict colnames
    rw [List.filterMap_map]
    simp [Function.comp_def, List.map_map]
  rw [e1]
  have e2 : Dict.update [] (dataDict t d) = dataDict t d := Dict.ofPairs_of_nodup (by rw [keys_dataDict]; exact hn)
  rw [e2, addMissing_all (by intro k hk; rw [Dict.has_iff_mem_keys, keys_dataDict]; exact hk), hv]
  have e3 : (t.dataCols.map fun c => some (c.col.header, valueOf d c.col.header)).any Option.isNone = false := by simp
  rw [e3]
  exact ⟨_, rfl⟩

theorem missingCols_colnames (hvirt : ∀ c ∈ t.schema.columns, c.virtual = true → c.props.required.truthy = false) :
    missingCols t (indexed (t.dataCols.map fun c => (c.col.header, some c))) = false := by
  unfold missingCols
  rw [List.any_eq_false]
  intro k hk
  unfold requiredCols at hk
  obtain ⟨c, hc, rfl⟩ := List.mem_map.1 hk
  obtain ⟨hc1, hc2⟩ := List.mem_filter.1 hc
  have hv : c.virtual = false := by
    cases h : c.virtual with
    | false => rfl
    | true => rw [hvirt c hc1 h] at hc2; simp at hc2
  simp only [Bool.not_eq_true, Bool.not_eq_false', List.any_eq_true]
  have hm : (⟨c, t.parents⟩ : CCol) ∈ t.dataCols :=
    List.mem_filter.2 ⟨List.mem_map.2 ⟨c, hc1, rfl⟩, by simp [hv]⟩
  obtain ⟨i, hi, he⟩ := List.mem_iff_getElem.1 hm
  refine ⟨⟨i, c.header, some ⟨c, t.parents⟩⟩, ?_, by simp [hasHeader]⟩
  unfold indexed
  rw [List.mem_iff_getElem]
  exact ⟨i, by simpa using hi, by simp [he]⟩

theorem iterRows_rt {log : Bool} {hs : List HCol} (hne : hs ≠ []) {dicts : List RowDict} {rows : List (Int × List Str)}
    (h : All2 (fun d r => ∃ w, rowStep ext x t true log hs r.2 = .ok (d, false, w)) dicts rows) :
    (iterRows ext x t true log none hs rows).err = none ∧
    (iterRows ext x t true log none hs rows).rows.map Prod.snd = dicts := by
  induction h with
  | nil => exact ⟨rfl, rfl⟩
  | cons h _ ih =>
    rename_i d p _ _ _
    obtain ⟨n, row⟩ := p
    obtain ⟨w, hw⟩ := h
    unfold iterRows
    rw [rowCols_of_ne hne, hw]
    exact ⟨ih.1, by simp [ih.2]⟩

theorem all2_map_right {α β γ : Type} {R : α → γ → Prop} {f : β → γ} {as : List α} {bs : List β} (h : All2 R as (bs.map f)) :
    All2 (fun a b => R a (f b)) as bs := by
  induction bs generalizing as with
  | nil => cases h; exact .nil
  | cons b r ih => cases h with
    | cons h1 h2 => exact .cons h1 (ih h2)

theorem all2_comp {α β γ : Type} {R : α → β → Prop} {S : α → γ → Prop} {T : γ → β → Prop} {as : List α} {bs : List β} {cs : List γ}
    (h : All2 R as bs) (h' : All2 S as cs) (hT : ∀ a b c, R a b → S a c → T c b) : All2 T cs bs := by
  induction h generalizing cs with
  | nil => cases h'; exact .nil
  | cons h1 _ ih => cases h' with
    | cons h2 h3 => exact .cons (hT _ _ _ h1 h2) (ih h3)

/-- **C37** Round trip of rows. The table has distinct column names (at least one), virtual columns come last (C34) and are not
required; the values of the rows round-trip through their columns as cells `rows` (C31, C32), and these cells through the
dialect (C02). Then `write` gives a file from which `iterdicts` yields, without exception, for each row written the values of
its non-virtual columns, extended by the virtual columns. -/
theorem C37_roundtrip (v : CsvLib.CsvVer) (strict log : Bool) (dl q : Char) (lt : Str) {dicts dicts' : List RowDict}
    {rows : List (List Str)}
    (hlast : VirtualLast t.schema.columns) (hn : t.colnames.Nodup) (hne : t.colnames ≠ [])
    (hreq : ∀ c ∈ t.schema.columns, c.virtual = true → c.props.required.truthy = false)
    (hcells : All2 (RowRoundTrips ext x t) dicts rows)
    (hk : strict = true → ∀ d ∈ dicts, ∀ k ∈ Dict.keys d, k ∈ t.colnames)
    (hvirt : All2 (fun d d' => addVirtual x (dataDict t d) t.virtualCols = .ok d') dicts dicts')
    (hd : QuoteDialect v t.getDialect dl q lt) (hq : EscapesKept v t.getDialect (fileRows t rows))
    (hs : NoSkipping t.getDialect (fileRows t rows)) (hc : Storable t.getDialect (fileRows t rows))
    (hb : ¬ Spec.StartsWithBom (fileRows t rows)) :
    ∃ text, t.write ext x v strict (dicts.map .dict) = .ok text ∧
      (t.iterdicts ext x true log text).err = none ∧ (t.iterdicts ext x true log text).rows.map Prod.snd = dicts' := by
  obtain ⟨cfg, text, h1, h2, h3⟩ := dialect_roundtrip hd hq hs hc hb
  refine ⟨text, by rw [write_eq h1 hcells hk, h2], ?_⟩
  unfold Dsv.readFile at h3
  simp only [Prod.mk.injEq] at h3
  have hrows : DataRows t text (Dsv.collect cfg.dialect (Dsv.openText cfg text)).1 none := ⟨cfg, h1, rfl, h3.2⟩
  rw [iterdicts_eq hrows]
  generalize (Dsv.collect cfg.dialect (Dsv.openText cfg text)).1 = evs at h3
  have hm := matchCols_colnames hlast true
  have hmis := missingCols_colnames hreq
  have hne' := indexed_ne_nil hm hne
  have hsplit : ∃ pre rest, evs = pre ++ rest ∧ pre.length = (if t.getDialect.header then 1 else 0) ∧ headerOf t pre = t.colnames ∧
      rest.map Prod.snd = rows := by
    have h4 := h3.1
    unfold fileRows at h4
    unfold headerOf
    by_cases hh : t.getDialect.header = true
    · rw [if_pos hh] at h4
      rw [if_pos hh]
      cases evs with
      | nil => simp at h4
      | cons p r =>
        simp only [List.map_cons, List.cons_append, List.nil_append, List.cons.injEq] at h4
        exact ⟨[p], r, rfl, rfl, by simp [h4.1, hh], h4.2⟩
    · rw [if_neg hh] at h4
      rw [if_neg hh]
      exact ⟨[], evs, rfl, rfl, by simp [hh], h4⟩
  obtain ⟨pre, rest, rfl, hlen, hhead, hrest⟩ := hsplit
  rw [iterEvents_cols hlen (by rw [hhead]; exact hm) hmis]
  apply iterRows_rt hne'
  rw [← hrest] at hcells
  exact all2_comp (all2_map_right hcells) hvirt fun d r d' hr hv => rowStep_rt hr hn hv

/-- **C37** In particular, without virtual columns, rows with exactly the columns as keys are read as they were written. -/
theorem C37_same (v : CsvLib.CsvVer) (strict log : Bool) (dl q : Char) (lt : Str) {dicts : List RowDict} {rows : List (List Str)}
    (hcols : ∀ c ∈ t.schema.columns, c.virtual = false) (hn : t.colnames.Nodup) (hne : t.colnames ≠ [])
    (hcells : All2 (RowRoundTrips ext x t) dicts rows) (hk : ∀ d ∈ dicts, Dict.keys d = t.colnames)
    (hd : QuoteDialect v t.getDialect dl q lt) (hq : EscapesKept v t.getDialect (fileRows t rows))
    (hs : NoSkipping t.getDialect (fileRows t rows)) (hc : Storable t.getDialect (fileRows t rows))
    (hb : ¬ Spec.StartsWithBom (fileRows t rows)) :
    ∃ text, t.write ext x v strict (dicts.map .dict) = .ok text ∧
      (t.iterdicts ext x true log text).err = none ∧ (t.iterdicts ext x true log text).rows.map Prod.snd = dicts := by
  refine C37_roundtrip v strict log dl q lt ⟨t.schema.columns, [], by simp, hcols, by simp⟩ hn hne
    (fun c hc hv => by rw [hcols c hc] at hv; simp at hv) hcells (fun _ d hd k hk' => by rw [← hk d hd]; exact hk') ?_ hd hq hs hc hb
  have hvc : t.virtualCols = [] := by
    unfold virtualCols
    rw [List.filterMap_eq_nil_iff]
    intro c hc
    rw [hcols c hc]
    simp
  rw [hvc]
  clear hcells hs hc hb
  induction dicts with
  | nil => exact .nil
  | cons d r ih =>
    refine .cons ?_ (ih fun d hd => hk d (List.mem_cons_of_mem _ hd))
    simp only [addVirtual, Except.ok.injEq]
    have hkd := hk d (List.mem_cons_self ..)
    unfold dataDict
    rw [← hkd]
    have hnd : (Dict.keys d).Nodup := by rw [hkd]; exact hn
    unfold Dict.keys
    rw [List.map_map]
    conv => rhs; rw [← List.map_id d]
    apply List.map_congr_left
    intro p hp
    simp only [Function.comp_apply, valueOf]
    rw [Dict.get_of_mem_nodup hnd (v := p.2) hp]
    rfl
end

/-- Non-vacuity: the rows `{a: 5}` and `{a: None}` of a table with an integer column. -/
example (ext : Ext) (x : MExt) (v : CsvLib.CsvVer) :
    ∃ text, intTable.write ext x v true ([[(['a'], .one (.int 5))], [(['a'], .one .none)]].map .dict) = .ok text ∧
      (intTable.iterdicts ext x true false text).err = none ∧
      (intTable.iterdicts ext x true false text).rows.map Prod.snd = [[(['a'], .one (.int 5))], [(['a'], .one .none)]] := by
  refine C37_same (rows := [["5".toList], [[]]]) v true false ',' '"' ['\r', '\n'] (by simp [intTable]) (by decide) (by decide)
    (.cons (.cons ⟨⟨_, rfl, rfl⟩, rfl⟩ .nil) (.cons (.cons ⟨⟨_, rfl, rfl⟩, rfl⟩ .nil) .nil)) (by decide)
    ⟨rfl, rfl, ⟨_, rfl⟩, .inl rfl, by decide, by decide, by decide, by decide, .inr rfl⟩ (.inl rfl)
    ⟨rfl, rfl, rfl, by decide, by decide⟩ (by unfold Storable; decide) ?_
  rintro ⟨s, cells, rest, h⟩
  have h2 : (some 'a' : Option Char) = some Spec.bom := congrArg (fun l => (l.head?.bind List.head?).bind List.head?) h
  revert h2
  decide

/-- A table with one column of strings, and a dialect with escape character. -/
def escTable : Table :=
  { schema := { columns := [{ name := some ['a'], props := {}, number := 1 }] }, url := "t.csv".toList,
    dialect := some { doubleQuote := false, commentPrefix := none } }

/-- Non-vacuity: a cell with a quote character, which is escaped. -/
example (ext : Ext) (x : MExt) (v : CsvLib.CsvVer) :
    ∃ text, escTable.write ext x v true ([[(['a'], .one (.str "x\",y".toList))]].map .dict) = .ok text ∧
      (escTable.iterdicts ext x true false text).err = none ∧
      (escTable.iterdicts ext x true false text).rows.map Prod.snd = [[(['a'], .one (.str "x\",y".toList))]] := by
  refine C37_same (rows := [["x\",y".toList]]) v true false ',' '"' ['\r', '\n'] (by simp [escTable]) (by decide) (by decide)
    (.cons (.cons ⟨⟨_, rfl, rfl⟩, rfl⟩ .nil) .nil) (by decide)
    ⟨rfl, rfl, ⟨_, rfl⟩, .inl rfl, by decide, by decide, by decide, by decide, .inr rfl⟩
    (.inr ⟨by decide, by decide, .inr (by decide)⟩)
    ⟨rfl, rfl, rfl, (by rintro r - ⟨p, _, _, h, _⟩; cases h), (by rintro ⟨⟩)⟩ (by unfold Storable; decide) ?_
  rintro ⟨s, cells, rest, h⟩
  have h2 : (some 'a' : Option Char) = some Spec.bom := congrArg (fun l => (l.head?.bind List.head?).bind List.head?) h
  revert h2
  decide

end Csvw.Props
