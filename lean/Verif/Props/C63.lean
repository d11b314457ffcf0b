import Verif.Props.C42
/-!
# C63: writing rows given as sequences
-/

namespace Csvw.Props
open Table

section
variable {ext : Ext} {x : MExt} {t : Table} {v : CsvLib.CsvVer}

/-- A sequence with fewer values than the table has (non-virtual) columns. -/
def TooShort (t : Table) : Item → Prop
  | .seq l => l.length < (t.schema.columns.filter fun c => !c.virtual).length
  | .dict _ => False

/-- The row as dict: the values in the order of the (non-virtual) columns, under their names. -/
def AsDict (t : Table) (l : List CVal) : RowDict :=
  ((t.schema.columns.filter fun c => !c.virtual).map Column.header).zip l

theorem dataCols_eq (t : Table) : t.dataCols = (t.schema.columns.filter fun c => !c.virtual).map fun c => ⟨c, t.parents⟩ := by
  unfold dataCols ccols
  rw [List.filter_map]
  rfl

theorem rowOf_short {b : Bool} {i : Item} (h : TooShort t i) : ∃ e, rowOf ext t b i = .error e := by
  cases i with
  | dict d => exact h.elim
  | seq l =>
    cases hw : writeCells ext (t.dataCols.zip l) with
    | error e => exact ⟨e, by simp only [rowOf, hw]⟩
    | ok ws =>
      refine ⟨.indexError, ?_⟩
      simp only [rowOf, hw]
      rw [if_pos]
      rw [dataCols_eq, List.length_map]
      exact h

theorem writeItems_fails {cfg : Dsv.Cfg} {b : Bool} {items : List Item} (h : ∃ i ∈ items, TooShort t i) (s : Dsv.WState) :
    ∃ e, writeItems ext x v cfg t b s items = .error e := by
  induction items generalizing s with
  | nil => obtain ⟨i, hi, _⟩ := h; simp at hi
  | cons i r ih =>
    unfold writeItems
    cases hr : rowOf ext t b i with
    | error e => exact ⟨e, rfl⟩
    | ok ws =>
      simp only
      cases hw : Dsv.writerow v cfg s (ws.map (cellOf x)) with
      | error e => exact ⟨e, rfl⟩
      | ok s' =>
        refine ih ?_ s'
        obtain ⟨j, hj, hs⟩ := h
        rcases List.mem_cons.1 hj with rfl | hj
        · obtain ⟨e, he⟩ := rowOf_short (ext := ext) (b := b) hs
          rw [he] at hr; simp at hr
        · exact ⟨j, hj, hs⟩

/-- **C63** Rows given as sequences with too few values are never written: the call raises. -/
theorem C63_short {b : Bool} {items : List Item} (h : ∃ i ∈ items, TooShort t i) : ∃ e, t.write ext x v b items = .error e := by
  unfold write
  cases Dsv.Cfg.ofDialect t.getDialect with
  | error e => exact ⟨e, rfl⟩
  | ok cfg =>
    simp only
    generalize (if t.getDialect.header = true then Dsv.writerow v cfg {} (t.colnames.map some) else Except.ok {}) = R
    cases R with
    | error e => exact ⟨e, rfl⟩
    | ok s =>
      obtain ⟨e, he⟩ := writeItems_fails (ext := ext) (x := x) (v := v) (cfg := cfg) (b := b) h s
      exact ⟨e, by simp [he, Except.map]⟩

/-- **C63** It is `IndexError`, if the values present can be written and the row is the first. -/
theorem C63_short_error {b : Bool} {l : List CVal} {r : List Item} (h : TooShort t (.seq l)) {cfg : Dsv.Cfg}
    (hc : Dsv.Cfg.ofDialect t.getDialect = .ok cfg) {s : Dsv.WState}
    (hh : (if t.getDialect.header then Dsv.writerow v cfg {} (t.colnames.map some) else .ok {}) = .ok s)
    (hw : ∃ ws, writeCells ext (t.dataCols.zip l) = .ok ws) : t.write ext x v b (.seq l :: r) = .error .indexError := by
  obtain ⟨ws, hw⟩ := hw
  unfold write
  simp only [hc, hh]
  unfold writeItems rowOf
  simp only [hw]
  rw [if_pos]
  · rfl
  · rw [dataCols_eq, List.length_map]; exact h

theorem get_zip {ks : List Str} {l : List CVal} (hn : ks.Nodup) (hl : ks.length ≤ l.length) (cs : List CCol) (hk : cs.map (fun c => c.col.header) = ks) :
    cs.map (fun c => (c, (Dict.get c.col.header (ks.zip l)).getD (.one .none))) = cs.zip l := by
  induction cs generalizing ks l with
  | nil => rfl
  | cons c cs ih =>
    subst hk
    cases l with
    | nil => simp at hl
    | cons w l =>
      simp only [List.map_cons, List.nodup_cons] at hn
      have ih := ih hn.2 (l := l) (by simpa using hl) rfl
      simp only [List.map_cons, List.zip_cons_cons, Dict.get, if_true]
      rw [← ih]
      refine List.cons_eq_cons.2 ⟨by simp, ?_⟩
      refine List.map_congr_left fun c' hc' => ?_
      have hne : c.col.header ≠ c'.col.header := fun he => hn.1 (he ▸ List.mem_map.2 ⟨c', hc', rfl⟩)
      simp [hne]

theorem rowOf_seq {b : Bool} {l : List CVal} (hn : ((t.schema.columns.filter fun c => !c.virtual).map Column.header).Nodup)
    (hl : (t.schema.columns.filter fun c => !c.virtual).length ≤ l.length) :
    rowOf ext t b (.seq l) = rowOf ext t b (.dict (AsDict t l)) := by
  have hlen : t.dataCols.length ≤ l.length := by rw [dataCols_eq, List.length_map]; exact hl
  have hcn : t.colnames = (t.schema.columns.filter fun c => !c.virtual).map Column.header := by
    unfold colnames; rw [dataCols_eq, List.map_map]; rfl
  have hkeys : Dict.keys (AsDict t l) = t.colnames := by
    rw [hcn]
    unfold AsDict Dict.keys
    rw [List.map_fst_zip]
    rw [List.length_map]; exact hl
  have hno : (b && (Dict.keys (AsDict t l)).any fun k => !t.colnames.contains k) = false := by
    rw [hkeys]
    cases b with
    | false => rfl
    | true =>
      simp only [Bool.true_and, List.any_eq_false, Bool.not_eq_true', List.contains_eq_mem, decide_eq_false_iff_not, Classical.not_not]
      exact fun k hk => hk
  unfold rowOf
  simp only [hno, Bool.false_eq_true, if_false]
  have := get_zip (ks := t.colnames) (l := l) (by rw [hcn]; exact hn) (by rw [hcn, List.length_map]; exact hl) t.dataCols rfl
  have he : AsDict t l = t.colnames.zip l := by unfold AsDict; rw [hcn]
  rw [he, this]
  cases writeCells ext (t.dataCols.zip l) with
  | error e => rfl
  | ok ws => simp only; rw [if_neg (by omega)]

/-- Every sequence has been replaced by the dict with the same values. -/
def itemAsDict (t : Table) : Item → Item
  | .seq l => .dict (AsDict t l)
  | .dict d => .dict d

/-- **C63** Rows given as sequences are written like the dicts which assign the values, in order, to the columns (values beyond the last column
are ignored). -/
theorem C63_sequences {b : Bool} {items : List Item} (hn : ((t.schema.columns.filter fun c => !c.virtual).map Column.header).Nodup)
    (h : ∀ i ∈ items, ¬ TooShort t i) : t.write ext x v b items = t.write ext x v b (items.map (itemAsDict t)) := by
  have key : ∀ (cfg : Dsv.Cfg) (s : Dsv.WState),
      writeItems ext x v cfg t b s items = writeItems ext x v cfg t b s (items.map (itemAsDict t)) := by
    intro cfg
    induction items with
    | nil => intro s; rfl
    | cons i r ih =>
      intro s
      have hi : rowOf ext t b i = rowOf ext t b (itemAsDict t i) := by
        cases i with
        | dict d => rfl
        | seq l => exact rowOf_seq hn (Nat.le_of_not_lt (h (.seq l) (List.mem_cons_self ..)))
      rw [List.map_cons]
      unfold writeItems
      rw [hi]
      cases rowOf ext t b (itemAsDict t i) with
      | error e => rfl
      | ok ws =>
        simp only
        cases Dsv.writerow v cfg s (ws.map (cellOf x)) with
        | error e => rfl
        | ok s' => exact ih (fun j hj => h j (List.mem_cons_of_mem _ hj)) s'
  unfold write
  cases Dsv.Cfg.ofDialect t.getDialect with
  | error e => rfl
  | ok cfg =>
    simp only
    generalize (if t.getDialect.header = true then Dsv.writerow v cfg {} (t.colnames.map some) else Except.ok {}) = R
    cases R with
    | error e => rfl
    | ok s => simp only [key]

end

/-- Non-vacuity: a table with one integer column. -/
theorem C63_example (ext : Ext) (x : MExt) (v : CsvLib.CsvVer) :
    ((intTable.schema.columns.filter fun c => !c.virtual).map Column.header).Nodup ∧ ¬ TooShort intTable (.seq [.one (.int 5)]) ∧
    TooShort intTable (.seq []) ∧ (∃ text, intTable.write ext x v true [.seq [.one (.int 5), .one (.int 6)]] = .ok text) ∧
    intTable.write ext x v true [.seq []] = .error .indexError := by
  refine ⟨by decide, by simp only [TooShort]; decide, by simp only [TooShort]; decide, ?_, ?_⟩
  · cases v with
    | mk a b => cases a <;> cases b <;> exact ⟨_, rfl⟩
  · cases v with
    | mk a b => cases a <;> cases b <;> rfl

end Csvw.Props
