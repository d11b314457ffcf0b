import Verif.Props.C57
/-!
# C87: data reported valid is read alike by default
-/

namespace Csvw.Props
open Csvw Csvw.Py Csvw.Spec Csvw.Table Csvw.Datatypes Csvw.Dataset

/-- The data file has no header (according to the dialect), or its header consists of the names of the (non-virtual) columns in the order of the schema.
(An empty file has no header.) -/
def HeaderInOrder (t : Table) (rows : List (Int × List Str)) : Prop :=
  t.getDialect.header = true → ∀ r, rows.head? = some r → r.2 = t.colnames

section
variable {ext : Ext} {x : MExt} {t : Table}

theorem readLax_of_read {c : CCol} {v : Str} {w : CVal} (h : c.read ext v = .ok w) : c.readLax ext v = (.ok w, false) := by
  unfold CCol.read at h
  unfold CCol.readLax
  simp only at h ⊢
  split at h
  · simp at h
  · rename_i hr
    rw [if_neg hr]
    cases hp : c.prepare (c.orDefault v) with
    | error e => rw [hp] at h; simp at h
    | ok r =>
      rw [hp] at h
      cases r with
      | none => simp only at h ⊢; rw [h]
      | one s => simp only at h ⊢; rw [h]
      | many l => simp only at h ⊢; rw [h]

/-- A description is known for each cell. -/
def CellsDescribed (hs : List HCol) : Prop := ∀ e ∈ hs, ∃ c, e.col = some c

theorem cellLoop_strict {log log' : Bool} {hs : List HCol} (hd : CellsDescribed hs) {vs : List Str} {st st' : RowSt}
    (h : cellLoop ext false log st hs vs = .ok st') (hw : st'.warned = false) : cellLoop ext true log' st hs vs = .ok st' := by
  induction hs generalizing st vs with
  | nil => exact h
  | cons e hs ih =>
    cases vs with
    | nil => exact h
    | cons v vs =>
      unfold cellLoop at h ⊢
      cases hc : cellStep ext false log st e v with
      | error e => rw [hc] at h; simp at h
      | ok st1 =>
        rw [hc] at h
        have h1 : st1.warned = false := (cellLoop_inv h hw).1
        have : cellStep ext true log' st e v = .ok st1 := by
          obtain ⟨c, hcol⟩ := hd e (by simp)
          unfold cellStep at hc ⊢
          rw [hcol] at hc ⊢
          simp only [Bool.false_eq_true, if_false, if_true] at hc ⊢
          cases hst : storeCell false log st c v (c.readLax ext v) with
          | error e => rw [hst] at hc; simp at hc
          | ok st2 =>
            rw [hst] at hc
            cases hc
            simp only [Bool.or_eq_false_iff] at h1
            obtain ⟨_, w, s2⟩ := storeCell_inv hst h1.1
            rw [s2] at hst
            rw [readLax_ok s2]
            have : storeCell true log' st c v (.ok w, false) = .ok st2 := hst
            rw [this]
        rw [this]
        exact ih (fun e he => hd e (by simp [he])) h

theorem cellLoop_lax {log : Bool} {hs : List HCol} (hd : CellsDescribed hs) {vs : List Str} {st st' : RowSt}
    (h : cellLoop ext true false st hs vs = .ok st') : cellLoop ext false log st hs vs = .ok st' := by
  induction hs generalizing st vs with
  | nil => exact h
  | cons e hs ih =>
    cases vs with
    | nil => exact h
    | cons v vs =>
      unfold cellLoop at h ⊢
      cases hc : cellStep ext true false st e v with
      | error e => rw [hc] at h; simp at h
      | ok st1 =>
        rw [hc] at h
        have : cellStep ext false log st e v = .ok st1 := by
          obtain ⟨c, hcol⟩ := hd e (by simp)
          unfold cellStep at hc ⊢
          rw [hcol] at hc ⊢
          simp only [Bool.false_eq_true, if_false, if_true] at hc ⊢
          cases hr : c.read ext v with
          | error e =>
            rw [hr] at hc
            unfold storeCell logOrRaise at hc
            cases e <;> simp at hc
          | ok w =>
            rw [hr] at hc
            rw [readLax_of_read hr]
            exact hc
        rw [this]
        exact ih (fun e he => hd e (by simp [he])) h

theorem checkRequired_any {log : Bool} {st st' : RowSt} (h : checkRequired false st = .ok st') : checkRequired log st = .ok st' := by
  unfold checkRequired logOrRaise at *
  split at h
  · simp at h
  · rename_i hn
    rw [if_neg hn]
    exact h

theorem rowStep_strict {log : Bool} {hs : List HCol} (hd : CellsDescribed hs) {row : List Str} {res : RowDict} {b : Bool}
    (h : rowStep ext x t false false hs row = .ok (res, b, false)) : rowStep ext x t true log hs row = .ok (res, b, false) := by
  unfold rowStep at h ⊢
  cases hc : cellLoop ext false false { required := requiredKeys hs } hs row with
  | error e => rw [hc] at h; simp at h
  | ok st =>
    rw [hc] at h
    simp only at h
    cases hr : checkRequired false st with
    | error e => rw [hr] at h; simp at h
    | ok st' =>
      rw [hr] at h
      simp only at h
      have hst : st' = st := by
        unfold checkRequired logOrRaise at hr
        split at hr
        · simp at hr
        · cases hr; rfl
      cases ha : addVirtual x (addMissing st'.res t.colnames) t.virtualCols with
      | error e => rw [ha] at h; simp at h
      | ok q =>
        rw [ha] at h
        simp only [Except.ok.injEq, Prod.mk.injEq] at h
        rw [cellLoop_strict (log' := log) hd hc (by rw [← hst]; exact h.2.2)]
        simp only
        rw [checkRequired_any hr]
        simp only [ha, h]

theorem rowStep_lax {hs : List HCol} (hd : CellsDescribed hs) {row : List Str} {o : RowDict × Bool × Bool}
    (h : rowStep ext x t true false hs row = .ok o) : rowStep ext x t false false hs row = .ok o := by
  unfold rowStep at h ⊢
  cases hc : cellLoop ext true false { required := requiredKeys hs } hs row with
  | error e => rw [hc] at h; simp at h
  | ok st =>
    rw [hc] at h
    rw [cellLoop_lax (log := false) hd hc]
    exact h

theorem described_rowCols {hs : List HCol} (hd : CellsDescribed hs) (row : List Str) : CellsDescribed (rowCols hs row) := by
  unfold rowCols
  split
  · intro e he
    rw [List.mem_mapIdx] at he
    obtain ⟨i, _, rfl⟩ := he
    exact ⟨_, rfl⟩
  · exact hd

theorem iterRows_strict {log : Bool} {err : Option PyErr} {hs : List HCol} (hd : CellsDescribed hs) {rows : List (Int × List Str)}
    (he : (iterRows ext x t false false err hs rows).err = none) (hw : (iterRows ext x t false false err hs rows).warned = false) :
    iterRows ext x t true log err hs rows = iterRows ext x t false false err hs rows := by
  induction rows generalizing hs with
  | nil => rfl
  | cons r rs ih =>
    obtain ⟨n, row⟩ := r
    unfold iterRows at he hw ⊢
    cases hr : rowStep ext x t false false (rowCols hs row) row with
    | error e => rw [hr] at he; simp at he
    | ok o =>
      obtain ⟨res, bad, w⟩ := o
      rw [hr] at he hw
      simp only [Bool.or_eq_false_iff] at he hw
      obtain ⟨rfl, hw⟩ := hw
      rw [rowStep_strict (log := log) (described_rowCols hd row) hr]
      simp only
      rw [ih (described_rowCols hd row) he hw]

theorem iterRows_lax {err : Option PyErr} {hs : List HCol} (hd : CellsDescribed hs) {rows : List (Int × List Str)}
    (he : (iterRows ext x t true false err hs rows).err = none) :
    iterRows ext x t false false err hs rows = iterRows ext x t true false err hs rows := by
  induction rows generalizing hs with
  | nil => rfl
  | cons r rs ih =>
    obtain ⟨n, row⟩ := r
    unfold iterRows at he ⊢
    cases hr : rowStep ext x t true false (rowCols hs row) row with
    | error e => rw [hr] at he; simp at he
    | ok o =>
      obtain ⟨res, bad, w⟩ := o
      rw [hr] at he
      simp only at he
      rw [rowStep_lax (described_rowCols hd row) hr]
      simp only
      rw [ih (described_rowCols hd row) he]

theorem matchCols_named (strict : Bool) : matchCols t strict t.colnames = .ok (t.colnames.zip (t.ccols.map some)) := by
  unfold matchCols
  simp

theorem described_indexed : CellsDescribed (indexed (t.colnames.zip (t.ccols.map some))) := by
  intro e he
  unfold indexed at he
  rw [List.mem_mapIdx] at he
  obtain ⟨i, hi, rfl⟩ := he
  simp only
  rw [List.getElem_zip]
  simp

theorem iterBody_strict {log : Bool} {rows : List (Int × List Str)} {err : Option PyErr}
    (he : (iterBody ext x t false false t.colnames rows err).err = none) (hw : (iterBody ext x t false false t.colnames rows err).warned = false) :
    iterBody ext x t true log t.colnames rows err = iterBody ext x t false false t.colnames rows err := by
  unfold iterBody at *
  simp only [matchCols_named] at *
  split at he
  · simp at he
  · rename_i hm
    simp only [hm] at hw ⊢
    exact iterRows_strict described_indexed he hw

theorem iterBody_lax {rows : List (Int × List Str)} {err : Option PyErr}
    (he : (iterBody ext x t true false t.colnames rows err).err = none) :
    iterBody ext x t false false t.colnames rows err = iterBody ext x t true false t.colnames rows err := by
  unfold iterBody at *
  simp only [matchCols_named] at *
  split at he
  · simp at he
  · rename_i hm
    simp only [hm]
    exact iterRows_lax described_indexed he

theorem iterEvents_strict {log : Bool} {rows : List (Int × List Str)} {err : Option PyErr} (hh : HeaderInOrder t rows)
    (he : (iterEvents ext x t false false rows err).err = none) (hw : (iterEvents ext x t false false rows err).warned = false) :
    iterEvents ext x t true log rows err = iterEvents ext x t false false rows err := by
  unfold iterEvents at *
  cases hd : t.getDialect.header with
  | false =>
    rw [hd] at he hw
    exact iterBody_strict he hw
  | true =>
    rw [hd] at he hw
    simp only [if_true] at he hw ⊢
    cases rows with
    | nil => rfl
    | cons r rows =>
      have := hh hd r rfl
      obtain ⟨n, header⟩ := r
      simp only at this
      subst this
      simp only [Bool.or_eq_false_iff, Bool.not_true, Bool.not_false, Bool.false_and, Bool.true_and, Bool.false_or] at he hw ⊢
      rw [iterBody_strict he hw.2, hw.1, hw.2, Bool.false_or]

end

section
variable {ext : Ext} {x : MExt} {eq : PyEq} {data : Str → Str} {d : Dataset}

/-- **C87** If `is_valid` returns `True`, then reading the rows of a table as is done by default raises no exception and issues no warning, and gives
the same rows as reading them with `strict=False` (as done by `is_valid` and `to_json`) – provided that the header of the data file consists
of the names of the columns. -/
theorem C87_read {d' : Dataset} (h : d.isValid ext x eq data = .ok (true, d')) {t : Table} (ht : TableIn d t)
    {rows : List (Int × List Str)} {err : Option PyErr} (hr : DataRows t (data t.url) rows err) (hh : HeaderInOrder t rows) (log : Bool) :
    (t.iterdicts ext x true log (data t.url)).err = none ∧ (t.iterdicts ext x true log (data t.url)).warned = false ∧
    (t.iterdicts ext x true log (data t.url)).rows = (t.iterdicts ext x false false (data t.url)).rows := by
  have hv := (valid_iff.1 ⟨d', h⟩).2.1 t (mem_tables.2 ht)
  have he := hv.readable
  have hw := hv.noWarning
  have : t.iterdicts ext x true log (data t.url) = t.iterdicts ext x false false (data t.url) := by
    rw [iterdicts_eq hr] at he hw ⊢
    rw [iterdicts_eq hr, iterEvents_strict hh he hw]
  rw [this]
  exact ⟨he, hw, rfl⟩

/-- **C87** Conversely, if the header consists of the names of the columns, and reading by default raises no exception, then reading
with `strict=False` gives the same rows, and raises no exception. -/
theorem C87_lax {t : Table} {text : Str} {rows : List (Int × List Str)} {err : Option PyErr} (hr : DataRows t text rows err) (hh : HeaderInOrder t rows)
    (he : (t.iterdicts ext x true false text).err = none) :
    (t.iterdicts ext x false false text).err = none ∧
    (t.iterdicts ext x false false text).rows = (t.iterdicts ext x true false text).rows := by
  rw [iterdicts_eq hr] at he ⊢
  rw [iterdicts_eq hr]
  unfold iterEvents at *
  cases hd : t.getDialect.header with
  | false =>
    rw [hd] at he
    simp only [Bool.false_eq_true, if_false] at he ⊢
    rw [iterBody_lax he]
    exact ⟨he, rfl⟩
  | true =>
    rw [hd] at he
    simp only [if_true] at he ⊢
    cases rows with
    | nil => exact ⟨he, rfl⟩
    | cons r rows =>
      have := hh hd r rfl
      obtain ⟨n, header⟩ := r
      simp only at this
      subst this
      simp only at he ⊢
      rw [iterBody_lax he]
      exact ⟨he, rfl⟩

end

/-! ## Examples -/

/-- The hypotheses are met by a table with a column `a` of integers (see `C57_example`); its rows are 5 and 6. -/
theorem C87_example (ext : Ext) (x : MExt) (eq : PyEq) (heq : eq (.one (.int 5)) (.one (.int 6)) = false) :
    keyedData.isValid ext x eq (fun _ => "a\n5\n6\n".toList) = .ok (true, keyedData) ∧ TableIn keyedData keyedTable ∧
    DataRows keyedTable "a\n5\n6\n".toList [(1, [['a']]), (2, [['5']]), (3, [['6']])] none ∧
    HeaderInOrder keyedTable [(1, [['a']]), (2, [['5']]), (3, [['6']])] ∧
    (keyedTable.iterdicts ext x true false "a\n5\n6\n".toList).rows = [(2, [(['a'], .one (.int 5))]), (3, [(['a'], .one (.int 6))])] := by
  refine ⟨C57_example ext x eq heq, .single rfl, keyed_valid_rows, ?_, ?_⟩
  · intro _ r hr
    cases hr
    rfl
  · rw [iterdicts_eq keyed_valid_rows]
    rfl

/-- A table with columns `a` (required) and `b`, without datatypes. -/
def pairTable : Table :=
  { schema := { columns := [{ name := some ['a'], number := 1, props := { required := .bool true } }, { name := some ['b'], number := 2 }] },
    url := "t.csv".toList }

/-- A data set of this table. -/
def pairData : Dataset := { desc := .inl pairTable }

theorem pair_isValid {ext : Ext} {x : MExt} {eq : PyEq} {text : Str} {rows : List (Int × List Str)} (h : DataRows pairTable text rows none)
    (he : (iterEvents ext x pairTable false false rows none).err = none) (hw : (iterEvents ext x pairTable false false rows none).warned = false) :
    pairData.isValid ext x eq (fun _ => text) = .ok (true, pairData) := by
  have hr : pairData.tablegroup.checkReferentialIntegrity eq (reader ext x fun _ => text) false true = .ok true := by
    have h1 : pairData.tablegroup.foreignKeys = .ok [] := rfl
    have h2 : pairData.tablegroup.schemaOk false = .ok true := rfl
    have h3 : (pairData.tablegroup.tables.flatMap fun t => t.schema.foreignKeys.map fun fk => (t, fk)) = [] := rfl
    unfold TableGroup.checkReferentialIntegrity
    rw [h1, h2, h3]
    simp [TableGroup.nullChecks, TableGroup.groupBy, TableGroup.tableGroups]
  have ht : checkTable ext x eq (fun _ => text) pairTable = .ok false := by
    unfold checkTable keyWarns Table.checkPrimaryKey
    simp only [iterdicts_eq h, he, hw]
    rfl
  unfold isValid
  rw [hr]
  have : pairData.tables = [pairTable] := rfl
  rw [this]
  unfold checkTables checkTables
  rw [ht]
  rfl

/-- **C87 does not hold** for other headers: when validating, cells are assigned to columns by position and (for columns with a name) the header
is not looked at; by default, they are assigned by name. If the columns of the data file are swapped, the file is reported as valid with the values
`1` for `a` and `2` for `b`, but reading gives `2` for `a` and `1` for `b`. -/
theorem C87_violated_order (ext : Ext) (x : MExt) (eq : PyEq) :
    pairData.isValid ext x eq (fun _ => "b,a\n1,2\n".toList) = .ok (true, pairData) ∧
    pairTable.iterdicts ext x false false "b,a\n1,2\n".toList = { rows := [(2, [(['a'], .one (.str ['1'])), (['b'], .one (.str ['2']))])] } ∧
    pairTable.iterdicts ext x true false "b,a\n1,2\n".toList = { rows := [(2, [(['b'], .one (.str ['1'])), (['a'], .one (.str ['2']))])] } := by
  have h : DataRows pairTable "b,a\n1,2\n".toList [(1, [['b'], ['a']]), (2, [['1'], ['2']])] none := ⟨_, rfl, by decide +kernel, by decide +kernel⟩
  refine ⟨pair_isValid h rfl rfl, ?_, ?_⟩ <;> rw [iterdicts_eq h] <;> rfl

/-- **C87 does not hold** for other headers: a data file which lacks a required column is reported as valid, if there is another column at its place; reading it
raises `ValueError`. -/
theorem C87_violated_missing (ext : Ext) (x : MExt) (eq : PyEq) :
    pairData.isValid ext x eq (fun _ => "x,b\n1,2\n".toList) = .ok (true, pairData) ∧
    pairTable.iterdicts ext x true false "x,b\n1,2\n".toList = { err := some .valueError } := by
  have h : DataRows pairTable "x,b\n1,2\n".toList [(1, [['x'], ['b']]), (2, [['1'], ['2']])] none := ⟨_, rfl, by decide +kernel, by decide +kernel⟩
  refine ⟨pair_isValid h rfl rfl, ?_⟩
  rw [iterdicts_eq h]
  rfl

end Csvw.Props
