import Verif.Props.C40Sound
import Verif.Model.Csvw
/-!
# C57: validation
-/

namespace Csvw.Props
open Csvw.Spec Csvw.Table Csvw.TableGroup Csvw.Dataset Csvw.Datatypes

section
variable {ext : Ext} {x : MExt} {eq : PyEq} {data : Str → Str} {d : Dataset}

/-! ## The result of the checks -/

/-- The table is read, non-strictly, without exception or warning, and its primary key is checked without exception, warning or
failure. -/
structure TableValid (ext : Ext) (x : MExt) (eq : PyEq) (text : Str) (t : Table) : Prop where
  readable : (t.iterdicts ext x false false text).err = none
  noWarning : (t.iterdicts ext x false false text).warned = false
  key : t.checkPrimaryKey ext x eq false text = .ok true
  keyNoWarning : ∀ key, t.schema.primaryKey = some key → key ≠ [] → (t.iterdicts ext x true true text).warned = false

theorem keyWarns_false {t : Table} {text : Str} : keyWarns ext x t text = false ↔
    ∀ key, t.schema.primaryKey = some key → key ≠ [] → (t.iterdicts ext x true true text).warned = false := by
  unfold keyWarns
  cases t.schema.primaryKey with
  | none => simp
  | some key => cases key with
    | nil => simp
    | cons k ks => simp

theorem checkTable_iff {t : Table} : checkTable ext x eq data t = .ok false ↔ TableValid ext x eq (data t.url) t := by
  unfold checkTable
  cases he : (t.iterdicts ext x false false (data t.url)).err with
  | some e => simp only [reduceCtorEq, false_iff]; intro h; rw [h.readable] at he; simp at he
  | none =>
    simp only
    cases hk : t.checkPrimaryKey ext x eq false (data t.url) with
    | error e => simp only [reduceCtorEq, false_iff]; intro h; rw [h.key] at hk; simp at hk
    | ok b =>
      simp only [Except.ok.injEq, Bool.or_eq_false_iff, Bool.not_eq_false', keyWarns_false]
      constructor
      · rintro ⟨⟨h1, h2⟩, h3⟩; exact ⟨he, h1, by rw [hk, h3], h2⟩
      · intro h
        refine ⟨⟨h.noWarning, h.keyNoWarning⟩, ?_⟩
        have := h.key
        rw [hk] at this
        simpa using this

theorem checkTables_iff {ts : List Table} :
    checkTables ext x eq data ts = .ok false ↔ ∀ t ∈ ts, TableValid ext x eq (data t.url) t := by
  induction ts with
  | nil => simp [checkTables]
  | cons t r ih =>
    unfold checkTables
    rw [List.forall_mem_cons, ← checkTable_iff, ← ih]
    cases checkTable ext x eq data t with
    | error e => simp
    | ok w =>
      cases checkTables ext x eq data r with
      | error e => simp
      | ok w' => simp

/-- The tables of a data set: the described table, or the tables of the described group. -/
inductive TableIn (d : Dataset) : Table → Prop
  | single {t : Table} : d.desc = .inl t → TableIn d t
  | member {g : TableGroup} {t : Table} : d.desc = .inr g → t ∈ g.tables → TableIn d t

/-- The group whose references are checked: the described group, or a group of the described table alone. -/
inductive GroupOf (d : Dataset) : TableGroup → Prop
  | single {t : Table} : d.desc = .inl t → GroupOf d ⟨[{ t with group := some ({}, none) }]⟩
  | group {g : TableGroup} : d.desc = .inr g → GroupOf d g

theorem mem_tables {d : Dataset} {t : Table} : t ∈ d.tables ↔ TableIn d t := by
  unfold Dataset.tables
  constructor
  · intro h
    cases hd : d.desc with
    | inl t' => rw [hd] at h; simp only [List.mem_singleton] at h; rw [h]; exact .single hd
    | inr g => rw [hd] at h; exact .member hd h
  · intro h
    cases h with
    | single h => rw [h]; simp
    | member h hm => rw [h]; exact hm

theorem groupOf_iff {d : Dataset} {g : TableGroup} : GroupOf d g ↔ g = d.tablegroup := by
  unfold Dataset.tablegroup
  constructor
  · intro h
    cases h with
    | single h => rw [h]
    | group h => rw [h]
  · intro h
    cases hd : d.desc with
    | inl t' => rw [hd] at h; rw [h]; exact .single hd
    | inr g => rw [hd] at h; rw [h]; exact .group hd

theorem valid_iff : (∃ d', d.isValid ext x eq data = .ok (true, d')) ↔
    d.warned = false ∧ (∀ t ∈ d.tables, TableValid ext x eq (data t.url) t) ∧
    d.tablegroup.checkReferentialIntegrity eq (fileReader ext x data) false true = .ok true ∧
    ∀ t ∈ readTables d.tablegroup, (t.iterdicts ext x true false (data t.url)).warned = false := by
  unfold isValid
  cases hw : d.warned with
  | true => simp
  | false =>
    simp only [Bool.false_eq_true, if_false, true_and]
    rw [← checkTables_iff]
    cases hc : checkTables ext x eq data d.tables with
    | error e => simp
    | ok w =>
      simp only
      have hr : fileReader ext x data = reader ext x data := rfl
      rw [hr]
      cases hi : d.tablegroup.checkReferentialIntegrity eq (reader ext x data) false true with
      | error e => simp
      | ok b =>
        simp only [Except.ok.injEq, Prod.mk.injEq, exists_and_left, exists_eq', and_true, Bool.not_eq_true', Bool.or_eq_false_iff,
          Bool.not_eq_false', List.any_eq_false, Bool.not_eq_true]
        rw [and_assoc]
        rfl

/-- **C57** `is_valid` returns `True` exactly if there was no warning before (when loading), every table is read without exception or
warning and passes the check of its primary key, and the check of referential integrity returns `True`, without exception or
warning. -/
theorem C57_iff {g : TableGroup} (hg : GroupOf d g) : (∃ d', d.isValid ext x eq data = .ok (true, d')) ↔
    d.warned = false ∧ (∀ t, TableIn d t → TableValid ext x eq (data t.url) t) ∧
    g.checkReferentialIntegrity eq (fileReader ext x data) false true = .ok true ∧
    ∀ t ∈ readTables g, (t.iterdicts ext x true false (data t.url)).warned = false := by
  rw [groupOf_iff.1 hg, valid_iff]
  simp only [mem_tables]

/-- **C57** Asking again gives the same answer, and nothing changes. -/
theorem C57_again {b : Bool} {d' : Dataset} (h : d.isValid ext x eq data = .ok (b, d')) :
    d'.desc = d.desc ∧ d'.isValid ext x eq data = .ok (b, d') := by
  have h0 := h
  unfold isValid at h
  cases hw : d.warned with
  | true =>
    rw [hw] at h
    simp only [if_true, Except.ok.injEq, Prod.mk.injEq] at h
    obtain ⟨rfl, rfl⟩ := h
    exact ⟨rfl, h0⟩
  | false =>
    rw [hw] at h
    simp only [Bool.false_eq_true, if_false] at h
    cases hc : checkTables ext x eq data d.tables with
    | error e => rw [hc] at h; simp at h
    | ok w =>
      rw [hc] at h
      simp only at h
      cases hi : d.tablegroup.checkReferentialIntegrity eq (reader ext x data) false true with
      | error e => rw [hi] at h; simp at h
      | ok c =>
        rw [hi] at h
        simp only [Except.ok.injEq, Prod.mk.injEq] at h
        obtain ⟨h1, h2⟩ := h
        refine ⟨by rw [← h2], ?_⟩
        cases b with
        | true =>
          have : d' = d := by
            rw [← h2]
            rw [Bool.not_eq_true'] at h1
            rw [h1]
            cases d
            simp only at hw
            rw [hw]
          rw [this] at h0 ⊢
          exact h0
        | false =>
          rw [Bool.not_eq_false'] at h1
          have : d'.warned = true := by rw [← h2]; exact h1
          unfold isValid
          rw [this]
          simp

/-! ## Cells -/

theorem readLax_ok {c : CCol} {v : Str} {w : CVal} (h : c.readLax ext v = (.ok w, false)) : c.read ext v = .ok w := by
  unfold CCol.readLax at h
  unfold CCol.read
  simp only at h ⊢
  split at h
  · simp at h
  · rename_i hr
    rw [if_neg hr]
    cases hp : c.prepare (c.orDefault v) with
    | error e => rw [hp] at h; simp at h
    | ok r =>
      rw [hp] at h
      cases r with
      | none => simp only [Prod.mk.injEq] at h; exact h.1
      | one s => simp only [Prod.mk.injEq] at h; exact h.1
      | many l =>
        simp only at h ⊢
        split at h
        · simp at h
        · simp only [Prod.mk.injEq] at h; exact h.1

theorem storeCell_inv {log : Bool} {st st' : RowSt} {c : CCol} {v : Str} {p : Res CVal × Bool}
    (h : storeCell false log st c v p = .ok st') (hw : st'.warned = false) : st.warned = false ∧ ∃ w, p = (.ok w, false) := by
  unfold storeCell at h
  split at h
  · cases h
    simp only [Bool.or_eq_false_iff] at hw
    exact ⟨hw.1, _, by rw [hw.2]⟩
  · simp only [Bool.false_eq_true, if_false] at h
    cases h
    simp at hw
  · simp at h

theorem cellLoop_inv {log : Bool} {hs : List HCol} {vs : List Str} {st st' : RowSt}
    (h : cellLoop ext false log st hs vs = .ok st') (hw : st'.warned = false) :
    st.warned = false ∧ ∀ (j : Nat) (e : HCol) (v : Str) (c : CCol), hs[j]? = some e → vs[j]? = some v → e.col = some c → (∃ w, c.read ext v = .ok w) ∧ c.readWarns ext v = false := by
  induction hs generalizing st vs with
  | nil =>
    unfold cellLoop at h
    cases h
    exact ⟨hw, fun j e v c h => by simp at h⟩
  | cons e hs ih =>
    cases vs with
    | nil =>
      unfold cellLoop at h
      cases h
      exact ⟨hw, fun j e v c _ h => by simp at h⟩
    | cons v vs =>
      unfold cellLoop at h
      cases hc : cellStep ext false log st e v with
      | error e => rw [hc] at h; simp at h
      | ok st1 =>
        rw [hc] at h
        obtain ⟨i1, i2⟩ := ih h
        unfold cellStep at hc
        cases hcol : e.col with
        | none =>
          rw [hcol] at hc
          cases hc
          simp only [Bool.or_false] at i1
          refine ⟨i1, ?_⟩
          intro j e' v' c h1 h2 h3
          cases j with
          | zero => simp at h1; subst h1; rw [hcol] at h3; simp at h3
          | succ j => exact i2 j e' v' c (by simpa using h1) (by simpa using h2) h3
        | some c0 =>
          rw [hcol] at hc
          simp only [Bool.false_eq_true, if_false] at hc
          cases hst : storeCell false log st c0 v (c0.readLax ext v) with
          | error e => rw [hst] at hc; simp at hc
          | ok st2 =>
            rw [hst] at hc
            cases hc
            simp only [Bool.or_eq_false_iff] at i1
            obtain ⟨s1, w, s2⟩ := storeCell_inv hst i1.1
            refine ⟨s1, ?_⟩
            intro j e' v' c h1 h2 h3
            cases j with
            | zero =>
              simp at h1 h2; subst h1 h2
              rw [hcol] at h3
              cases h3
              exact ⟨⟨w, readLax_ok s2⟩, i1.2⟩
            | succ j => exact i2 j e' v' c (by simpa using h1) (by simpa using h2) h3

theorem rowStep_inv {t : Table} {log : Bool} {hs : List HCol} {row : List Str} {res : RowDict} {b : Bool}
    (h : rowStep ext x t false log hs row = .ok (res, b, false)) :
    ∀ (j : Nat) (e : HCol) (v : Str) (c : CCol), hs[j]? = some e → row[j]? = some v → e.col = some c → (∃ w, c.read ext v = .ok w) ∧ c.readWarns ext v = false := by
  unfold rowStep at h
  cases hc : cellLoop ext false log { required := requiredKeys hs } hs row with
  | error e => rw [hc] at h; simp at h
  | ok st =>
    rw [hc] at h
    simp only at h
    cases hr : checkRequired log st with
    | error e => rw [hr] at h; simp at h
    | ok st' =>
      rw [hr] at h
      simp only at h
      have hww : st'.warned = st.warned := by
        unfold checkRequired logOrRaise at hr
        split at hr
        · split at hr
          · cases hr; rfl
          · simp at hr
        · cases hr; rfl
      cases ha : addVirtual x (addMissing st'.res t.colnames) t.virtualCols with
      | error e => rw [ha] at h; simp at h
      | ok q =>
        rw [ha] at h
        simp only [Except.ok.injEq, Prod.mk.injEq] at h
        exact (cellLoop_inv hc (by rw [← hww]; exact h.2.2)).2

theorem iterRows_inv {t : Table} {log : Bool} {err : Option PyErr} {hs : List HCol} (hne : hs ≠ []) {rows : List (Int × List Str)}
    (he : (iterRows ext x t false log err hs rows).err = none) (hw : (iterRows ext x t false log err hs rows).warned = false) :
    err = none ∧
    ∀ r ∈ rows, ∀ (j : Nat) (e : HCol) (v : Str) (c : CCol), hs[j]? = some e → r.2[j]? = some v → e.col = some c → (∃ w, c.read ext v = .ok w) ∧ c.readWarns ext v = false := by
  induction rows with
  | nil => exact ⟨he, fun _ h => by simp at h⟩
  | cons r rs ih =>
    obtain ⟨n, row⟩ := r
    unfold iterRows at he hw
    rw [rowCols_of_ne hne] at he hw
    cases hr : rowStep ext x t false log hs row with
    | error e => rw [hr] at he; simp at he
    | ok o =>
      obtain ⟨res, bad, w⟩ := o
      rw [hr] at he hw
      simp only [Bool.or_eq_false_iff] at he hw
      obtain ⟨i1, i2⟩ := ih he hw.2
      refine ⟨i1, ?_⟩
      intro q hq
      rcases List.mem_cons.1 hq with rfl | hq
      · rw [hw.1] at hr; exact rowStep_inv hr
      · exact i2 q hq

theorem iterRows_err {t : Table} {strict log : Bool} {err : Option PyErr} {hs : List HCol} {rows : List (Int × List Str)}
    (he : (iterRows ext x t strict log err hs rows).err = none) : err = none := by
  induction rows generalizing hs with
  | nil => exact he
  | cons r rs ih =>
    obtain ⟨n, row⟩ := r
    unfold iterRows at he
    cases hr : rowStep ext x t strict log (rowCols hs row) row with
    | error e => rw [hr] at he; simp at he
    | ok o => rw [hr] at he; exact ih he

theorem matchCols_get {t : Table} {header : List Str} {l : List (Str × Option CCol)} (h : matchCols t false header = .ok l) {j : Nat}
    {c : CCol} (hj : t.ccols[j]? = some c) (hl : j < header.length) : ∃ k, l[j]? = some (k, some c) := by
  unfold matchCols at h
  split at h
  · cases h
    refine ⟨header[j], ?_⟩
    rw [List.getElem?_zip_eq_some]
    exact ⟨List.getElem?_eq_getElem hl, by simp [hj]⟩
  · split at h
    · cases h
      refine ⟨header[j], ?_⟩
      rw [List.getElem?_mapIdx, List.getElem?_eq_getElem hl]
      simp [hj]
    · rename_i _ hn
      exfalso
      apply hn
      refine ⟨rfl, fun h => ?_⟩
      rw [h] at hj
      simp at hj

/-- The number of cells in the header, or, without header, of (non-virtual) columns. -/
def headerLength (t : Table) (rows : List (Int × List Str)) : Nat :=
  if t.getDialect.header then match rows with
    | [] => 0
    | r :: _ => r.2.length
  else t.colnames.length

/-- The rows after the header. -/
def bodyRows (t : Table) (rows : List (Int × List Str)) : List (Int × List Str) :=
  if t.getDialect.header then rows.drop 1 else rows

theorem valid_cells {d' : Dataset} (h : d.isValid ext x eq data = .ok (true, d')) {t : Table} (ht : TableIn d t)
    {rows : List (Int × List Str)} {err : Option PyErr} (hr : DataRows t (data t.url) rows err) :
    err = none ∧ ∀ r ∈ bodyRows t rows, ∀ (j : Nat) (col : Column) (v : Str), j < headerLength t rows → t.schema.columns[j]? = some col → r.2[j]? = some v →
      (∃ w, (CCol.mk col t.parents).read ext v = .ok w) ∧ (CCol.mk col t.parents).readWarns ext v = false := by
  have hv := (valid_iff.1 ⟨d', h⟩).2.1 t (mem_tables.2 ht)
  have he := hv.readable
  have hw := hv.noWarning
  rw [iterdicts_eq hr] at he hw
  have key : ∀ header body, (iterBody ext x t false false header body err).err = none →
      (iterBody ext x t false false header body err).warned = false →
      err = none ∧ ∀ r ∈ body, ∀ (j : Nat) (col : Column) (v : Str), j < header.length → t.schema.columns[j]? = some col → r.2[j]? = some v →
        (∃ w, (CCol.mk col t.parents).read ext v = .ok w) ∧ (CCol.mk col t.parents).readWarns ext v = false := by
    intro header body h1 h2
    unfold iterBody at h1 h2
    cases hm : matchCols t false header with
    | error e => rw [hm] at h1; simp at h1
    | ok l =>
      rw [hm] at h1 h2
      simp only at h1 h2
      split at h1
      · simp at h1
      · rename_i hmis
        rw [if_neg hmis] at h2
        refine ⟨iterRows_err h1, ?_⟩
        intro r hr' j col v hj hcol hcell
        have hcc : t.ccols[j]? = some ⟨col, t.parents⟩ := by
          unfold ccols
          rw [List.getElem?_map, hcol]
          rfl
        obtain ⟨k, hk⟩ := matchCols_get hm hcc hj
        have hidx : (indexed l)[j]? = some ⟨j, k, some ⟨col, t.parents⟩⟩ := by
          unfold indexed
          rw [List.getElem?_mapIdx, hk]
          rfl
        have hne : indexed l ≠ [] := by intro h0; rw [h0] at hidx; simp at hidx
        exact (iterRows_inv hne h1 h2).2 r hr' j _ v _ hidx hcell rfl
  unfold iterEvents at he hw
  unfold bodyRows headerLength
  cases hd : t.getDialect.header with
  | false =>
    rw [hd] at he hw
    exact key _ _ he hw
  | true =>
    rw [hd] at he hw
    simp only [if_true] at he hw ⊢
    cases rows with
    | nil => exact ⟨he, fun _ h => by simp at h⟩
    | cons r0 r =>
      simp only [Bool.or_eq_false_iff] at he hw
      simp only [List.drop_succ_cons, List.drop_zero]
      exact key _ _ he hw.2

/-! ## Keys -/

/-- **C57** If `is_valid` returns `True`, then the data of each table can be read completely, and every cell of a described column
(the `j`-th column of the schema describes the `j`-th cell) holds a valid value. -/
theorem C57_cells {d' : Dataset} (h : d.isValid ext x eq data = .ok (true, d')) {t : Table} (ht : TableIn d t)
    {rows : List (Int × List Str)} {err : Option PyErr} (hr : DataRows t (data t.url) rows err) :
    err = none ∧ ∀ r ∈ bodyRows t rows, ∀ (j : Nat) (col : Column) (v : Str), j < headerLength t rows → t.schema.columns[j]? = some col → r.2[j]? = some v →
      ∃ w, (CCol.mk col t.parents).read ext v = .ok w := by
  have := valid_cells h ht hr
  exact ⟨this.1, fun r h1 j col v h2 h3 h4 => (this.2 r h1 j col v h2 h3 h4).1⟩

/-- **C57** … and no cell of a column of decimal numbers (without separator) is `INF`, `-INF` or `NaN`, unless this stands for no value. -/
theorem C57_special {d' : Dataset} (h : d.isValid ext x eq data = .ok (true, d')) {t : Table} (ht : TableIn d t)
    {rows : List (Int × List Str)} {err : Option PyErr} (hr : DataRows t (data t.url) rows err) {r : Int × List Str} (hm : r ∈ bodyRows t rows)
    {j : Nat} {col : Column} {v : Str} (hj : j < headerLength t rows) (hc : t.schema.columns[j]? = some col) (hv : r.2[j]? = some v)
    {dt : Datatype} (hd : (CCol.mk col t.parents).datatype = some dt) (hk : dt.base.kind = .decimal)
    (hs : (CCol.mk col t.parents).separator = .ok none) (hn : v ∉ (CCol.mk col t.parents).null) :
    v ≠ "INF".toList ∧ v ≠ "-INF".toList ∧ v ≠ "NaN".toList := by
  obtain ⟨⟨w, hw⟩, hww⟩ := (valid_cells h ht hr).2 r hm j col v hj hc hv
  generalize CCol.mk col t.parents = c at *
  by_cases hv0 : v = []
  · subst hv0; decide
  have hod : c.orDefault v = v := by
    unfold CCol.orDefault; rw [if_neg hv0]
  have hp : c.prepare v = .ok (.one v) := by
    unfold CCol.prepare; rw [hs]; simp only [if_neg hn]
  unfold CCol.read at hw
  unfold CCol.readWarns at hww
  simp only [hod, hn, decide_false, Bool.and_false, Bool.false_eq_true, if_false, hp, hd] at hw hww
  have hread : ∃ u, dt.read ext v = .ok u := by
    simp only [CCol.applyDt, CCol.readItem] at hw
    cases hu : dt.read ext v with
    | ok u => exact ⟨u, rfl⟩
    | error e => rw [hu] at hw; simp [Except.map] at hw
  obtain ⟨u, hu⟩ := hread
  have hns : Datatypes.special v = none := by
    cases hsp : Datatypes.special v with
    | none => rfl
    | some q =>
      exfalso
      unfold Datatype.read Datatype.parse at hu
      unfold Datatype.parseWarns at hww
      cases hde : dt.descr ext with
      | error e => rw [hde] at hu; simp at hu
      | ok de =>
        rw [hde] at hu hww
        simp only [hk, Bool.or_eq_false_iff] at hu hww
        unfold Datatypes.toPython at hu
        simp only [hk] at hu
        cases hf : Datatypes.numFmtOf de with
        | error e => rw [hf] at hu; simp at hu
        | ok f =>
          rw [hf] at hu hww
          simp only at hu hww
          unfold Datatypes.decWarns at hww
          cases hdd : Datatypes.decToPython f v with
          | error e => rw [hdd] at hu; simp [Except.map] at hu
          | ok y => rw [hsp, hdd] at hww; simp at hww
  refine ⟨?_, ?_, ?_⟩ <;> (rintro rfl; revert hns; decide)


theorem pkLoop_inv {key : List Str} {err : Option PyErr} {rows : List RowDict} {seen : List (List CVal)} {ok b : Bool}
    (h : pkLoop eq false key err seen ok rows = .ok b) : err = none ∧ ∀ r ∈ rows, HasKey key r := by
  induction rows generalizing seen ok with
  | nil =>
    unfold pkLoop at h
    cases err with
    | none => exact ⟨rfl, fun _ h => by simp at h⟩
    | some e => simp at h
  | cons r rs ih =>
    unfold pkLoop at h
    cases hk : getKey r key with
    | error e => rw [hk] at h; simp at h
    | ok vs =>
      obtain ⟨h1, h2⟩ := getKey_inv hk
      rw [hk] at h
      simp only at h
      cases hh : vs.all hashable with
      | false => rw [hh] at h; simp at h
      | true =>
        rw [hh] at h
        simp only [Bool.not_true, Bool.false_eq_true, if_false] at h
        split at h
        · simp at h
        · obtain ⟨i1, i2⟩ := ih h
          refine ⟨i1, ?_⟩
          intro q hq
          rcases List.mem_cons.1 hq with rfl | hq
          · intro c hc
            cases hg : Dict.get c q with
            | none =>
              have := h1 c hc
              rw [Dict.get_eq_none_iff] at hg
              exact absurd this hg
            | some v =>
              refine ⟨v, rfl, ?_⟩
              rw [h2] at hh
              have := List.all_eq_true.1 hh (valueOf q c) (List.mem_map_of_mem hc)
              simpa [valueOf, hg] using this
          · exact i2 q hq

/-- **C39** (no hypotheses on the data) If `check_primary_key` without log returns a value, then this is `True`, and no two valid rows
agree on the primary key. -/
theorem C39_sound {t : Table} {text : Str} {key : List Str} (hp : t.schema.primaryKey = some key) (hne : key ≠ []) {b : Bool}
    (h : t.checkPrimaryKey ext x eq false text = .ok b) : b = true ∧ NoDuplicateKey eq key (validRows ext x t text) := by
  have h' := h
  rw [checkPrimaryKey_eq hp hne] at h'
  obtain ⟨h1, h2⟩ := pkLoop_inv h'
  obtain ⟨n1, n2⟩ := C39_nolog (eq := eq) hp hne h1 h2
  by_cases hd : NoDuplicateKey eq key (validRows ext x t text)
  · rw [n1 hd] at h
    exact ⟨by cases h; rfl, hd⟩
  · rw [n2 hd] at h; simp at h

theorem pkLoop_err {log : Bool} {key : List Str} {err : Option PyErr} {rows : List RowDict} {seen : List (List CVal)} {ok b : Bool}
    (h : pkLoop eq log key err seen ok rows = .ok b) : err = none := by
  induction rows generalizing seen ok with
  | nil =>
    unfold pkLoop at h
    cases err with
    | none => rfl
    | some e => cases h
  | cons r rs ih =>
    unfold pkLoop at h
    repeat' split at h
    all_goals first | (cases h; done) | exact ih h

/-- **C39** (exact, no hypotheses) `check_primary_key` returns `True`, with or without log, if and only if the data can be read, all valid rows
have hashable values for the key, and no two of them agree on it. -/
theorem C39_iff {t : Table} {text : Str} {key : List Str} (hp : t.schema.primaryKey = some key) (hne : key ≠ []) {log : Bool} :
    t.checkPrimaryKey ext x eq log text = .ok true ↔ (t.iterdicts ext x true true text).err = none ∧
      (∀ r ∈ validRows ext x t text, HasKey key r) ∧ NoDuplicateKey eq key (validRows ext x t text) := by
  constructor
  · intro h
    have h1 : (t.iterdicts ext x true true text).err = none := by
      have h' := h
      rw [checkPrimaryKey_eq hp hne] at h'
      exact pkLoop_err h'
    have h2 : ∀ r ∈ validRows ext x t text, HasKey key r := by
      cases log with
      | false =>
        rw [checkPrimaryKey_eq hp hne] at h
        exact (pkLoop_inv h).2
      | true =>
        intro r hr
        by_cases hk : HasKey key r
        · exact hk
        · rcases C39_unusable (ext := ext) (x := x) (eq := eq) hp hne ⟨r, hr, hk⟩ with h3 | h3 <;> rw [h3] at h <;> cases h
    refine ⟨h1, h2, ?_⟩
    cases log with
    | false => exact (C39_sound hp hne h).2
    | true =>
      obtain ⟨b, hb, hiff⟩ := C39_log (eq := eq) hp hne h1 h2
      rw [hb] at h
      exact hiff.1 (by cases h; rfl)
  · rintro ⟨h1, h2, h3⟩
    cases log with
    | false => exact (C39_nolog (eq := eq) hp hne h1 h2).1 h3
    | true =>
      obtain ⟨b, hb, hiff⟩ := C39_log (eq := eq) hp hne h1 h2
      rw [hb, hiff.2 h3]

/-- **C57** If `is_valid` returns `True`, no two valid rows of a table agree on its primary key. -/
theorem C57_keys {d' : Dataset} (h : d.isValid ext x eq data = .ok (true, d')) {t : Table} (ht : TableIn d t) {key : List Str}
    (hp : t.schema.primaryKey = some key) (hne : key ≠ []) : NoDuplicateKey eq key (validRows ext x t (data t.url)) :=
  (C39_sound hp hne ((valid_iff.1 ⟨d', h⟩).2.1 t (mem_tables.2 ht)).key).2

/-- **C57** If `is_valid` returns `True`, then all foreign keys reference tables and columns of the group; the data of all tables involved
are read in strict mode without exception; no foreign key column is `None`; all references are found, in exactly one row. -/
theorem C57_references {d' : Dataset} (h : d.isValid ext x eq data = .ok (true, d')) {g : TableGroup} (hg : GroupOf d g) :
    g.validateSchema false = .ok () ∧
    (∀ t fk, IsForeignKey g t fk → Checkable (fileReader ext x data) false g t fk) ∧
    AllSatisfied eq (fun t => rowsOf (fileReader ext x data t false)) g ∧
    AllUnique eq (fun t => rowsOf (fileReader ext x data t false)) g ∧
    ∀ t ∈ g.tables, ∀ fk ∈ t.schema.foreignKeys, ¬ NullInKey (fileReader ext x data) t fk := by
  rw [groupOf_iff.1 hg]
  obtain ⟨h1, h2, h3, h4⟩ := C40_sound (valid_iff.1 ⟨d', h⟩).2.2.1
  exact ⟨h1, h2, h3, (h4 rfl).1, (h4 rfl).2⟩

/-- **C57** After a warning while loading, `is_valid` is `False`, whatever the data. -/
theorem C57_warned (h : d.warned = true) : d.isValid ext x eq data = .ok (false, d) := by
  unfold isValid; rw [h]; rfl

end

/-! ## Examples -/

/-- A table with an integer column which is the primary key. -/
def keyedTable : Table :=
  { schema := { columns := [{ name := some "a".toList, number := 1, props := { datatype := .dtype { base := .integer } } }]
                primaryKey := some ["a".toList] }
    url := "t.csv".toList }

/-- A data set of one table. -/
def keyedData : Dataset := { desc := .inl keyedTable }

theorem keyed_valid_rows : DataRows keyedTable "a\n5\n6\n".toList [(1, [['a']]), (2, [['5']]), (3, [['6']])] none :=
  ⟨_, rfl, by decide +kernel, by decide +kernel⟩
theorem keyed_dup_rows : DataRows keyedTable "a\n5\n5\n".toList [(1, [['a']]), (2, [['5']]), (3, [['5']])] none :=
  ⟨_, rfl, by decide +kernel, by decide +kernel⟩
theorem keyed_bad_rows : DataRows keyedTable "a\nx\n".toList [(1, [['a']]), (2, [['x']])] none :=
  ⟨_, rfl, by decide +kernel, by decide +kernel⟩

theorem keyed_isValid (ext : Ext) (x : MExt) (eq : PyEq) (data : Str → Str) :
    keyedData.isValid ext x eq data = match (generalizing := false) checkTable ext x eq data keyedTable with
      | .error e => .error e
      | .ok w => .ok (!w, { keyedData with warned := w }) := by
  have hr : keyedData.tablegroup.checkReferentialIntegrity eq (reader ext x data) false true = .ok true := by
    have h1 : keyedData.tablegroup.foreignKeys = .ok [] := rfl
    have h2 : keyedData.tablegroup.schemaOk false = .ok true := rfl
    have h3 : (keyedData.tablegroup.tables.flatMap fun t => t.schema.foreignKeys.map fun fk => (t, fk)) = [] := rfl
    unfold checkReferentialIntegrity
    rw [h1, h2, h3]
    simp [nullChecks, groupBy, tableGroups]
  unfold isValid
  rw [hr]
  have : keyedData.tables = [keyedTable] := rfl
  rw [this]
  unfold checkTables checkTables
  cases checkTable ext x eq data keyedTable with
  | error e => rfl
  | ok w => cases w <;> rfl

theorem checkTable_keyed {text : Str} {rows : List (Int × List Str)} (h : DataRows keyedTable text rows none) (ext : Ext) (x : MExt) (eq : PyEq) :
    checkTable ext x eq (fun _ => text) keyedTable =
      match (generalizing := false) (iterEvents ext x keyedTable false false rows none).err with
      | some e => .error e
      | none => match (generalizing := false) pkLoop eq false [['a']] (iterEvents ext x keyedTable true true rows none).err [] true
            ((iterEvents ext x keyedTable true true rows none).rows.map Prod.snd) with
        | .error e => .error e
        | .ok b => .ok ((iterEvents ext x keyedTable false false rows none).warned || (iterEvents ext x keyedTable true true rows none).warned || !b) := by
  unfold checkTable keyWarns Table.checkPrimaryKey
  simp only [iterdicts_eq h]
  rfl

/-- Non-vacuity: the data set is valid with the data `5` and `6`, if Python's equality tells these apart. -/
theorem C57_example (ext : Ext) (x : MExt) (eq : PyEq) (heq : eq (.one (.int 5)) (.one (.int 6)) = false) :
    keyedData.isValid ext x eq (fun _ => "a\n5\n6\n".toList) = .ok (true, keyedData) := by
  rw [keyed_isValid, checkTable_keyed keyed_valid_rows]
  have h1 : iterEvents ext x keyedTable true true [(1, [['a']]), (2, [['5']]), (3, [['6']])] none =
    { rows := [(2, [(['a'], .one (.int 5))]), (3, [(['a'], .one (.int 6))])] } := rfl
  have h2 : iterEvents ext x keyedTable false false [(1, [['a']]), (2, [['5']]), (3, [['6']])] none =
    { rows := [(2, [(['a'], .one (.int 5))]), (3, [(['a'], .one (.int 6))])] } := rfl
  rw [h1, h2]
  simp [pkLoop, getKey, Dict.get, hashable, keyEq, heq, keyedData]

/-- An invalid cell makes `is_valid` return `False`. -/
theorem C57_example_cell (ext : Ext) (x : MExt) (eq : PyEq) :
    ∃ d, keyedData.isValid ext x eq (fun _ => "a\nx\n".toList) = .ok (false, d) := by
  rw [keyed_isValid, checkTable_keyed keyed_bad_rows]
  have h1 : iterEvents ext x keyedTable true true [(1, [['a']]), (2, [['x']])] none = {} := rfl
  have h2 : iterEvents ext x keyedTable false false [(1, [['a']]), (2, [['x']])] none =
    { rows := [(2, [(['a'], .one (.str ['x']))])], warned := true } := rfl
  rw [h1, h2]
  simp [pkLoop]

/-- **C57** `is_valid` does not return `False` for a duplicate primary key (nor for missing references), but raises
`ValueError`. -/
theorem C57_duplicate_raises (ext : Ext) (x : MExt) (eq : PyEq) (heq : eq (.one (.int 5)) (.one (.int 5)) = true) :
    keyedData.isValid ext x eq (fun _ => "a\n5\n5\n".toList) = .error .valueError := by
  rw [keyed_isValid, checkTable_keyed keyed_dup_rows]
  have h1 : iterEvents ext x keyedTable true true [(1, [['a']]), (2, [['5']]), (3, [['5']])] none =
    { rows := [(2, [(['a'], .one (.int 5))]), (3, [(['a'], .one (.int 5))])] } := rfl
  have h2 : iterEvents ext x keyedTable false false [(1, [['a']]), (2, [['5']]), (3, [['5']])] none =
    { rows := [(2, [(['a'], .one (.int 5))]), (3, [(['a'], .one (.int 5))])] } := rfl
  rw [h1, h2]
  simp [pkLoop, getKey, Dict.get, hashable, keyEq, heq]

/-- **C57 is violated** for other names of special values: they are valid decimal numbers, without a warning. -/
theorem C57_violated_infinity (ext : Ext) (v : Str) (hv : v = "Infinity".toList ∨ v = "inf".toList ∨ v = "nan".toList) :
    (∃ w, ({ base := .decimal } : Datatype).read ext v = .ok w) ∧ ({ base := .decimal } : Datatype).parseWarns ext v = false := by
  rcases hv with rfl | rfl | rfl <;> exact ⟨⟨_, rfl⟩, rfl⟩

end Csvw.Props
