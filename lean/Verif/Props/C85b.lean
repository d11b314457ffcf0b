import Verif.Props.C85
import Verif.Props.C57
/-!
# C85: what the checks of the library accept can be converted to SQLite
-/

namespace Csvw.Props
open Csvw Csvw.Py Csvw.Spec Csvw.Db Csvw.Table Csvw.Datatypes

/-- Values of the same type (string, integer, boolean or bytes), or the second is `None`. -/
inductive SameType : Val → Val → Prop where
  | str (a b : Str) : SameType (.str a) (.str b)
  | int (a b : Int) : SameType (.int a) (.int b)
  | bool (a b : Bool) : SameType (.bool a) (.bool b)
  | bytes (a b : List UInt8) : SameType (.bytes a) (.bytes b)
  | none (v : Val) (h : v ≠ .none) : SameType v .none

/-- What is assumed of Python's equality. -/
def ExactEq (eq : PyEq) : Prop := ∀ v w, SameType v w → (eq (.one v) (.one w) = true ↔ v = w)

/-- The conditions on the rows of a table which are not checked by the library: they have no columns which are not described; their values can be stored;
primary keys are not null, and neither 0 nor empty in tables with list-valued foreign keys. -/
structure RowsStorable (ext : Ext) (t : Table) (rows : List RowDict) : Prop where
  safe : ∀ row ∈ rows, ∀ p ∈ row, ∀ w, p.2 = .one w → Safe w
  described : ∀ row ∈ rows, ∀ k ∈ Dict.keys row, ∃ c ∈ t.schema.columns, c.header = k
  key : ∀ pk, t.schema.primaryKey = some pk → ∀ row ∈ rows, ∀ k ∈ pk, Dict.get k row ≠ some (.one .none)
  links : ∀ fk ∈ t.schema.foreignKeys, fk.schemaReference = none → ListValuedKey t fk → ∀ pk, t.schema.primaryKey = some [pk] →
    ∀ row ∈ rows, ∀ w, Dict.get pk row = some (.one w) → w.truthy ext = true

/-- A table group, the data of which was read, which can be converted to a database, apart from what is checked by the library. `data` is the content of the files. -/
structure GroupStorable (ext : Ext) (fx : FExt) (d : Disk) (data : Str → Str) (g : FGroup) (items : List (Str × List RowDict)) : Prop where
  expressible : Expressible g.desc.group
  acyclic : NoCycles g.desc.group true
  fresh : FreshNames g.desc.group
  few : ∃ names, CoversNames g.desc.group names ∧ names.length ≤ 100
  names : ∀ s s', IsSqlTable g.desc.group true s → IsSqlTable g.desc.group true s' → foldName s.name = foldName s'.name → s = s'
  plain : ∀ s, IsSqlTable g.desc.group true s → PlainNames s
  tables : ∀ t, TableNamed g.desc.group t.url t → TableConvertible g.desc.group t
  /-- The column of a list-valued foreign key has the datatype of the column referenced. -/
  links : ∀ t, TableNamed g.desc.group t.url t → ∀ fk ∈ t.schema.foreignKeys, fk.schemaReference = none → ListValuedKey t fk →
    ∀ r u, fk.resource = some r → TableNamed g.desc.group r u → ∀ c ∈ t.ccols, ∀ k, fk.columnReference = [c.col.header] → fk.refColumns = [k] →
    ∃ c', KeyColumn u k c' ∧ columnBase c = columnBase c'
  files : ∀ t, TableNamed g.desc.group t.url t → (∀ text, FileText fx d g.fname t text ↔ text = data t.url) ∧ Aligned t (data t.url)
  rows : ∀ t rows, TableNamed g.desc.group t.url t → Dict.get t.url items = some rows → RowsStorable ext t rows

/-- A table group, the data of which was read, which can be converted to a database and passes the checks of the library: of the primary keys
of all tables, and of referential integrity. `data` is the content of the files. -/
structure GroupChecked (ext : Ext) (x : MExt) (fx : FExt) (eq : PyEq) (d : Disk) (data : Str → Str) (g : FGroup) (items : List (Str × List RowDict)) :
    Prop extends GroupStorable ext fx d data g items where
  keys : ∀ t, TableNamed g.desc.group t.url t → t.checkPrimaryKey ext x eq false (data t.url) = .ok true
  references : ∃ strict, g.desc.group.checkReferentialIntegrity eq (fileReader ext x data) false strict = .ok true

/-! ## Proof -/

section
variable {ext : Ext} {x : MExt} {t : Table}

theorem iterRows_log_same {err : Option PyErr} {hs : List HCol} {rows : List (Int × List Str)}
    (h : (iterRows ext x t true false err hs rows).err = none) :
    (iterRows ext x t true true err hs rows).rows = (iterRows ext x t true false err hs rows).rows := by
  induction rows generalizing hs with
  | nil => rfl
  | cons p r ih =>
    obtain ⟨n, row⟩ := p
    unfold iterRows at h ⊢
    cases hl : rowStep ext x t true true (rowCols hs row) row with
    | error e =>
      obtain ⟨e', he'⟩ := rowStep_log_error hl
      rw [he'] at h
      simp at h
    | ok o =>
      obtain ⟨res, bad, w⟩ := o
      cases bad with
      | true =>
        rw [rowStep_log_bad hl] at h
        simp at h
      | false =>
        rw [rowStep_log_good hl] at h ⊢
        simp only [Bool.false_eq_true, if_false] at h ⊢
        rw [ih h]

theorem iterdicts_log_same {text : Str} (h : (t.iterdicts ext x true false text).err = none) :
    (t.iterdicts ext x true true text).rows = (t.iterdicts ext x true false text).rows := by
  have hbody : ∀ header rows err, (iterBody ext x t true false header rows err).err = none →
      (iterBody ext x t true true header rows err).rows = (iterBody ext x t true false header rows err).rows := by
    intro header rows err h
    unfold iterBody at h ⊢
    split at h
    · rfl
    · split at h
      · rename_i hm
        simp only [hm, if_true]
      · rename_i hm
        simp only [hm]
        exact iterRows_log_same h
  unfold Table.iterdicts at h ⊢
  split at h
  · rfl
  · simp only at h ⊢
    unfold iterEvents at h ⊢
    split at h
    · rename_i hd
      simp only [hd, if_true]
      split at h
      · rfl
      · exact hbody _ _ _ h
    · rename_i hd
      simp only [hd]
      exact hbody _ _ _ h

end

/-- The value is of the type of the datatype. -/
def ExactOf (b : Base) (w : Val) : Prop :=
  (TextBase b ∧ ∃ y, w = .str y) ∨ (b = .integer ∧ ∃ i, w = .int i) ∨ (b = .boolean ∧ ∃ y, w = .bool y) ∨ (b = .hexBinary ∧ ∃ y, w = .bytes y)

theorem exactOf_value {b : Base} (hb : ExactBase b) {w : Val} (h : ValueOf b w) : ExactOf b w := by
  unfold ExactOf
  rcases hb with hb | rfl | rfl | rfl
  · unfold TextBase at hb
    cases w <;> simp only [ValueOf] at h
    case str => exact .inl ⟨hb, _, rfl⟩
    case bool => exfalso; subst h; simp [Base.kind] at hb
    case dec => exfalso; obtain ⟨rfl, _⟩ := h; simp [Base.kind] at hb
    all_goals (exfalso; rcases hb with hb | hb | hb | hb <;> simp [hb] at h)
  · cases w <;> simp [ValueOf, TextBase, Base.kind] at h
    exact .inr (.inl ⟨rfl, _, rfl⟩)
  · cases w <;> simp [ValueOf, TextBase, Base.kind] at h
    exact .inr (.inr (.inl ⟨rfl, _, rfl⟩))
  · cases w <;> simp [ValueOf, TextBase, Base.kind] at h
    exact .inr (.inr (.inr ⟨rfl, _, rfl⟩))

theorem sameType_of {b : Base} {w w' : Val} (h : ExactOf b w) (h' : ExactOf b w' ∨ w' = .none) : SameType w w' := by
  have hT : ¬ TextBase .integer ∧ ¬ TextBase .boolean ∧ ¬ TextBase .hexBinary := by unfold TextBase; decide
  rcases h with ⟨hb, y, rfl⟩ | ⟨rfl, y, rfl⟩ | ⟨rfl, y, rfl⟩ | ⟨rfl, y, rfl⟩ <;>
    rcases h' with (⟨hb', z, rfl⟩ | ⟨hb', z, rfl⟩ | ⟨hb', z, rfl⟩ | ⟨hb', z, rfl⟩) | rfl <;> first
    | exact .str _ _
    | exact .int _ _
    | exact .bool _ _
    | exact .bytes _ _
    | exact .none _ (by simp)
    | (exfalso; simp_all)

section
variable {ext : Ext}

theorem toPython_exact {b : Base} (hb : ExactBase b) {dv : Derived} {s : Str} {w : Val} (h : toPython ext b dv s = .ok w) : ExactOf b w := by
  unfold ExactOf
  unfold toPython at h
  rcases hb with hb | rfl | rfl | rfl
  · refine .inl ⟨hb, ?_⟩
    unfold TextBase at hb
    rcases hb with hb | hb | hb | hb <;> rw [hb] at h <;> simp only at h
    · obtain ⟨y, -, rfl⟩ := Except.map_eq_ok.1 h
      exact ⟨_, rfl⟩
    · cases h; exact ⟨_, rfl⟩
    · cases h; exact ⟨_, rfl⟩
    · split at h
      · cases h
      · split at h
        · cases h; exact ⟨_, rfl⟩
        · cases h
  · simp only [Base.kind] at h
    split at h
    · cases h
    · obtain ⟨y, -, rfl⟩ := Except.map_eq_ok.1 h
      exact .inr (.inl ⟨rfl, _, rfl⟩)
  · simp only [Base.kind] at h
    split at h
    · obtain ⟨y, -, rfl⟩ := Except.map_eq_ok.1 h
      exact .inr (.inr (.inl ⟨rfl, _, rfl⟩))
    · cases h
  · simp only [Base.kind] at h
    split at h
    · split at h
      · cases h; exact .inr (.inr (.inr ⟨rfl, _, rfl⟩))
      · cases h
    · cases h

/-- The items of a list. -/
theorem read_items {c : CCol} (hb : ExactBase (columnBase c)) {s : Str} {l : List Val} (h : c.read ext s = .ok (.many l)) :
    ∀ w ∈ l, ExactOf (columnBase c) w ∨ w = .none := by
  unfold CCol.read at h
  simp only at h
  split at h
  · cases h
  · split at h
    · cases h
    · rename_i r _
      unfold columnBase at hb ⊢
      cases r with
      | none => cases hd : c.datatype <;> rw [hd] at h <;> simp [CCol.applyDt, CCol.readItem, Except.map] at h
      | one z =>
        cases hd : c.datatype with
        | none => rw [hd] at h; simp [CCol.applyDt] at h
        | some dt => rw [hd] at h; obtain ⟨y, -, hy⟩ := Except.map_eq_ok.1 h; cases hy
      | many m =>
        cases hd : c.datatype with
        | none =>
          rw [hd] at h
          have hl := (CVal.many.inj (Except.ok.inj h))
          subst hl
          intro w hw
          obtain ⟨o, _, rfl⟩ := List.mem_map.1 hw
          cases o with
          | none => exact .inr rfl
          | some z => exact .inl (.inl ⟨.inl rfl, _, rfl⟩)
        | some dt =>
          rw [hd] at h hb
          obtain ⟨ws, hws, hl⟩ := Except.map_eq_ok.1 h
          cases hl
          intro w hw
          rcases readItems_mem hws w hw with h1 | ⟨z, hz⟩
          · exact .inr h1
          · obtain ⟨⟨dv, hp⟩, _⟩ := read_parts hz
            exact .inl (toPython_exact hb hp)

end
theorem all2_zip {α β : Type} {R : α → β → Prop} {l : List α} {m : List β} (h : All2 R l m) : ∀ q ∈ l.zip m, R q.1 q.2 := by
  induction h with
  | nil => simp
  | cons h _ ih =>
    intro q hq
    rw [List.zip_cons_cons] at hq
    rcases List.mem_cons.1 hq with rfl | hq
    · exact h
    · exact ih q hq

section
variable {ext : Ext} {x : MExt} {fx : FExt} {eq : PyEq} {d : Disk} {data : Str → Str} {g : FGroup} {items : List (Str × List RowDict)}

theorem checked_rows (hc : GroupChecked ext x fx eq d data g items) (hr : g.read ext x fx d = .ok items) {t : Table}
    (ht : TableNamed g.desc.group t.url t) : Dict.get t.url items = some (TableGroup.rowsOf (fileReader ext x data t false)) ∧
      FileRows ext t (TableGroup.rowsOf (fileReader ext x data t false)) ∧
      RowsStorable ext t (TableGroup.rowsOf (fileReader ext x data t false)) ∧
      validRows ext x t (data t.url) = TableGroup.rowsOf (fileReader ext x data t false) := by
  obtain ⟨rows, h1, h2⟩ := items_of_table hr ht
  obtain ⟨text, h3, h4, rfl⟩ := readRows_text h1
  obtain ⟨h5, h6⟩ := hc.files t ht
  obtain rfl := (h5 text).1 h3
  have ht' := hc.tables t ht
  exact ⟨h2, file_rows ht'.noVirtual (nodup_headers ht'.headers.1) h6, hc.rows t _ ht h2, by
    unfold validRows
    rw [iterdicts_log_same h4]
    rfl⟩

/-- The value of a column of a primary key. -/
theorem checked_key (hc : GroupChecked ext x fx eq d data g items) (hr : g.read ext x fx d = .ok items) {t : Table}
    (ht : TableNamed g.desc.group t.url t) {k : Str} {c : CCol} (hk : KeyColumn t k c) {row : RowDict}
    (hrow : row ∈ TableGroup.rowsOf (fileReader ext x data t false)) :
    ∃ w, Dict.get k row = some (.one w) ∧ (w = .none ∨ ExactOf (columnBase c) w) := by
  obtain ⟨_, h2, h3, _⟩ := checked_rows hc hr ht
  obtain ⟨s, hs⟩ := fromTable_ok (drop := true) hc.expressible ht
  obtain ⟨h4, rfl, h5, h6⟩ := hk
  obtain ⟨w, hw, hor⟩ := key_value (hc.tables t ht) h2 h3.safe hs hrow h4 h5
  exact ⟨w, hw, hor.imp id (exactOf_value h6)⟩

/-- **C85** What passes the checks satisfies the conditions on data. -/
theorem checked_convertible (heq : ExactEq eq) (hc : GroupChecked ext x fx eq d data g items) (hr : g.read ext x fx d = .ok items) :
    GroupConvertible ext fx d g items := by
  obtain ⟨strict, hint⟩ := hc.references
  obtain ⟨_, _, hsat, _⟩ := C40_sound hint
  refine ⟨hc.expressible, hc.acyclic, hc.fresh, hc.few, hc.names, hc.plain, hc.tables, ?_, ?_⟩
  · intro t text ht hf
    obtain ⟨h1, h2⟩ := hc.files t ht
    obtain rfl := (h1 text).1 hf
    exact h2
  · intro t rows ht hrows
    obtain ⟨e1, hfr, hst, hval⟩ := checked_rows hc hr ht
    rw [e1] at hrows
    obtain rfl := Option.some.inj hrows
    have ht' := hc.tables t ht
    refine ⟨hst.safe, hst.described, ?_, ?_, ?_⟩
    · intro pk hpk hne
      refine ⟨hst.key pk hpk, ?_⟩
      have hd := (C39_sound hpk hne (hc.keys t ht)).2
      rw [hval] at hd
      unfold NoDuplicateKey at hd
      refine hd.imp_of_mem ?_
      intro row row' hrow hrow' hns
      refine Classical.byContradiction fun hcon => hns ?_
      intro k hk
      have he : Dict.get k row = Dict.get k row' := Classical.byContradiction fun h => hcon ⟨k, hk, h⟩
      obtain ⟨c, hkc⟩ := ht'.key k (by rw [hpk]; exact hk)
      obtain ⟨w, hw, hor⟩ := checked_key hc hr ht hkc hrow
      have hw' := he ▸ hw
      unfold valueOf
      rw [hw, hw']
      rcases hor with rfl | hex
      · exact absurd hw (hst.key pk hpk row hrow k hk)
      · exact (heq w w (sameType_of hex (.inl hex))).2 rfl
    · intro fk hfk hp r hres row hrow
      by_cases hnull : ∃ k ∈ fk.columnReference, Dict.get k row = some (.one .none)
      · exact .inl hnull
      · right
        obtain ⟨r', u, pk, h7, h8, h9, h10, h11, h12, h13, h14⟩ := ht'.foreign fk hfk hp
        rw [hres] at h7
        cases h7
        have hu : TableNamed g.desc.group u.url u := by rw [(tableNamed_mem h8).2]; exact h8
        obtain ⟨f1, f2, f3, _⟩ := checked_rows hc hr hu
        rw [(tableNamed_mem h8).2] at f1
        have hS := hsat t fk ⟨(tableNamed_mem ht).1, hfk, hp.1⟩ r u hres h8
        -- the values of the key
        have hvals : ∀ k ∈ fk.columnReference, ∃ w, valueOf row k = .one w ∧ w ≠ .none ∧ ∃ b, ExactOf b w := by
          intro k hk
          obtain ⟨i, hi, rfl⟩ := List.mem_iff_getElem.1 hk
          have hq : (fk.columnReference[i], fk.refColumns[i]'(by omega)) ∈ fk.columnReference.zip fk.refColumns := by
            rw [List.mem_iff_getElem]
            exact ⟨i, by simp; omega, by simp⟩
          obtain ⟨c, _, hkc, _⟩ := h14 _ hq
          obtain ⟨w, hw, hor⟩ := checked_key hc hr ht hkc hrow
          have hwn : w ≠ .none := by rintro rfl; exact hnull ⟨_, hk, hw⟩
          refine ⟨w, by unfold valueOf; rw [hw]; rfl, hwn, ?_⟩
          rcases hor with h | h
          · exact absurd h hwn
          · exact ⟨_, h⟩
        have hnn : ∀ k ∈ fk.columnReference, ¬ IsNone (valueOf row k) := by
          intro k hk hh
          obtain ⟨w, h1, h2, b, h3⟩ := hvals k hk
          rw [h1] at hh
          rcases hh with hh | hh
          · exact h2 (by injection hh)
          · injection hh with hh
            subst hh
            rcases h3 with ⟨_, _, h⟩ | ⟨_, _, h⟩ | ⟨_, _, h⟩ | ⟨_, _, h⟩ <;> cases h
        have hnl : ∀ k ∈ fk.columnReference, ∀ l, ¬ IsList (valueOf row k) l := by
          intro k hk l hh
          obtain ⟨w, h1, h2, b, h3⟩ := hvals k hk
          rw [h1] at hh
          cases hh
          rcases h3 with ⟨_, _, h⟩ | ⟨_, _, h⟩ | ⟨_, _, h⟩ | ⟨_, _, h⟩ <;> cases h
        have href : Reference fk.columnReference row (fk.columnReference.map (valueOf row)) := by
          cases hcols : fk.columnReference with
          | nil => exact absurd hcols h12
          | cons a l =>
            rw [hcols] at hnn hnl
            cases l with
            | nil => exact .value rfl (hnn a (by simp)) (hnl a (by simp))
            | cons b m => exact .composite (by simp) hnn
        obtain ⟨row', hrow', hm⟩ := hS row hrow _ href
        refine ⟨row', by rw [f1]; exact hrow', ?_⟩
        intro q hq
        obtain ⟨c, c', k1, k2, k3⟩ := h14 q hq
        obtain ⟨w, hw, hor⟩ := checked_key hc hr ht k1 hrow
        obtain ⟨w', hw', hor'⟩ := checked_key hc hr hu k2 hrow'
        have hq2 : q.2 ∈ pk := h10.symm.mem_iff.1 (List.of_mem_zip (a := q.1) (b := q.2) hq).2
        have hwn' : w' ≠ .none := by rintro rfl; exact f3.key pk h9 row' hrow' q.2 hq2 hw'
        have hE := all2_zip hm (q.2, valueOf row q.1) (by
          rw [List.mem_iff_getElem] at hq ⊢
          obtain ⟨i, hi, rfl⟩ := hq
          exact ⟨i, by simp only [List.length_zip, List.length_map] at hi ⊢; omega, by simp⟩)
        simp only [valueOf, hw, hw', Option.getD_some] at hE
        have hex' : ExactOf (columnBase c') w' := hor'.resolve_left hwn'
        have hor2 : ExactOf (columnBase c') w ∨ w = .none := by
          rw [← k3]
          exact hor.symm
        rw [hw, hw', (heq w' w (sameType_of hex' hor2)).1 hE]
    · intro fk hfk hsr hl r hres row hrow
      refine ⟨fun pk hpk w hw => hst.links fk hfk hsr hl pk hpk row hrow w hw, ?_⟩
      intro c k hcr hrc l hget w hw
      obtain ⟨r', u, k', h7, h8, h9, h10, _⟩ := ht'.links fk hfk hsr hl
      rw [hres] at h7
      cases h7
      rw [hrc] at h9
      cases h9
      have hu : TableNamed g.desc.group u.url u := by rw [(tableNamed_mem h8).2]; exact h8
      obtain ⟨f1, f2, f3, _⟩ := checked_rows hc hr hu
      rw [(tableNamed_mem h8).2] at f1
      have hS := hsat t fk ⟨(tableNamed_mem ht).1, hfk, hsr⟩ r u hres h8
      have hv : valueOf row c = .many l := by unfold valueOf; rw [hget]; rfl
      obtain ⟨row', hrow', hm⟩ := hS row hrow [.one w] (.item hcr (hv ▸ IsList.many l) (List.mem_map_of_mem hw))
      obtain ⟨col, hcol, he, _⟩ := hl
      rw [hcr] at he
      have hce : c = col.header := (List.cons.inj he).1
      subst hce
      have hcm : (⟨col, t.parents⟩ : CCol) ∈ t.ccols := List.mem_map.2 ⟨col, hcol, rfl⟩
      obtain ⟨c', hkc', hb⟩ := hc.links t ht fk hfk hsr ⟨col, hcol, hcr, by assumption⟩ r u hres h8 _ hcm k hcr hrc
      obtain ⟨w', hw', hor'⟩ := checked_key hc hr hu hkc' hrow'
      have hwn' : w' ≠ .none := by rintro rfl; exact f3.key [k] h10 row' hrow' k (by simp) hw'
      have hitem : ExactOf (columnBase c') w ∨ w = .none := by
        rw [← hb]
        rcases hfr.cells row hrow _ hcm _ hget with ⟨z, hz⟩ | ⟨hz, _⟩
        · exact read_items (by rw [hb]; exact hkc'.2.2.2) hz w hw
        · cases hz
      rw [hrc] at hm
      have hE := all2_zip hm (k, .one w) (by simp)
      simp only [valueOf, hw', Option.getD_some] at hE
      refine ⟨row', by rw [f1]; exact hrow', ?_⟩
      rw [hw', (heq w' w (sameType_of (hor'.resolve_left hwn') hitem)).1 hE]

/-! ## Theorems -/

variable {sx : SqlExt} {cmp : SqlCmp} {skip force : Bool} {old : Option Database}

/-- **C85** If the data of a table group can be read, and `check_primary_key` (for all tables) and `check_referential_integrity` return `True`, then the
data can be written to a database, provided that group and values are such that they can be expressed in SQL. -/
theorem C85_checked (heq : ExactEq eq) (hc : GroupChecked ext x fx eq d data g items) (hr : g.read ext x fx d = .ok items)
    (hp : ∀ t ∈ g.desc.group.tables, t.url ∉ writeParams)
    (hE : ∀ tables, schema g.desc.group true = .ok tables → Enforces sx cmp nameTranslator tables) (hI : ReadsIntegers sx)
    (hold : old = none ∨ force = true) :
    ∃ db, writeFromTg ext x fx sx nameTranslator skip force true d g old = (some db, none) ∧
      ∀ t, TableNamed g.desc.group t.url t → ∃ spec rows, fromTable t true = .ok spec ∧ Dict.get t.url items = some rows ∧
        ∃ u ∈ db, u.name = t.url ∧ All2 (StoresRow ext sx nameTranslator spec) rows u.rows :=
  C85_converts (checked_convertible heq hc hr) hr hp hE hI hold

end
end Csvw.Props
