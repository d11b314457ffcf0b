import Verif.Model.Csvw
import Verif.Py.Dict
/-!
# Parts of descriptions which do not matter for reading and writing data

Reading and writing data does not depend on common properties and `@`-properties, also of datatypes, and on the properties `ordered` and
`textDirection`; how empty titles are represented, and where the dialect is given, does not matter either.
-/

namespace Csvw

def Datatype.norm (d : Datatype) : Datatype := { d with atProps := [], common := [] }

theorem Datatype.read_norm (ext : Ext) (d : Datatype) (s : Str) : d.norm.read ext s = d.read ext s := rfl
theorem Datatype.formatted_norm (ext : Ext) (d : Datatype) (v : Val) : d.norm.formatted ext v = d.formatted ext v := rfl

def PVal.norm : PVal → PVal
  | .dtype d => .dtype d.norm
  | v => v

def Descr.norm (d : Descr) : Descr :=
  { d with datatype := d.datatype.norm, ordered := .null, textDirection := .null, common := [], atProps := [] }

/-- No titles. -/
def noTitles (t : Option NatLang) : Bool := decide (t = some []) || decide (t = some [(none, [])])

def normTitles (t : Option NatLang) : Option NatLang := if noTitles t then none else t

def Column.norm (c : Column) : Column :=
  { c with props := c.props.norm, titles := normTitles c.titles, suppressOutput := false }

def CCol.norm (c : CCol) : CCol := ⟨c.col.norm, c.parents.map Descr.norm⟩

def normKey : Option (List Str) → Option (List Str)
  | some [] => none
  | k => k

def Table.norm (t : Table) : Table :=
  { t with props := t.props.norm
           schema := { props := t.schema.props.norm, columns := t.schema.columns.map Column.norm, foreignKeys := t.schema.foreignKeys,
                       primaryKey := normKey t.schema.primaryKey }
           dialect := some t.getDialect
           group := t.group.map fun p => (p.1.norm, none) }

theorem first_norm (t : Option NatLang) : NatLang.first (normTitles t) = NatLang.first t := by
  unfold normTitles noTitles
  split
  · next h =>
    rw [Bool.or_eq_true, decide_eq_true_eq, decide_eq_true_eq] at h
    rcases h with h | h <;> subst h <;> rfl
  · rfl

theorem Column.header_norm (c : Column) : c.norm.header = c.header := by
  unfold Column.header Column.norm
  simp only [first_norm]

theorem PVal.norm_null {v : PVal} : v.norm = .json .null ↔ v = .json .null := by
  cases v <;> simp [PVal.norm]

theorem inherit_norm (p : Prp) (hp : p = .required ∨ p = .separator ∨ p = .datatype) (l : List Descr) :
    inherit p (l.map Descr.norm) = (inherit p l).norm := by
  have hg : ∀ d : Descr, d.norm.get p = (d.get p).norm := by
    intro d
    rcases hp with rfl | rfl | rfl <;> rfl
  induction l with
  | nil => rfl
  | cons d r ih =>
    cases r with
    | nil => exact hg d
    | cons d' r' =>
      simp only [List.map_cons, inherit, hg, PVal.norm_null] at ih ⊢
      split
      · exact ih
      · rfl

theorem inheritNull_norm (l : List Descr) : inheritNull (l.map Descr.norm) = inheritNull l := by
  induction l with
  | nil => rfl
  | cons d r ih =>
    cases r with
    | nil => rfl
    | cons d' r' =>
      simp only [List.map_cons, inheritNull] at ih ⊢
      rw [ih]
      rfl

namespace CCol

theorem chain_norm (c : CCol) : c.norm.chain = c.chain.map Descr.norm := rfl

theorem required_norm (c : CCol) : c.norm.required = c.required := by
  unfold required
  rw [chain_norm, inherit_norm .required (.inl rfl)]
  cases inherit .required c.chain <;> rfl

theorem null_norm (c : CCol) : c.norm.null = c.null := by
  unfold null
  rw [chain_norm, inheritNull_norm]

theorem default_norm (c : CCol) : c.norm.default = c.default := rfl

theorem separator_norm (c : CCol) : c.norm.separator = c.separator := by
  unfold separator
  rw [chain_norm, inherit_norm .separator (.inr (.inl rfl))]
  cases inherit .separator c.chain <;> rfl

theorem datatype_norm (c : CCol) : c.norm.datatype = c.datatype.map Datatype.norm := by
  unfold datatype
  rw [chain_norm, inherit_norm .datatype (.inr (.inr rfl))]
  cases inherit .datatype c.chain <;> rfl

theorem readItems_norm (ext : Ext) (d : Datatype) (l : List (Option Str)) : readItems ext d.norm l = readItems ext d l := by
  induction l with
  | nil => rfl
  | cons v r ih =>
    have h : readItem ext d.norm v = readItem ext d v := by cases v <;> rfl
    simp only [readItems, ih, h]

theorem applyDt_norm (ext : Ext) (dt : Option Datatype) (r : Raw) : applyDt ext (dt.map Datatype.norm) r = applyDt ext dt r := by
  cases dt with
  | none => rfl
  | some d =>
    cases r with
    | none => rfl
    | one s => rfl
    | many l => simp only [applyDt, Option.map_some, readItems_norm]

theorem orDefault_norm (c : CCol) (v : Str) : c.norm.orDefault v = c.orDefault v := rfl

theorem unNull_norm (c : CCol) (v : Str) : c.norm.unNull v = c.unNull v := by
  unfold unNull; rw [null_norm]

theorem prepare_norm (c : CCol) (v : Str) : c.norm.prepare v = c.prepare v := by
  unfold prepare
  simp only [separator_norm, null_norm, orDefault_norm, unNull_norm]

theorem read_norm (ext : Ext) (c : CCol) (v : Str) : c.norm.read ext v = c.read ext v := by
  unfold read
  simp only [required_norm, null_norm, orDefault_norm, prepare_norm, datatype_norm, applyDt_norm]

theorem itemsWarn_norm (ext : Ext) (d : Datatype) (l : List (Option Str)) : itemsWarn ext d.norm l = itemsWarn ext d l := by
  induction l with
  | nil => rfl
  | cons a r ih =>
    cases a with
    | none => exact ih
    | some s => simp only [itemsWarn, ih]; rfl

theorem readWarns_norm (ext : Ext) (c : CCol) (v : Str) : c.norm.readWarns ext v = c.readWarns ext v := by
  unfold readWarns
  simp only [required_norm, null_norm, orDefault_norm, prepare_norm, datatype_norm]
  cases c.datatype with
  | none => rfl
  | some d =>
    cases c.prepare (c.orDefault v) with
    | error e => rfl
    | ok r => cases r <;> simp only [Option.map_some, itemsWarn_norm] <;> rfl

theorem readLax_norm (ext : Ext) (c : CCol) (v : Str) : c.norm.readLax ext v = c.readLax ext v := by
  unfold readLax
  simp only [required_norm, null_norm, orDefault_norm, prepare_norm, datatype_norm, applyDt_norm]

theorem fmt_norm (ext : Ext) (c : CCol) (v : Val) : c.norm.fmt ext v = c.fmt ext v := by
  unfold fmt
  rw [null_norm, datatype_norm]
  cases c.datatype <;> rfl

theorem fmtAll_norm (ext : Ext) (c : CCol) (l : List Val) : c.norm.fmtAll ext l = c.fmtAll ext l := by
  induction l with
  | nil => rfl
  | cons v r ih => simp only [fmtAll, fmt_norm, ih]

theorem write_norm (ext : Ext) (c : CCol) (v : CVal) : c.norm.write ext v = c.write ext v := by
  unfold write
  simp only [separator_norm, fmtAll_norm, fmt_norm]

end CCol

namespace Table

theorem map_mapIdx' {α β γ : Type} (f : Nat → α → β) (g : β → γ) (l : List α) :
    (l.mapIdx f).map g = l.mapIdx fun i a => g (f i a) := by
  apply List.ext_getElem?
  intro i
  simp [Option.map_map, Function.comp_def]

theorem mapIdx_map' {α β γ : Type} (f : α → β) (g : Nat → β → γ) (l : List α) :
    (l.map f).mapIdx g = l.mapIdx fun i a => g i (f a) := by
  apply List.ext_getElem?
  intro i
  simp [Option.map_map, Function.comp_def]

theorem getDialect_norm (t : Table) : t.norm.getDialect = t.getDialect := rfl

theorem parents_norm (t : Table) : t.norm.parents = t.parents.map Descr.norm := by
  unfold parents norm
  cases t.group <;> rfl

theorem ccols_norm (t : Table) : t.norm.ccols = t.ccols.map CCol.norm := by
  unfold ccols
  rw [parents_norm]
  simp only [norm, List.map_map]
  rfl

theorem dataCols_norm (t : Table) : t.norm.dataCols = t.dataCols.map CCol.norm := by
  unfold dataCols
  rw [ccols_norm, List.filter_map]
  rfl

theorem header_ccol_norm (c : CCol) : c.norm.col.header = c.col.header := Column.header_norm c.col

theorem colnames_norm (t : Table) : t.norm.colnames = t.colnames := by
  unfold colnames
  rw [dataCols_norm, List.map_map]
  apply List.map_congr_left
  intro c _
  exact header_ccol_norm c

theorem writeCells_norm (ext : Ext) (l : List (CCol × CVal)) :
    writeCells ext (l.map fun p => (p.1.norm, p.2)) = writeCells ext l := by
  induction l with
  | nil => rfl
  | cons p r ih => simp only [List.map_cons, writeCells, CCol.write_norm, ih]

theorem rowOf_norm (ext : Ext) (t : Table) (strict : Bool) (i : Item) : rowOf ext t.norm strict i = rowOf ext t strict i := by
  cases i with
  | seq l =>
    unfold rowOf
    simp only [dataCols_norm, List.length_map]
    have : (t.dataCols.map CCol.norm).zip l = (t.dataCols.zip l).map fun p => (p.1.norm, p.2) := by
      rw [List.zip_map_left]; rfl
    rw [this, writeCells_norm]
  | dict d =>
    unfold rowOf
    simp only [colnames_norm, dataCols_norm, List.map_map]
    have : (t.dataCols.map ((fun c : CCol => (c, (Dict.get c.col.header d).getD (.one .none))) ∘ CCol.norm)) =
        (t.dataCols.map fun c => (c, (Dict.get c.col.header d).getD (.one .none))).map fun p => (p.1.norm, p.2) := by
      rw [List.map_map]
      apply List.map_congr_left
      intro c _
      simp only [Function.comp, header_ccol_norm]
    rw [this, writeCells_norm]

theorem writeItems_norm (ext : Ext) (x : MExt) (ver : CsvLib.CsvVer) (cfg : Dsv.Cfg) (t : Table) (strict : Bool) (items : List Item) :
    ∀ s, writeItems ext x ver cfg t.norm strict s items = writeItems ext x ver cfg t strict s items := by
  induction items with
  | nil => intro s; rfl
  | cons i r ih => intro s; simp only [writeItems, rowOf_norm, ih]

theorem write_norm (ext : Ext) (x : MExt) (ver : CsvLib.CsvVer) (t : Table) (strict : Bool) (items : List Item) :
    t.norm.write ext x ver strict items = t.write ext x ver strict items := by
  unfold write
  simp only [getDialect_norm, colnames_norm, writeItems_norm]

/-! ## Reading -/

theorem required_prop_norm (c : Column) : c.norm.props.required = c.props.required := rfl

theorem virtualCols_norm (t : Table) : t.norm.virtualCols = t.virtualCols := by
  unfold virtualCols norm
  simp only [List.filterMap_map]
  congr 1
  funext c
  simp only [Function.comp, Column.header_norm]
  rfl

theorem requiredCols_norm (t : Table) : t.norm.requiredCols = t.requiredCols := by
  unfold requiredCols norm
  simp only [List.filter_map, List.map_map]
  apply List.map_congr_left
  intro c _
  exact Column.header_norm c

theorem columndict_norm (t : Table) : t.norm.schema.columndict = t.schema.columndict.map fun p => (p.1, p.2.norm) := by
  unfold Schema.columndict norm
  simp only [List.map_map]
  have h : ∀ (l : List Column) (d : List (Str × Column)),
      (l.map ((fun c : Column => (c.header, c)) ∘ Column.norm)).foldl (fun d p => Dict.set p.1 p.2 d) (d.map fun p => (p.1, p.2.norm)) =
      ((l.map fun c => (c.header, c)).foldl (fun d p => Dict.set p.1 p.2 d) d).map fun p => (p.1, p.2.norm) := by
    intro l
    induction l with
    | nil => intro d; rfl
    | cons c r ih =>
      intro d
      simp only [List.map_cons, List.foldl_cons, Function.comp, Column.header_norm]
      rw [← ih]
      congr 1
      induction d with
      | nil => rfl
      | cons q d' ihd =>
        simp only [List.map_cons, Dict.set]
        split <;> simp_all
  exact h _ []

theorem get_map_norm (k : Str) (d : List (Str × Column)) :
    Dict.get k (d.map fun p => (p.1, p.2.norm)) = (Dict.get k d).map Column.norm := by
  induction d with
  | nil => rfl
  | cons q r ih =>
    simp only [List.map_cons, Dict.get]
    split <;> simp_all

theorem search_norm (h : Str) (l : List Column) :
    Schema.search h (l.map Column.norm) = (Schema.search h l).map (Option.map Column.norm) := by
  induction l with
  | nil => rfl
  | cons c r ih =>
    simp only [List.map_cons, Schema.search]
    have h1 : NatLang.first c.norm.titles = NatLang.first c.titles := first_norm _
    have h2 : c.norm.props.propertyUrl = c.props.propertyUrl := rfl
    rw [h1, h2, ih]
    split
    · rfl
    · split
      · split <;> rfl
      · rfl
      · rfl

theorem getColumn_norm (t : Table) (h : Str) : t.norm.schema.getColumn h = (t.schema.getColumn h).map (Option.map Column.norm) := by
  unfold Schema.getColumn
  rw [columndict_norm, get_map_norm]
  cases Dict.get h t.schema.columndict with
  | some c => rfl
  | none =>
    simp only [Option.map_none]
    exact search_norm h t.schema.columns

/-- The normal form of the columns which belong to the header. -/
def normPair (p : Str × Option CCol) : Str × Option CCol := (p.1, p.2.map CCol.norm)

theorem lookupCols_norm (t : Table) (l : List Str) : lookupCols t.norm l = (lookupCols t l).map (List.map normPair) := by
  induction l with
  | nil => rfl
  | cons h r ih =>
    simp only [lookupCols, getColumn_norm, ih, parents_norm]
    cases t.schema.getColumn h with
    | error e => rfl
    | ok c =>
      simp only [Except.map]
      cases lookupCols t r with
      | error e => rfl
      | ok cs =>
        cases c <;> rfl

theorem freshCol_norm (i : Nat) : (freshCol i).norm = freshCol i := rfl

theorem matchCols_norm (t : Table) (strict : Bool) (header : List Str) :
    matchCols t.norm strict header = (matchCols t strict header).map (List.map normPair) := by
  unfold matchCols
  simp only [colnames_norm, ccols_norm, List.length_map, ne_eq, List.map_eq_nil_iff]
  split
  · simp only [Except.map]
    congr 1
    rw [List.map_map, show List.map normPair (header.zip (List.map some t.ccols)) =
      List.map (Prod.map id (Option.map CCol.norm)) (header.zip (List.map some t.ccols)) from rfl, ← List.zip_map, List.map_id, List.map_map]
    rfl
  · split
    · simp only [Except.map]
      congr 1
      rw [map_mapIdx']
      congr 1
      funext i h
      rw [List.getElem?_map]
      cases t.ccols[i]? with
      | none => rfl
      | some c => rfl
    · exact lookupCols_norm t header

def HCol.norm (h : HCol) : HCol := ⟨h.j, h.key, h.col.map CCol.norm⟩

theorem indexed_norm (l : List (Str × Option CCol)) : indexed (l.map normPair) = (indexed l).map HCol.norm := by
  unfold indexed
  rw [mapIdx_map', map_mapIdx']
  rfl

theorem hasHeader_norm (c : Option CCol) (h : Str) : hasHeader (c.map CCol.norm) h = hasHeader c h := by
  cases c with
  | none => rfl
  | some c => simp only [hasHeader, Option.map_some, header_ccol_norm]

theorem missingCols_norm (t : Table) (hs : List HCol) : missingCols t.norm (hs.map HCol.norm) = missingCols t hs := by
  unfold missingCols
  rw [requiredCols_norm]
  congr 1
  funext h
  rw [List.any_map]
  congr 2
  funext e
  exact hasHeader_norm e.col h

theorem requiredKeys_norm (hs : List HCol) : requiredKeys (hs.map HCol.norm) = requiredKeys hs := by
  unfold requiredKeys
  rw [List.filter_map, List.map_map]
  refine congrArg (List.map HCol.key) (List.filter_congr ?_)
  intro h _
  obtain ⟨j, k, c⟩ := h
  cases c <;> rfl

theorem storeCell_norm (strict log : Bool) (st : RowSt) (c : CCol) (v : Str) (r : Res CVal × Bool) :
    storeCell strict log st c.norm v r = storeCell strict log st c v r := by
  unfold storeCell
  simp only [header_ccol_norm]

theorem cellStep_norm (ext : Ext) (strict log : Bool) (st : RowSt) (h : HCol) (v : Str) :
    cellStep ext strict log st h.norm v = cellStep ext strict log st h v := by
  obtain ⟨j, k, c⟩ := h
  cases c with
  | none => rfl
  | some c => simp only [cellStep, HCol.norm, Option.map_some, storeCell_norm, CCol.read_norm, CCol.readLax_norm, CCol.readWarns_norm]; rfl

theorem cellLoop_norm (ext : Ext) (strict log : Bool) (hs : List HCol) : ∀ (st : RowSt) (vs : List Str),
    cellLoop ext strict log st (hs.map HCol.norm) vs = cellLoop ext strict log st hs vs := by
  induction hs with
  | nil => intro st vs; rfl
  | cons h r ih =>
    intro st vs
    cases vs with
    | nil => rfl
    | cons v vs => simp only [List.map_cons, cellLoop, cellStep_norm, ih]

theorem rowStep_norm (ext : Ext) (x : MExt) (t : Table) (strict log : Bool) (hs : List HCol) (row : List Str) :
    rowStep ext x t.norm strict log (hs.map HCol.norm) row = rowStep ext x t strict log hs row := by
  unfold rowStep
  simp only [requiredKeys_norm, cellLoop_norm, colnames_norm, virtualCols_norm]

theorem rowCols_norm (hs : List HCol) (row : List Str) : rowCols (hs.map HCol.norm) row = (rowCols hs row).map HCol.norm := by
  unfold rowCols
  simp only [List.map_eq_nil_iff]
  split
  · rw [map_mapIdx']; rfl
  · rfl

theorem iterRows_norm (ext : Ext) (x : MExt) (t : Table) (strict log : Bool) (err : Option PyErr) (rows : List (Int × List Str)) :
    ∀ hs, iterRows ext x t.norm strict log err (hs.map HCol.norm) rows = iterRows ext x t strict log err hs rows := by
  induction rows with
  | nil => intro hs; rfl
  | cons r rs ih =>
    intro hs
    obtain ⟨n, row⟩ := r
    simp only [iterRows, rowCols_norm, rowStep_norm, ih]

theorem hasTitle_norm (c : Column) (v : Str) : hasTitle c.norm v = hasTitle c v := by
  unfold hasTitle
  have h : (c.norm.titles.getD []).find? (fun p => p.2.contains v) = (c.titles.getD []).find? fun p => p.2.contains v := by
    show ((normTitles c.titles).getD []).find? _ = _
    cases h : noTitles c.titles with
    | true =>
      unfold normTitles
      rw [if_pos h]
      unfold noTitles at h
      rw [Bool.or_eq_true, decide_eq_true_eq, decide_eq_true_eq] at h
      rcases h with h | h <;> rw [h] <;> rfl
    | false => unfold normTitles; rw [h]; rfl
  rw [h]
  rfl

theorem headerWarns_norm (t : Table) (header : List Str) : headerWarns t.norm header = headerWarns t header := by
  unfold headerWarns
  have h1 : t.norm.schema.columns = t.schema.columns.map Column.norm := rfl
  have h2 : t.norm.props.lang = t.props.lang := rfl
  have h3 : ∀ c : Column, c.norm.name = c.name := fun _ => rfl
  rw [h1, h2, List.zip_map_right, List.any_map]
  simp only [List.length_map, ne_eq, List.map_eq_nil_iff]
  congr 2
  funext p
  obtain ⟨h, c⟩ := p
  simp only [Function.comp, Prod.map, id, hasTitle_norm, h3]

theorem iterBody_norm (ext : Ext) (x : MExt) (t : Table) (strict log : Bool) (header : List Str) (rows : List (Int × List Str))
    (err : Option PyErr) : iterBody ext x t.norm strict log header rows err = iterBody ext x t strict log header rows err := by
  unfold iterBody
  rw [matchCols_norm]
  cases matchCols t strict header with
  | error e => rfl
  | ok l => simp only [Except.map, indexed_norm, missingCols_norm, iterRows_norm]

theorem iterEvents_norm (ext : Ext) (x : MExt) (t : Table) (strict log : Bool) (rows : List (Int × List Str))
    (err : Option PyErr) : iterEvents ext x t.norm strict log rows err = iterEvents ext x t strict log rows err := by
  unfold iterEvents
  simp only [getDialect_norm, iterBody_norm, headerWarns_norm, colnames_norm]

theorem iterdicts_norm (ext : Ext) (x : MExt) (t : Table) (strict log : Bool) (text : Str) :
    t.norm.iterdicts ext x strict log text = t.iterdicts ext x strict log text := by
  unfold iterdicts
  simp only [getDialect_norm, iterEvents_norm]

end Table
end Csvw
