import Verif.Lemmas.Norm
/-!
# Parts of descriptions which do not matter for the validity of data sets

As `Verif.Lemmas.Norm`, for `check_primary_key`, `check_referential_integrity` and `is_valid`.
-/

namespace Csvw

theorem Table.checkPrimaryKey_norm (ext : Ext) (x : MExt) (eq : PyEq) (t : Table) (log : Bool) (text : Str) :
    t.norm.checkPrimaryKey ext x eq log text = t.checkPrimaryKey ext x eq log text := by
  unfold checkPrimaryKey
  simp only [iterdicts_norm]
  have h : t.norm.schema.primaryKey = normKey t.schema.primaryKey := rfl
  rw [h]
  cases t.schema.primaryKey with
  | none => rfl
  | some l => cases l <;> rfl

namespace TableGroup
open Table

def norm (g : TableGroup) : TableGroup := ⟨g.tables.map Table.norm⟩

def _root_.Csvw.FKey.norm (k : FKey) : FKey := ⟨k.st.norm, k.sc, k.tt.norm, k.tc⟩

theorem ofPairs_norm (l : List Table) :
    Dict.ofPairs ((l.map Table.norm).map fun t => (t.url, t)) = (Dict.ofPairs (l.map fun t => (t.url, t))).map fun p => (p.1, p.2.norm) := by
  have h : ∀ (l : List Table) (d : List (Str × Table)),
      ((l.map Table.norm).map fun t => (t.url, t)).foldl (fun d p => Dict.set p.1 p.2 d) (d.map fun p => (p.1, p.2.norm)) =
      ((l.map fun t => (t.url, t)).foldl (fun d p => Dict.set p.1 p.2 d) d).map fun p => (p.1, p.2.norm) := by
    intro l
    induction l with
    | nil => intro d; rfl
    | cons c r ih =>
      intro d
      simp only [List.map_cons, List.foldl_cons]
      rw [← ih]
      congr 1
      have hu : c.norm.url = c.url := rfl
      rw [hu]
      induction d with
      | nil => rfl
      | cons q d' ihd =>
        simp only [List.map_cons, Dict.set]
        split <;> simp_all
  exact h l []

theorem get_map_table (k : Str) (d : List (Str × Table)) :
    Dict.get k (d.map fun p => (p.1, p.2.norm)) = (Dict.get k d).map Table.norm := by
  induction d with
  | nil => rfl
  | cons q r ih =>
    simp only [List.map_cons, Dict.get]
    split <;> simp_all

theorem get_tabledict_norm (g : TableGroup) (k : Str) : Dict.get k g.norm.tabledict = (Dict.get k g.tabledict).map Table.norm := by
  unfold tabledict norm
  rw [ofPairs_norm, get_map_table]

theorem fkeyOf_norm (g : TableGroup) (t : Table) (fk : ForeignKey) : g.norm.fkeyOf t.norm fk = (g.fkeyOf t fk).map FKey.norm := by
  unfold fkeyOf
  cases fk.resource with
  | none => rfl
  | some r =>
    simp only [get_tabledict_norm]
    cases Dict.get r g.tabledict <;> rfl

def normPairFk (p : Table × ForeignKey) : Table × ForeignKey := (p.1.norm, p.2)

theorem fkPairs_norm (g : TableGroup) : g.norm.fkPairs = g.fkPairs.map normPairFk := by
  unfold fkPairs norm
  simp only [List.flatMap_map, List.map_flatMap, List.map_map]
  rfl

theorem fkeysOf_norm (g : TableGroup) (l : List (Table × ForeignKey)) :
    g.norm.fkeysOf (l.map normPairFk) = (g.fkeysOf l).map (List.map FKey.norm) := by
  induction l with
  | nil => rfl
  | cons p r ih =>
    obtain ⟨t, fk⟩ := p
    simp only [List.map_cons, normPairFk, fkeysOf] at ih ⊢
    rw [ih, fkeyOf_norm]
    cases g.fkeyOf t fk with
    | error e => rfl
    | ok k => cases g.fkeysOf r <;> rfl

theorem foreignKeys_norm (g : TableGroup) : g.norm.foreignKeys = g.foreignKeys.map (List.map FKey.norm) := by
  unfold foreignKeys
  rw [fkPairs_norm, fkeysOf_norm]

theorem column_norm (t : Table) (n : Str) : column t.norm.schema false n = (column t.schema false n).map (Option.map Column.norm) :=
  getColumn_norm t n

theorem columnStrict_norm (t : Table) (n : Str) : column t.norm.schema true n = (column t.schema true n).map (Option.map Column.norm) := by
  show t.norm.schema.getColumnStrict n = (t.schema.getColumnStrict n).map _
  unfold Schema.getColumnStrict
  rw [columndict_norm, get_map_norm]
  cases Dict.get n t.schema.columndict with
  | none => rfl
  | some c =>
    simp only [Option.map_some]
    have : c.norm.name = c.name := rfl
    rw [this]
    split <;> rfl

theorem sameBase_norm (a b : Column) : sameBase a.norm b.norm = sameBase a b := by
  unfold sameBase
  have h : ∀ c : Column, c.norm.props.datatype = c.props.datatype.norm := fun _ => rfl
  rw [h, h]
  cases a.props.datatype <;> cases b.props.datatype <;> rfl

theorem checkPair_norm (st tt : Table) (strict : Bool) (s t : Str) :
    checkPair st.norm.schema tt.norm.schema strict s t = checkPair st.schema tt.schema strict s t := by
  have h : ∀ (u : Table) (n : Str), column u.norm.schema strict n = (column u.schema strict n).map (Option.map Column.norm) := by
    intro u n
    cases strict with
    | true => exact columnStrict_norm u n
    | false => exact column_norm u n
  unfold checkPair
  rw [h, h]
  cases column st.schema strict s with
  | error e => rfl
  | ok a =>
    cases column tt.schema strict t with
    | error e => rfl
    | ok b =>
      cases a <;> cases b <;> first | rfl | (simp only [Except.map, Option.map_some, sameBase_norm])

theorem checkPairs_norm (st tt : Table) (strict : Bool) (l : List (Str × Str)) :
    checkPairs st.norm.schema tt.norm.schema strict l = checkPairs st.schema tt.schema strict l := by
  induction l with
  | nil => rfl
  | cons p r ih => simp only [checkPairs, checkPair_norm, ih]

theorem checkFkeys_norm (strict : Bool) (l : List FKey) : checkFkeys strict (l.map FKey.norm) = checkFkeys strict l := by
  induction l with
  | nil => rfl
  | cons k r ih => simp only [List.map_cons, checkFkeys, FKey.norm, checkPairs_norm, ih]

theorem validateSchema_norm (g : TableGroup) (strict : Bool) : g.norm.validateSchema strict = g.validateSchema strict := by
  unfold validateSchema
  rw [foreignKeys_norm]
  cases g.foreignKeys with
  | error e => rfl
  | ok ks => simp only [Except.map, checkFkeys_norm]

section
variable {eq : PyEq} {read : Reader} (hr : ∀ t log, read t.norm log = read t log)
include hr

theorem children_norm (log single : Bool) (seen : List (List CVal)) (l : List FKey) : ∀ ok,
    children eq read log single seen (l.map FKey.norm) ok = children eq read log single seen l ok := by
  induction l with
  | nil => intro ok; rfl
  | cons k r ih => intro ok; simp only [List.map_cons, children, FKey.norm, hr, ih]

omit hr in
theorem groupBy_map {β : Type} [DecidableEq β] (f : FKey → β) (hf : ∀ k, f k.norm = f k) (l : List FKey) :
    groupBy f (l.map FKey.norm) = (groupBy f l).map (List.map FKey.norm) := by
  induction l with
  | nil => rfl
  | cons k r ih =>
    simp only [List.map_cons, groupBy]
    rw [ih]
    cases groupBy f r with
    | nil => rfl
    | cons a gs =>
      cases a with
      | nil => rfl
      | cons b g =>
        simp only [List.map_cons, hf]
        split <;> rfl

omit hr in
theorem allSeen_norm (strict : Bool) (out : IterOut) (l : List (List FKey)) : ∀ ok,
    allSeen eq strict out (l.map (List.map FKey.norm)) ok = allSeen eq strict out l ok := by
  induction l with
  | nil => intro ok; rfl
  | cons a r ih =>
    intro ok
    cases a with
    | nil => simp only [List.map_cons, List.map_nil, allSeen, ih]
    | cons k g => simp only [List.map_cons, allSeen, FKey.norm, ih]

theorem keyGroups_norm (log : Bool) (l : List (List FKey)) : ∀ ss ok,
    keyGroups eq read log (l.map (List.map FKey.norm)) ss ok = keyGroups eq read log l ss ok := by
  induction l with
  | nil => intro ss ok; rfl
  | cons a r ih =>
    intro ss ok
    cases a with
    | nil => cases ss <;> rfl
    | cons k g =>
      cases ss with
      | nil => rfl
      | cons s ss =>
        have := children_norm (eq := eq) hr log (decide (k.sc.length = 1)) s (k :: g) ok
        simp only [List.map_cons] at this
        simp only [List.map_cons, keyGroups, ih]
        rw [show (FKey.norm k).sc = k.sc from rfl, this]

theorem tableGroup_norm (log strict : Bool) (l : List FKey) (ok : Bool) :
    tableGroup eq read log strict (l.map FKey.norm) ok = tableGroup eq read log strict l ok := by
  cases l with
  | nil => rfl
  | cons k r =>
    have h := groupBy_map FKey.sc (fun _ => rfl) (k :: r)
    simp only [List.map_cons] at h
    simp only [List.map_cons, tableGroup, h, allSeen_norm, keyGroups_norm hr]
    rw [show (FKey.norm k).st = k.st.norm from rfl, hr]

theorem tableGroups_norm (log strict : Bool) (l : List (List FKey)) : ∀ ok,
    tableGroups eq read log strict (l.map (List.map FKey.norm)) ok = tableGroups eq read log strict l ok := by
  induction l with
  | nil => intro ok; rfl
  | cons g r ih => intro ok; simp only [List.map_cons, tableGroups, tableGroup_norm hr, ih]

theorem nullChecks_norm (l : List (Table × ForeignKey)) : nullChecks read (l.map normPairFk) = nullChecks read l := by
  induction l with
  | nil => rfl
  | cons p r ih => simp only [List.map_cons, nullChecks, normPairFk, hr] at ih ⊢; rw [ih]

theorem checkReferentialIntegrity_norm (g : TableGroup) (log strict : Bool) :
    g.norm.checkReferentialIntegrity eq read log strict = g.checkReferentialIntegrity eq read log strict := by
  unfold checkReferentialIntegrity
  have h1 : (g.norm.tables.flatMap fun t => t.schema.foreignKeys.map fun fk => (t, fk)) =
      (g.tables.flatMap fun t => t.schema.foreignKeys.map fun fk => (t, fk)).map normPairFk := by
    simp only [norm, List.flatMap_map, List.map_flatMap, List.map_map]
    rfl
  have h2 : g.norm.schemaOk log = g.schemaOk log := by unfold schemaOk; rw [validateSchema_norm]
  rw [h1, nullChecks_norm hr, h2, foreignKeys_norm]
  cases g.foreignKeys with
  | error e => rfl
  | ok ks =>
    have h3 : (ks.map FKey.norm).mergeSort fkeyLe = (ks.mergeSort fkeyLe).map FKey.norm := by
      rw [List.map_mergeSort]
      intro a _ b _
      rfl
    simp only [Except.map, h3]
    rw [groupBy_map (fun k => k.st.url) (fun _ => rfl)]
    simp only [tableGroups_norm hr]

end
end TableGroup

namespace Dataset

/-- The data set with the normal forms of the tables. -/
theorem checkTable_norm (ext : Ext) (x : MExt) (eq : Table.PyEq) (data : Str → Str) (t : Table) :
    checkTable ext x eq data t.norm = checkTable ext x eq data t := by
  unfold checkTable keyWarns
  simp only [Table.iterdicts_norm, Table.checkPrimaryKey_norm]
  have h : t.norm.schema.primaryKey = normKey t.schema.primaryKey := rfl
  have hu : t.norm.url = t.url := rfl
  rw [h, hu]
  cases t.schema.primaryKey with
  | none => rfl
  | some l => cases l <;> rfl

theorem checkTables_norm (ext : Ext) (x : MExt) (eq : Table.PyEq) (data : Str → Str) (l : List Table) :
    checkTables ext x eq data (l.map Table.norm) = checkTables ext x eq data l := by
  induction l with
  | nil => rfl
  | cons t r ih => simp only [List.map_cons, checkTables, checkTable_norm, ih]

theorem reader_norm (ext : Ext) (x : MExt) (data : Str → Str) (t : Table) (log : Bool) :
    reader ext x data t.norm log = reader ext x data t log := Table.iterdicts_norm ext x t true log _

theorem readTables_norm (ext : Ext) (x : MExt) (data : Str → Str) (g : TableGroup) :
    ((readTables g.norm).any fun t => (reader ext x data t false).warned) =
      (readTables g).any fun t => (reader ext x data t false).warned := by
  have h : readTables g.norm = (readTables g).map Table.norm := by
    unfold readTables
    rw [TableGroup.foreignKeys_norm]
    simp only [TableGroup.norm, List.filter_map, List.map_append]
    congr 1
    cases g.foreignKeys with
    | error e => rfl
    | ok ks => simp only [Except.map, List.map_map]; rfl
  rw [h, List.any_map]
  congr 1
  funext t
  simp only [Function.comp, reader_norm]

theorem isValid_norm (ext : Ext) (x : MExt) (eq : Table.PyEq) (data : Str → Str) (g : TableGroup) (w : Bool) :
    ((⟨.inr g.norm, w⟩ : Dataset).isValid ext x eq data).map Prod.fst = ((⟨.inr g, w⟩ : Dataset).isValid ext x eq data).map Prod.fst := by
  unfold isValid
  have h1 : (⟨.inr g.norm, w⟩ : Dataset).tables = (⟨.inr g, w⟩ : Dataset).tables.map Table.norm := rfl
  have h2 : (⟨.inr g.norm, w⟩ : Dataset).tablegroup = (⟨.inr g, w⟩ : Dataset).tablegroup.norm := rfl
  rw [h1, h2, checkTables_norm, TableGroup.checkReferentialIntegrity_norm (reader_norm ext x data)]
  cases w with
  | true => rfl
  | false =>
    simp only [Bool.false_eq_true, if_false]
    cases checkTables ext x eq data (⟨.inr g, false⟩ : Dataset).tables with
    | error e => rfl
    | ok w =>
      simp only
      cases (⟨.inr g, false⟩ : Dataset).tablegroup.checkReferentialIntegrity eq (reader ext x data) false true with
      | error e => rfl
      | ok b => simp only [readTables_norm]; rfl

end Dataset
end Csvw
