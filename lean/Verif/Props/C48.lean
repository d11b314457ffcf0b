import Verif.Lemmas.DbSelect
import Verif.Props.C58
/-!
# C48: list-valued foreign keys in the database
-/

namespace Csvw.Props
open Csvw.Py Csvw.Db Csvw.Datatypes Csvw.Spec

/-! ## Specification -/

/-- The value of a list-valued foreign key: a list of strings, or `None`. -/
inductive RefList : CVal → List Str → Prop
  | list (l : List Str) : RefList (.many (l.map .str)) l
  | none : RefList (.one .none) []

/-- A string which is not empty and contains no whitespace. -/
def Word (s : Str) : Prop := s ≠ [] ∧ ∀ c ∈ s, isSpace c = false

/-- The names of a table with list-valued foreign keys, and of the association tables: no two are the same, and those for columns with
list-valued foreign keys and `context` are not changed by the translation; no column name contains a quote. No rows are given for the association
tables. -/
structure LinkNames (tr : Translator) (tables : List TableSpec) (items : List (Str × List RowDict)) (t : TableSpec) : Prop where
  nodup : (Dict.keys t.manyToMany).Nodup
  columns : ∀ c ∈ t.columns, c.name ∉ Dict.keys t.manyToMany ∧ tr t.name (some c.name) ∉ Dict.keys t.manyToMany
  links : ∀ p ∈ t.manyToMany, tr t.name (some p.1) = p.1 ∧ '\'' ∉ p.1
  created : ∀ p ∈ t.manyToMany, p.2.toSpec ∈ tables ∧ Dict.get p.2.name items = none
  context : ∀ p ∈ t.manyToMany, tr p.2.name (some "context".toList) = "context".toList
  others : ∀ p ∈ t.manyToMany, ∀ t' ∈ tables, t' ≠ t → ∀ q ∈ t'.manyToMany, foldName (tr q.2.name none) ≠ foldName (tr p.2.name none)
  same : ∀ p ∈ t.manyToMany, ∀ q ∈ t.manyToMany, foldName (tr q.2.name none) = foldName (tr p.2.name none) → q.2 = p.2

/-- The rows have different strings, not empty, as primary key `k`, and the keys in the list-valued foreign keys are words. -/
structure LinkRows (t : TableSpec) (k : Str) (rows : List RowDict) : Prop where
  primaryKey : t.primaryKey = some [k] ∧ ∃ c ∈ t.columns, c.name = k
  dicts : ∀ row ∈ rows, (Dict.keys row).Nodup
  keys : ∀ row ∈ rows, ∃ s, s ≠ [] ∧ Dict.get k row = some (.one (.str s))
  distinct : rows.Pairwise fun row row' => Dict.get k row ≠ Dict.get k row'
  refs : ∀ row ∈ rows, ∀ col ∈ Dict.keys t.manyToMany, ∀ v, Dict.get col row = some v → ∃ l, RefList v l ∧ ∀ s ∈ l, Word s

/-- What is read from the database for a row: the values of the columns, and the lists of keys, where `None` and missing values are
the empty list. -/
def ReadsLinks (tr : Translator) (t : TableSpec) (row d : RowDict) : Prop :=
  (∀ c ∈ t.columns, Dict.get (tr t.name (some c.name)) d = some ((Dict.get c.name row).getD (.one .none))) ∧
  ∀ col ∈ Dict.keys t.manyToMany, ∃ l, RefList ((Dict.get col row).getD (.one .none)) l ∧ Dict.get col d = some (.many (l.map .str))

/-! ## Proof -/

/-- The key of a row. -/
def linkKey (k : Str) (row : RowDict) : Str :=
  match Dict.get k row with
  | some (.one (.str s)) => s
  | _ => []

/-- The string, if the value is one. -/
def valText : Val → Option Str
  | .str s => some s
  | _ => none

/-- The items of a list. -/
def linkItems : CVal → List Str
  | .many l => l.filterMap valText
  | .one _ => []

theorem linkItems_ref {v : CVal} {l : List Str} (h : RefList v l) : linkItems v = l := by
  cases h with
  | list l =>
    show (l.map Val.str).filterMap valText = l
    rw [List.filterMap_map]
    simp [Function.comp_def, valText]
  | none => rfl

/-- The links of a row. -/
def linksOf (col : Str) (row : RowDict) : List Str := linkItems ((Dict.get col row).getD (.one .none))

/-- The links of an item in an association table. -/
def linksOfItem (tr : Translator) (t : TableSpec) (a : AssocSpec) (key : Str) (p : Str × CVal) : List Link :=
  match Dict.get p.1 t.manyToMany with
  | some b => if tr b.name none = tr a.name none then (linkItems p.2).map fun i => ⟨key, i, p.1⟩ else []
  | none => []

/-- All links in an association table. -/
def allLinks (tr : Translator) (t : TableSpec) (a : AssocSpec) (k : Str) (rows : List RowDict) : List Link :=
  rows.flatMap fun row => row.flatMap (linksOfItem tr t a (linkKey k row))

/-- The reference for a link. -/
def linkRef (a : AssocSpec) (x : Link) : AssocSpec × List CVal := (a, [.one (.str x.key), .one (.str x.item), .one (.str x.ctx)])

section
variable {ext : Ext} {sx : SqlExt} {tr : Translator} {skip : Bool}

theorem refItems_ref {v : CVal} {l : List Str} (h : RefList v l) : refItems ext v = .ok (l.map fun s => .one (.str s)) := by
  cases h with
  | list l => simp [refItems]
  | none => simp [refItems, Val.truthy]

theorem item_links {t : TableSpec} {a : AssocSpec} {key : Str} {p : Str × CVal}
    (hsame : ∀ q ∈ t.manyToMany, tr q.2.name none = tr a.name none → q.2 = a)
    (hv : p.1 ∈ Dict.keys t.manyToMany → ∃ l, RefList p.2 l) :
    (refsOfItem ext t (.one (.str key)) p).filter (fun q => decide (tr q.1.name none = tr a.name none))
      = (linksOfItem tr t a key p).map (linkRef a) := by
  unfold refsOfItem linksOfItem
  cases hg : Dict.get p.1 t.manyToMany with
  | none => rfl
  | some b =>
    obtain ⟨l, hl⟩ := hv ((Dict.get_isSome_iff_mem_keys _ _).1 (by rw [hg]; rfl))
    simp only [refItems_ref hl, linkItems_ref hl]
    by_cases hb : tr b.name none = tr a.name none
    · have := hsame _ (Dict.get_mem hg) hb
      simp only at this
      subst this
      rw [if_pos rfl, List.filter_eq_self.2 (by intro q hq; simp only [List.map_map, List.mem_map] at hq; obtain ⟨s, -, rfl⟩ := hq; simp)]
      simp [linkRef]
    · rw [if_neg hb, List.filter_eq_nil_iff.2 (by
        intro q hq; simp only [List.map_map, List.mem_map] at hq; obtain ⟨s, -, rfl⟩ := hq; simpa using hb)]
      rfl

theorem row_links {t : TableSpec} {a : AssocSpec} {key : Str} {row : RowDict}
    (hsame : ∀ q ∈ t.manyToMany, tr q.2.name none = tr a.name none → q.2 = a)
    (hv : ∀ p ∈ row, p.1 ∈ Dict.keys t.manyToMany → ∃ l, RefList p.2 l) :
    (row.flatMap (refsOfItem ext t (.one (.str key)))).filter (fun q => decide (tr q.1.name none = tr a.name none))
      = (row.flatMap (linksOfItem tr t a key)).map (linkRef a) := by
  induction row with
  | nil => rfl
  | cons p r ih =>
    rw [List.flatMap_cons, List.flatMap_cons, List.filter_append, List.map_append,
      item_links hsame (hv p (List.mem_cons_self ..)), ih fun q hq => hv q (List.mem_cons_of_mem _ hq)]

theorem rows_links {t : TableSpec} {a : AssocSpec} {k : Str} (hpk : t.primaryKey = some [k]) {rows : List RowDict} {sts : List RowState}
    (hsame : ∀ q ∈ t.manyToMany, tr q.2.name none = tr a.name none → q.2 = a)
    (hk : ∀ row ∈ rows, ∃ s, s ≠ [] ∧ Dict.get k row = some (.one (.str s)))
    (hv : ∀ row ∈ rows, ∀ p ∈ row, p.1 ∈ Dict.keys t.manyToMany → ∃ l, RefList p.2 l)
    (h : All2 (fun row st => ∃ pk, pkOf t row = .ok pk ∧ st.refs = row.flatMap (refsOfItem ext t pk)) rows sts) :
    (sts.flatMap RowState.refs).filter (fun q => decide (tr q.1.name none = tr a.name none)) = (allLinks tr t a k rows).map (linkRef a) := by
  induction h with
  | nil => rfl
  | cons h1 _ ih =>
    rename_i row st rows sts _
    obtain ⟨pk, hp, hr⟩ := h1
    obtain ⟨s, -, hs⟩ := hk row (List.mem_cons_self ..)
    unfold pkOf at hp
    rw [hpk] at hp
    simp only [hs] at hp
    cases hp
    unfold allLinks
    rw [List.flatMap_cons, List.flatMap_cons, List.filter_append, List.map_append, hr, row_links hsame (hv row (List.mem_cons_self ..)),
      ih (fun row hr => hk row (List.mem_cons_of_mem _ hr)) (fun row hr => hv row (List.mem_cons_of_mem _ hr))]
    unfold linkKey
    rw [hs]
    rfl

/-- The rows of an association table. -/
theorem assoc_links {tables : List TableSpec} {items : List (Str × List RowDict)} {db : Database} {t : TableSpec} {rows : List RowDict} {k : Str}
    (h : Written ext sx tr skip tables items db t rows) (hn : LinkNames tr tables items t) (hr : LinkRows t k rows) {col : Str} {a : AssocSpec}
    (hp : (col, a) ∈ t.manyToMany) :
    ∃ u, lookup (tr a.name none) db = some u ∧
      u.rows = (allLinks tr t a k rows).map (linkRow (tr a.name (some a.acol)) (tr a.name (some a.bcol)) "context".toList) ∧
      tr a.name (some a.acol) ≠ tr a.name (some a.bcol) ∧ tr a.name (some a.acol) ≠ "context".toList ∧
      tr a.name (some a.bcol) ≠ "context".toList := by
  obtain ⟨ht1, ht2⟩ := hn.created _ hp
  obtain ⟨u, vss, sts, e1, e2, e3, e4, e5, e6⟩ := write_assoc h.write h.names h.table h.rows ht1 ht2
    (fun t' ht' hne q hq => hn.others _ hp t' ht' hne q hq) (hn.same _ hp)
  have hctx := hn.context _ hp
  simp only at hctx
  have hcols : u.columns = [(tr a.name (some a.acol), .text), (tr a.name (some a.bcol), .text), ("context".toList, .text)] := by
    rw [e2]
    unfold sqlColumns AssocSpec.toSpec
    simp only [List.map_cons, List.map_nil, hctx]
    rfl
  rw [hcols] at e3
  simp only [Dict.keys, List.map_cons, List.map_nil, List.nodup_cons, List.mem_cons, List.not_mem_nil, or_false, not_or] at e3
  obtain ⟨⟨hAB, hAC⟩, hBC, -⟩ := e3
  refine ⟨u, e1, ?_, hAB, hAC, hBC⟩
  have hv : ∀ row ∈ rows, ∀ p ∈ row, p.1 ∈ Dict.keys t.manyToMany → ∃ l, RefList p.2 l := by
    intro row hrow p hpr hpk
    obtain ⟨l, hl, -⟩ := hr.refs row hrow p.1 hpk p.2 (Dict.get_of_mem_nodup (hr.dicts row hrow) hpr)
    exact ⟨l, hl⟩
  rw [rows_links hr.primaryKey.1 (fun q hq he => hn.same _ hp q hq (congrArg foldName he)) hr.keys hv (rowLoop_refs_eq e4)] at e5
  have hvss : vss = (allLinks tr t a k rows).map fun x => [.text x.key, .text x.item, .text x.ctx] := by
    generalize allLinks tr t a k rows = L at e5
    clear e6 e1
    induction L generalizing vss with
    | nil => cases e5; rfl
    | cons x L ih =>
      rw [List.map_cons] at e5
      cases e5 with
      | cons h1 h2 =>
        rw [List.map_cons, ← ih _ h2]
        simp [linkRef, bindAll, bindCell, Db.bind] at h1
        rw [← h1]
  rw [e6, hvss, List.map_map]
  apply List.map_congr_left
  intro x _
  have hkeys : assocKeys tr a = [tr a.name (some a.acol), tr a.name (some a.bcol), "context".toList] := by
    unfold assocKeys atKey
    simp only [List.map_cons, List.map_nil, hctx]
  rw [Function.comp_def]
  simp only
  rw [hcols, hkeys]
  generalize "context".toList = C at *
  have hAB' := Ne.symm hAB
  have hAC' := Ne.symm hAC
  have hBC' := Ne.symm hBC
  simp [newRow, linkRow, Dict.get, affinity, hAB', hAC', hBC', hAB, hAC, hBC]

theorem row_context {t : TableSpec} {a : AssocSpec} {col key : Str} (hg : Dict.get col t.manyToMany = some a) {row : RowDict}
    (hd : (Dict.keys row).Nodup) :
    (row.flatMap (linksOfItem tr t a key)).filter (fun x => decide (x.ctx = col)) = (linksOf col row).map fun i => ⟨key, i, col⟩ := by
  have hother : ∀ p : Str × CVal, p.1 ≠ col → (linksOfItem tr t a key p).filter (fun x => decide (x.ctx = col)) = [] := by
    intro p hp
    rw [List.filter_eq_nil_iff]
    intro x hx
    unfold linksOfItem at hx
    split at hx
    · split at hx
      · obtain ⟨i, -, rfl⟩ := List.mem_map.1 hx
        simpa using hp
      · simp at hx
    · simp at hx
  induction row with
  | nil => rfl
  | cons p r ih =>
    obtain ⟨n, v⟩ := p
    simp only [Dict.keys, List.map_cons, List.nodup_cons] at hd
    rw [List.flatMap_cons, List.filter_append]
    have ih' := ih hd.2
    by_cases hc : col = n
    · subst hc
      have hnone : Dict.get col r = none := (Dict.get_eq_none_iff _ _).2 hd.1
      have hl : linksOf col r = [] := by unfold linksOf; rw [hnone]; rfl
      rw [ih', hl, List.map_nil, List.append_nil]
      unfold linksOfItem linksOf
      simp only [hg, if_true, Dict.get, Option.getD_some]
      rw [List.filter_eq_self]
      intro x hx
      obtain ⟨i, -, rfl⟩ := List.mem_map.1 hx
      simp
    · rw [hother _ (Ne.symm hc), List.nil_append, ih']
      unfold linksOf
      rw [Dict.get, if_neg (Ne.symm hc)]

theorem rows_context {t : TableSpec} {a : AssocSpec} {col k : Str} (hg : Dict.get col t.manyToMany = some a) {rows : List RowDict}
    (hd : ∀ row ∈ rows, (Dict.keys row).Nodup) :
    (allLinks tr t a k rows).filter (fun x => decide (x.ctx = col))
      = rows.flatMap fun row => (linksOf col row).map fun i => ⟨linkKey k row, i, col⟩ := by
  unfold allLinks
  induction rows with
  | nil => rfl
  | cons row r ih =>
    rw [List.flatMap_cons, List.flatMap_cons, List.filter_append, row_context hg (hd row (List.mem_cons_self ..)),
      ih fun row hr => hd row (List.mem_cons_of_mem _ hr)]

theorem itemsOf_row {col k : Str} {rows : List RowDict} (hdist : rows.Pairwise fun row row' => linkKey k row ≠ linkKey k row') {row : RowDict}
    (hrow : row ∈ rows) :
    itemsOf (.text (linkKey k row)) (rows.flatMap fun row => (linksOf col row).map fun i => ⟨linkKey k row, i, col⟩) = linksOf col row := by
  unfold itemsOf
  induction rows with
  | nil => simp at hrow
  | cons r rs ih =>
    rw [List.pairwise_cons] at hdist
    rw [List.flatMap_cons, List.filter_append, List.map_append]
    rcases List.mem_cons.1 hrow with rfl | hrow
    · have hrest : (rs.flatMap fun row => (linksOf col row).map fun i => (⟨linkKey k row, i, col⟩ : Link)).filter
          (fun x => decide (Sql.text x.key = Sql.text (linkKey k row))) = [] := by
        rw [List.filter_eq_nil_iff]
        intro x hx
        obtain ⟨r', hr', hx⟩ := List.mem_flatMap.1 hx
        obtain ⟨i, -, rfl⟩ := List.mem_map.1 hx
        simpa using (hdist.1 r' hr').symm
      rw [hrest, List.filter_eq_self.2]
      · simp [Function.comp_def]
      · intro x hx
        obtain ⟨i, -, rfl⟩ := List.mem_map.1 hx
        simp
    · rw [ih hdist.2 hrow]
      have : ((linksOf col r).map fun i => (⟨linkKey k r, i, col⟩ : Link)).filter
          (fun x => decide (Sql.text x.key = Sql.text (linkKey k row))) = [] := by
        rw [List.filter_eq_nil_iff]
        intro x hx
        obtain ⟨i, -, rfl⟩ := List.mem_map.1 hx
        simpa using hdist.1 row hrow
      rw [this]
      rfl

theorem find_keys {col k : Str} {rows : List RowDict} (hdist : rows.Pairwise fun row row' => linkKey k row ≠ linkKey k row') {row : RowDict}
    (hrow : row ∈ rows) {M : List Link} (hM : M = rows.flatMap fun row => (linksOf col row).map fun i => ⟨linkKey k row, i, col⟩) :
    (((M.map fun x => Sql.text x.key).eraseDups).map fun k => (k, itemsOf k M)).find?
        (fun p => decide (CVal.one (ofSql p.1) = .one (.str (linkKey k row))))
      = if linksOf col row = [] then none else some (.text (linkKey k row), linksOf col row) := by
  have hof : ∀ p : Sql × List Str, p ∈ (((M.map fun x => Sql.text x.key).eraseDups).map fun k => (k, itemsOf k M)) →
      CVal.one (ofSql p.1) = .one (.str (linkKey k row)) → p = (.text (linkKey k row), linksOf col row) := by
    intro p hp he
    obtain ⟨q, hq, rfl⟩ := List.mem_map.1 hp
    rw [List.mem_eraseDups, List.mem_map] at hq
    obtain ⟨x, hx, rfl⟩ := hq
    simp only [ofSql, CVal.one.injEq, Val.str.injEq] at he
    rw [he, ← itemsOf_row hdist hrow, hM]
  cases hf : (((M.map fun x => Sql.text x.key).eraseDups).map fun k => (k, itemsOf k M)).find?
        (fun p => decide (CVal.one (ofSql p.1) = .one (.str (linkKey k row)))) with
  | none =>
    split
    · rfl
    · rename_i hne
      exfalso
      rw [List.find?_eq_none] at hf
      cases hl : linksOf col row with
      | nil => exact hne hl
      | cons i l =>
        have hx : (⟨linkKey k row, i, col⟩ : Link) ∈ M := by
          rw [hM]
          exact List.mem_flatMap.2 ⟨row, hrow, List.mem_map.2 ⟨i, by rw [hl]; exact List.mem_cons_self .., rfl⟩⟩
        exact hf (.text (linkKey k row), itemsOf (.text (linkKey k row)) M)
          (List.mem_map.2 ⟨_, by rw [List.mem_eraseDups]; exact List.mem_map.2 ⟨_, hx, rfl⟩, rfl⟩) (by simp [ofSql])
  | some p =>
    have h1 := List.find?_some hf
    have h2 := List.mem_of_find?_eq_some hf
    have := hof p h2 (by simpa using h1)
    subst this
    rw [if_neg]
    intro he
    obtain ⟨q, hq, heq⟩ := List.mem_map.1 h2
    rw [List.mem_eraseDups, List.mem_map] at hq
    obtain ⟨x, hx, rfl⟩ := hq
    simp only [Prod.mk.injEq, Sql.text.injEq] at heq
    have hxx : x.item ∈ itemsOf (.text x.key) M := List.mem_map.2 ⟨x, List.mem_filter.2 ⟨hx, by simp⟩, rfl⟩
    rw [heq.2, he] at hxx
    simp at hxx

/-- `refs` for a row. -/
theorem refsFor_row {tables : List TableSpec} {items : List (Str × List RowDict)} {db : Database} {t : TableSpec} {rows : List RowDict} {k : Str}
    (h : Written ext sx tr skip tables items db t rows) (hn : LinkNames tr tables items t) (hr : LinkRows t k rows)
    {row : RowDict} (hrow : row ∈ rows) {m : List (Str × AssocSpec)} (hm : ∀ p ∈ m, p ∈ t.manyToMany) (hnd : (Dict.keys m).Nodup) :
    ∃ d, refsFor tr t db (.one (.str (linkKey k row))) m = .ok d ∧ (Dict.keys d).Nodup ∧ (∀ col ∈ Dict.keys d, col ∈ Dict.keys m) ∧
      ∀ col ∈ Dict.keys m, Dict.get col d = if linksOf col row = [] then none else some (.many ((linksOf col row).map .str)) := by
  have hdist : rows.Pairwise fun row row' => linkKey k row ≠ linkKey k row' := by
    refine List.Pairwise.imp_of_mem ?_ hr.distinct
    intro r r' hr1 hr2 hne he
    obtain ⟨s, -, hs⟩ := hr.keys r hr1
    obtain ⟨s', -, hs'⟩ := hr.keys r' hr2
    apply hne
    unfold linkKey at he
    simp only [hs, hs'] at he
    rw [hs, hs', he]
  induction m with
  | nil => exact ⟨[], rfl, by simp [Dict.keys], by simp [Dict.keys], by simp [Dict.keys]⟩
  | cons p m ih =>
    obtain ⟨col, a⟩ := p
    simp only [Dict.keys, List.map_cons, List.nodup_cons] at hnd
    obtain ⟨d, hd, hdn, hsub, hget⟩ := ih (fun p hp => hm p (List.mem_cons_of_mem _ hp)) hnd.2
    have hp := hm (col, a) (List.mem_cons_self ..)
    obtain ⟨u, e1, e2, e3, e4, e5⟩ := assoc_links h hn hr hp
    have hg : Dict.get col t.manyToMany = some a := Dict.get_of_mem_nodup hn.nodup hp
    obtain ⟨hcol, hquote⟩ := hn.links _ hp
    have hctx := rows_context (tr := tr) (k := k) hg hr.dicts
    have hsel := select_links (context := col) (by simpa using hquote) e1 e2 e3 e4 e5 (by
      intro x hx hxc
      have : x ∈ (allLinks tr t a k rows).filter (fun x => decide (x.ctx = col)) := List.mem_filter.2 ⟨hx, by simpa using hxc⟩
      rw [hctx] at this
      obtain ⟨r, hr1, hx2⟩ := List.mem_flatMap.1 this
      obtain ⟨i, hi, rfl⟩ := List.mem_map.1 hx2
      unfold linksOf at hi
      cases hgc : Dict.get col r with
      | none => rw [hgc] at hi; simp [linkItems] at hi
      | some v =>
        rw [hgc] at hi
        obtain ⟨l, hl, hw⟩ := hr.refs r hr1 col ((Dict.get_isSome_iff_mem_keys _ _).1 (by rw [hg]; rfl)) v hgc
        rw [Option.getD_some, linkItems_ref hl] at hi
        exact hw i hi)
    have hfind := find_keys (col := col) hdist hrow hctx
    unfold refsFor
    rw [hsel]
    simp only [hd]
    have hnotd : col ∉ Dict.keys d := fun hc => hnd.1 (hsub col hc)
    rw [hfind]
    simp only at hcol
    by_cases hl : linksOf col row = []
    · rw [if_pos hl]
      refine ⟨d, rfl, hdn, fun c hc => List.mem_cons_of_mem _ (hsub c hc), ?_⟩
      intro c hc
      rcases List.mem_cons.1 hc with rfl | hc
      · rw [if_pos hl]
        exact (Dict.get_eq_none_iff _ _).2 hnotd
      · exact hget c hc
    · rw [if_neg hl]
      simp only [hcol]
      refine ⟨(col, .many ((linksOf col row).map .str)) :: d, rfl, ?_, ?_, ?_⟩
      · simp only [Dict.keys, List.map_cons, List.nodup_cons]
        exact ⟨hnotd, hdn⟩
      · intro c hc
        simp only [Dict.keys, List.map_cons, List.mem_cons] at hc ⊢
        rcases hc with rfl | hc
        · exact .inl rfl
        · exact .inr (hsub c hc)
      · intro c hc
        simp only [Dict.get]
        rcases List.mem_cons.1 hc with rfl | hc
        · simp [hl]
        · rw [if_neg (fun he => hnd.1 (by rw [he]; exact hc))]
          exact hget c hc

/-- **C48** A table with list-valued foreign keys is read from the database as it was written, lists with order and repetitions, if the primary keys
are different strings, not empty, and the keys in the lists are words (with values of the other columns which are read as they are written, see
`C58_string` etc.). -/
theorem C48_read {tables : List TableSpec} {items : List (Str × List RowDict)} {db : Database} {t : TableSpec} {rows : List RowDict} {k : Str}
    (h : Written ext sx tr skip tables items db t rows) (hsame : SameKeys rows) (hn : LinkNames tr tables items t) (hr : LinkRows t k rows)
    (hord : ∀ n l, sx.order n l = l)
    (hrt : ∀ row ∈ rows, ∀ c ∈ t.columns, ∀ v, Dict.get c.name row = some v → ReadAs ext sx c v v) :
    ∃ out, readTable ext sx tr t db = .ok out ∧ All2 (ReadsLinks tr t) rows out := by
  obtain ⟨hnn, u, h1, h2, h3⟩ := written_rows h hsame
  unfold readTable
  rw [show db.find? (fun u => foldName u.name = foldName (tr t.name none)) = some u from h1]
  simp only [hord]
  apply loadRows_ok h3
  rintro row hrow r ⟨hk, hs⟩
  have hld := loadRow_stored hnn (fun c hc => (hn.columns c hc).1) hk hs (hrt row hrow)
  obtain ⟨ds, hds, hdn, hsub, hget⟩ := refsFor_row h hn hr hrow (fun p hp => hp) hn.nodup
  obtain ⟨hpk, c0, hc0, rfl⟩ := hr.primaryKey
  obtain ⟨s, hs0, hsk⟩ := hr.keys row hrow
  have hko : linkKey c0.name row = s := by unfold linkKey; rw [hsk]
  refine ⟨Dict.update (Dict.update (t.columns.map fun c => (tr t.name (some c.name), (Dict.get c.name row).getD (.one .none)))
    (t.manyToMany.map fun p => (p.1, .many []))) ds, ?_, ?_, ?_⟩
  · unfold loadFull
    rw [hld]
    simp only
    have : loadKey tr t (t.columns.map fun c => (tr t.name (some c.name), (Dict.get c.name row).getD (.one .none))) = .ok (.one (.str s)) := by
      unfold loadKey
      rw [hpk]
      simp only
      rw [get_map_columns hnn hc0, hsk]
      rfl
    rw [this]
    simp only
    rw [hko] at hds
    rw [hds]
    simp [Table.hashable]
  · intro c hc
    have hnot := (hn.columns c hc).2
    have e1 : Dict.get (tr t.name (some c.name)) ds.reverse = none := by
      rw [Dict.get_eq_none_iff]
      intro hm
      apply hnot
      apply hsub
      simpa [Dict.keys] using hm
    have e2 : Dict.get (tr t.name (some c.name)) (t.manyToMany.map fun p => (p.1, CVal.many [])).reverse = none := by
      rw [Dict.get_eq_none_iff]
      intro hm
      apply hnot
      simpa [Dict.keys] using hm
    rw [Dict.get_update, Dict.get_update, e1, e2, get_map_columns hnn hc]
    rfl
  · intro col hcol
    have hlinks : RefList ((Dict.get col row).getD (.one .none)) (linksOf col row) := by
      unfold linksOf
      cases hg : Dict.get col row with
      | none => exact .none
      | some v =>
        obtain ⟨l, hl, -⟩ := hr.refs row hrow col hcol v hg
        rw [Option.getD_some, linkItems_ref hl]
        exact hl
    refine ⟨linksOf col row, hlinks, ?_⟩
    have hrev : Dict.get col ds.reverse = Dict.get col ds := by
      cases hg : Dict.get col ds with
      | none =>
        rw [Dict.get_eq_none_iff] at hg ⊢
        simpa [Dict.keys] using hg
      | some v =>
        apply Dict.get_of_mem_nodup
        · unfold Dict.keys
          rw [List.map_reverse]; unfold List.Nodup; rw [List.pairwise_reverse]
          exact hdn.imp Ne.symm
        · simpa using Dict.get_mem hg
    rw [Dict.get_update, hrev, hget col hcol]
    by_cases hl : linksOf col row = []
    · rw [if_pos hl, hl, Option.none_or, Dict.get_update]
      have : Dict.get col (t.manyToMany.map fun p => (p.1, CVal.many [])).reverse = some (.many []) := by
        apply Dict.get_of_mem_nodup
        · unfold Dict.keys
          rw [List.map_reverse, List.map_map]; unfold List.Nodup; rw [List.pairwise_reverse]
          exact hn.nodup.imp Ne.symm
        · obtain ⟨p, hp, rfl⟩ := List.mem_map.1 hcol
          simp only [List.mem_reverse, List.mem_map]
          exact ⟨p, hp, rfl⟩
      rw [this]
      rfl
    · rw [if_neg hl]
      rfl

end
end Csvw.Props

namespace Csvw.Props
open Csvw.Py Csvw.Db Csvw.Datatypes Csvw.Spec

/-! ## The tables of the schema -/

theorem addForeignKeys_nodup {t : Table} {drop : Bool} {spec spec' : TableSpec} {fks : List ForeignKey}
    (h : addForeignKeys t drop spec fks = .ok spec') (hn : (Dict.keys spec.manyToMany).Nodup) : (Dict.keys spec'.manyToMany).Nodup := by
  induction fks generalizing spec with
  | nil => unfold addForeignKeys at h; cases h; exact hn
  | cons fk r ih =>
    unfold addForeignKeys at h
    cases hf : addForeignKey t drop spec fk with
    | error e => rw [hf] at h; cases h
    | ok s1 =>
      rw [hf] at h
      refine ih h ?_
      unfold addForeignKey at hf
      split at hf
      · cases hf; exact hn
      · simp only at hf
        split at hf
        · split at hf
          · split at hf
            · cases hf
            · cases hf
              exact Dict.nodup_keys_set hn
          · cases hf
        · split at hf
          · cases hf
          · split at hf <;> cases hf <;> exact hn

theorem addColumns_links {spec spec' : TableSpec} {cs : List CCol} (h : addColumns spec cs = .ok spec')
    (hc : ∀ c ∈ spec.columns, c.name ∉ Dict.keys spec.manyToMany) :
    spec'.manyToMany = spec.manyToMany ∧ ∀ c ∈ spec'.columns, c.name ∉ Dict.keys spec'.manyToMany := by
  induction cs generalizing spec with
  | nil => unfold addColumns at h; cases h; exact ⟨rfl, hc⟩
  | cons c r ih =>
    unfold addColumns at h
    split at h
    · exact ih h hc
    · rename_i hh
      cases hs : colSpec c with
      | error e => rw [hs] at h; cases h
      | ok c0 =>
        rw [hs] at h
        have := ih h (by
          intro c' hc'
          rcases List.mem_append.1 hc' with hc' | hc'
          · exact hc c' hc'
          · rw [List.mem_singleton] at hc'
            rw [hc']
            have hname : c0.name = c.col.header := by
              unfold colSpec at hs
              split at hs <;> cases hs
              rfl
            rw [hname]
            intro hm
            exact hh ((Dict.has_iff_mem_keys _ _).2 hm))
        exact this

/-- The tables of the schema have no column with the name of a list-valued foreign key. -/
theorem C48_schema {t : Table} {drop : Bool} {spec : TableSpec} (h : fromTable t drop = .ok spec) :
    (Dict.keys spec.manyToMany).Nodup ∧ ∀ c ∈ spec.columns, c.name ∉ Dict.keys spec.manyToMany := by
  unfold fromTable at h
  split at h
  · cases h
  · rename_i s1 h1
    have h2 := addForeignKeys_nodup h1 (by simp [Dict.keys])
    have hcols : s1.columns = [] := by
      clear h2 h
      have : ∀ {fks : List ForeignKey} {s s' : TableSpec}, addForeignKeys t drop s fks = .ok s' → s'.columns = s.columns := by
        intro fks
        induction fks with
        | nil => intro s s' h; unfold addForeignKeys at h; cases h; rfl
        | cons fk r ih =>
          intro s s' h
          unfold addForeignKeys at h
          cases hf : addForeignKey t drop s fk with
          | error e => rw [hf] at h; cases h
          | ok s2 =>
            rw [hf] at h
            rw [ih h]
            unfold addForeignKey at hf
            split at hf
            · cases hf; rfl
            · simp only at hf
              split at hf
              · split at hf
                · split at hf <;> cases hf
                  rfl
                · cases hf
              · split at hf
                · cases hf
                · split at hf <;> cases hf <;> rfl
      exact this h1
    obtain ⟨h3, h4⟩ := addColumns_links h (by rw [hcols]; simp)
    rw [h3]
    rw [h3] at h4
    exact ⟨h2, h4⟩

/-! ## Examples -/

/-- A table the keys of which are referenced. -/
def linkTarget : TableSpec := { name := "u".toList, columns := [{ name := "id".toList }], primaryKey := some ["id".toList] }

/-- The association table. -/
def linkAssoc : AssocSpec := associationTable "t".toList "id".toList "u".toList "id".toList

/-- A table with a list-valued foreign key `refs`, with the given type of the primary key. -/
def linkSource (b : Base) : TableSpec :=
  { name := "t".toList, columns := [{ name := "id".toList, base := b }], primaryKey := some ["id".toList]
    manyToMany := [("refs".toList, linkAssoc)] }

/-- A row of this table. -/
def linkExampleRow (v : Val) (refs : CVal) : RowDict := [("id".toList, .one v), ("refs".toList, refs)]

/-- Rows of this table. -/
def linkExampleRows : List RowDict :=
  [linkExampleRow (.str "a".toList) (.many [.str "x".toList, .str "y".toList, .str "x".toList]),
   linkExampleRow (.str "b".toList) (.one .none)]

/-- The database with these rows. -/
def linkExampleDb : Database :=
  [{ name := "u".toList, columns := [("id".toList, .text)] },
   { name := "t".toList, columns := [("id".toList, .text)], rows := [[("id".toList, .text "a".toList)], [("id".toList, .text "b".toList)]] },
   { name := "t_u".toList, columns := [("t_id".toList, .text), ("u_id".toList, .text), ("context".toList, .text)],
     rows := ["x".toList, "y".toList, "x".toList].map fun s =>
       [("t_id".toList, .text "a".toList), ("u_id".toList, .text s), ("context".toList, .text "refs".toList)] }]

theorem C48_example (ext : Ext) (sx : SqlExt) (hr : ∀ db n rows r, sx.refuse db n rows r = false) (hord : ∀ n l, sx.order n l = l) :
    Written ext sx nameTranslator false [linkTarget, linkSource .string, linkAssoc.toSpec] [("t".toList, linkExampleRows)] linkExampleDb
      (linkSource .string) linkExampleRows ∧
    ∃ out, readTable ext sx nameTranslator (linkSource .string) linkExampleDb = .ok out ∧
      All2 (ReadsLinks nameTranslator (linkSource .string)) linkExampleRows out := by
  have hw : Written ext sx nameTranslator false [linkTarget, linkSource .string, linkAssoc.toSpec] [("t".toList, linkExampleRows)] linkExampleDb
      (linkSource .string) linkExampleRows := by
    refine ⟨?_, by decide, by simp, ?_, rfl⟩
    · simp [write, createAll, create, badTable, oddTable, oddName, foldName, Char.toLower, ColSpec.check, writeTables, writeTable, rowLoop, rowStep, itemLoop, itemStep, linkTarget, linkSource, linkAssoc,
        associationTable, AssocSpec.toSpec, linkExampleRows, linkExampleRow, pkOf, Dict.get, Dict.keys, cellTruthy, Val.truthy, refItems, stored, asList, convert,
        Db.bind, Db.insert, insertIn, insertRows, insertRow, newRow, affinity, Dict.has, writeRefs, bindAll, bindCell, atKey, hr, nameTranslator,
        ColSpec.dbType, linkExampleDb, Except.map]
    · intro t' ht' p hp
      simp only [List.mem_cons, List.not_mem_nil, or_false] at ht'
      rcases ht' with rfl | rfl | rfl <;> simp [linkTarget, linkSource, AssocSpec.toSpec] at hp
      subst hp
      decide
  refine ⟨hw, C48_read hw ?_ ?_ (k := "id".toList) ?_ hord ?_⟩
  · unfold SameKeys
    decide
  · constructor
    · decide
    · decide
    · decide
    · decide
    · decide
    · decide
    · decide
  · constructor
    · exact ⟨rfl, _, List.mem_cons_self .., rfl⟩
    · decide
    · intro row hrow
      simp only [linkExampleRows, List.mem_cons, List.not_mem_nil, or_false] at hrow
      rcases hrow with rfl | rfl
      · exact ⟨"a".toList, by decide, rfl⟩
      · exact ⟨"b".toList, by decide, rfl⟩
    · simp [linkExampleRows, linkExampleRow, Dict.get]
    · intro row hrow col hcol v hv
      simp only [linkSource, Dict.keys, List.map_cons, List.map_nil, List.mem_singleton] at hcol
      subst hcol
      simp only [linkExampleRows, List.mem_cons, List.not_mem_nil, or_false] at hrow
      rcases hrow with rfl | rfl <;> simp [linkExampleRow, Dict.get] at hv <;> subst hv
      · refine ⟨["x".toList, "y".toList, "x".toList], RefList.list ["x".toList, "y".toList, "x".toList], ?_⟩
        unfold Word
        decide
      · exact ⟨[], .none, by simp⟩
  · intro row hrow c hc v hv
    simp only [linkSource, List.mem_cons, List.not_mem_nil, or_false] at hc
    simp only [linkExampleRows, List.mem_cons, List.not_mem_nil, or_false] at hrow
    subst hc
    rcases hrow with rfl | rfl <;> simp [linkExampleRow, Dict.get] at hv <;> subst hv
    · exact C58_string rfl rfl _
    · exact C58_string rfl rfl _

/-! ## The conditions are necessary -/

/-- A key with a space is not read as it was written. -/
theorem C48_violated_space (ext : Ext) (sx : SqlExt) (hr : ∀ db n rows r, sx.refuse db n rows r = false) (hord : ∀ n l, sx.order n l = l) :
    ∃ db, write ext sx nameTranslator false [linkTarget, linkSource .string, linkAssoc.toSpec]
        [("t".toList, [linkExampleRow (.str "a".toList) (.many [.str "x y".toList])])] = .ok db ∧
      readTable ext sx nameTranslator (linkSource .string) db = .ok [linkExampleRow (.str "a".toList) (.many [.str "x".toList])] := by
  refine ⟨[{ name := "u".toList, columns := [("id".toList, .text)] },
   { name := "t".toList, columns := [("id".toList, .text)], rows := [[("id".toList, .text "a".toList)]] },
   { name := "t_u".toList, columns := [("t_id".toList, .text), ("u_id".toList, .text), ("context".toList, .text)],
     rows := [[("t_id".toList, .text "a".toList), ("u_id".toList, .text "x y".toList), ("context".toList, .text "refs".toList)]] }], ?_, ?_⟩
  · simp [write, createAll, create, badTable, oddTable, oddName, foldName, Char.toLower, ColSpec.check, writeTables, writeTable, rowLoop, rowStep, itemLoop, itemStep, linkTarget, linkSource, linkAssoc,
      associationTable, AssocSpec.toSpec, linkExampleRow, pkOf, Dict.get, Dict.keys, cellTruthy, Val.truthy, refItems, stored, asList, convert,
      Db.bind, Db.insert, insertIn, insertRows, insertRow, newRow, affinity, Dict.has, writeRefs, bindAll, bindCell, atKey, hr, nameTranslator,
      ColSpec.dbType, Except.map]
  · unfold readTable
    rw [show ∀ (a b c : DbTable), ([a, b, c] : Database).find? (fun u => foldName u.name = foldName (nameTranslator (linkSource .string).name none))
      = ([a, b, c] : Database).find? (fun u => foldName u.name = "t".toList) from fun _ _ _ => rfl]
    simp only [hord]
    rfl

/-- With an integer as primary key the references are lost: the key is text in the association table. -/
theorem C48_violated_integer (ext : Ext) (sx : SqlExt) (hr : ∀ db n rows r, sx.refuse db n rows r = false) (hord : ∀ n l, sx.order n l = l) :
    ∃ db, write ext sx nameTranslator false [linkTarget, linkSource .integer, linkAssoc.toSpec]
        [("t".toList, [linkExampleRow (.int 7) (.many [.str "x".toList])])] = .ok db ∧
      readTable ext sx nameTranslator (linkSource .integer) db = .ok [linkExampleRow (.int 7) (.many [])] := by
  refine ⟨[{ name := "u".toList, columns := [("id".toList, .text)] },
   { name := "t".toList, columns := [("id".toList, .integer)], rows := [[("id".toList, .int 7)]] },
   { name := "t_u".toList, columns := [("t_id".toList, .text), ("u_id".toList, .text), ("context".toList, .text)],
     rows := [[("t_id".toList, .text "7".toList), ("u_id".toList, .text "x".toList), ("context".toList, .text "refs".toList)]] }], ?_, ?_⟩
  · simp [write, createAll, create, badTable, oddTable, oddName, foldName, Char.toLower, ColSpec.check, writeTables, writeTable, rowLoop, rowStep, itemLoop, itemStep, linkTarget, linkSource, linkAssoc,
      associationTable, AssocSpec.toSpec, linkExampleRow, pkOf, Dict.get, Dict.keys, cellTruthy, Val.truthy, refItems, stored, asList, convert,
      Db.bind, Db.insert, insertIn, insertRows, insertRow, newRow, affinity, Dict.has, writeRefs, bindAll, bindCell, atKey, hr, nameTranslator,
      ColSpec.dbType, Except.map]
    rfl
  · unfold readTable
    rw [show ∀ (a b c : DbTable), ([a, b, c] : Database).find? (fun u => foldName u.name = foldName (nameTranslator (linkSource .integer).name none))
      = ([a, b, c] : Database).find? (fun u => foldName u.name = "t".toList) from fun _ _ _ => rfl]
    simp only [hord]
    rfl

/-- A row with the empty string as primary key cannot be written: `assert pk`. -/
theorem C48_violated_empty (ext : Ext) (sx : SqlExt) (refs : CVal) :
    write ext sx nameTranslator false [linkTarget, linkSource .string, linkAssoc.toSpec]
        [("t".toList, [linkExampleRow (.str []) refs])] = .error .assertionError := by
  simp [write, createAll, create, badTable, oddTable, oddName, foldName, Char.toLower, ColSpec.check, writeTables, writeTable, rowLoop, rowStep, itemLoop, itemStep, linkTarget, linkSource, linkAssoc,
      associationTable, AssocSpec.toSpec, linkExampleRow, pkOf, Dict.get, Dict.keys, cellTruthy, Val.truthy, stored, asList, convert,
      Db.bind, nameTranslator, ColSpec.dbType]

end Csvw.Props
