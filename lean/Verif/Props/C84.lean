import Verif.Model.Single
import Verif.Lemmas.Table
/-!
# C84: a table on its own and in a group

`CSVW.tablegroup`, and so `is_valid` and the conversion to a database, puts a table which is described on its own into a group. This does not
change what is read: neither the values nor the file, however often it is done. But if the context of the description has a `@base`, the file
changes each time.
-/

namespace Csvw.Props

open Csvw.Table

section
variable {ext : Ext} {x : MExt}

/-! ## The values -/

/-- A group which only has `@`-properties and common properties. -/
def NoInherited (g : Descr) : Prop := ∃ a c, g = { atProps := a, common := c }

theorem inherit_more {p : Prp} (hp : p ∈ [Prp.required, .separator, .datatype]) {g : Descr} (hg : NoInherited g) (d : Descr) (l : List Descr) :
    inherit p ((d :: l) ++ [g]) = inherit p (d :: l) := by
  obtain ⟨a, c, rfl⟩ := hg
  have hn : Descr.get { atProps := a, common := c } p = .json .null := by
    simp only [List.mem_cons, List.not_mem_nil, or_false] at hp
    rcases hp with rfl | rfl | rfl <;> rfl
  induction l generalizing d with
  | nil =>
    show (if d.get p = .json .null then Descr.get _ p else d.get p) = d.get p
    rw [hn]
    split
    · next h => rw [h]
    · rfl
  | cons e r ih =>
    show (if d.get p = .json .null then inherit p ((e :: r) ++ [_]) else d.get p) =
      (if d.get p = .json .null then inherit p (e :: r) else d.get p)
    rw [ih]

theorem inheritNull_more {g : Descr} (hg : NoInherited g) (d : Descr) (l : List Descr) : inheritNull ((d :: l) ++ [g]) = inheritNull (d :: l) := by
  obtain ⟨a, c, rfl⟩ := hg
  induction l generalizing d with
  | nil =>
    show (if d.null = [[]] then [[]] else d.null) = d.null
    split
    · next h => rw [h]
    · rfl
  | cons e r ih =>
    show (if d.null = [[]] then inheritNull ((e :: r) ++ [_]) else d.null) = (if d.null = [[]] then inheritNull (e :: r) else d.null)
    rw [ih]

/-- The column with another ancestor. -/
def more (g : Descr) (c : CCol) : CCol := if c.parents = [] then c else ⟨c.col, c.parents ++ [g]⟩

theorem more_col (g : Descr) (c : CCol) : (more g c).col = c.col := by
  unfold more; split <;> rfl

theorem more_facts {g : Descr} (hg : NoInherited g) (c : CCol) :
    (more g c).required = c.required ∧ (more g c).null = c.null ∧ (more g c).separator = c.separator ∧ (more g c).datatype = c.datatype ∧
      (more g c).default = c.default := by
  unfold more
  split
  · exact ⟨rfl, rfl, rfl, rfl, rfl⟩
  · refine ⟨?_, ?_, ?_, ?_, rfl⟩
    · unfold CCol.required CCol.chain
      rw [show inherit .required (c.col.props :: (c.parents ++ [g])) = _ from inherit_more (by simp) hg c.col.props c.parents]
    · exact inheritNull_more hg c.col.props c.parents
    · unfold CCol.separator CCol.chain
      rw [show inherit .separator (c.col.props :: (c.parents ++ [g])) = _ from inherit_more (by simp) hg c.col.props c.parents]
    · unfold CCol.datatype CCol.chain
      rw [show inherit .datatype (c.col.props :: (c.parents ++ [g])) = _ from inherit_more (by simp) hg c.col.props c.parents]

theorem mapIdx_then {α β γ : Type} (f : Nat → α → β) (h : β → γ) (l : List α) : (l.mapIdx f).map h = l.mapIdx fun i a => h (f i a) := by
  simp [List.mapIdx_eq_zipIdx_map]

theorem more_prepare {g : Descr} (hg : NoInherited g) (c : CCol) (v : Str) : (more g c).prepare v = c.prepare v := by
  obtain ⟨h1, h2, h3, h4, h5⟩ := more_facts hg c
  have hd : ∀ w, (more g c).unNull ((more g c).orDefault w) = c.unNull (c.orDefault w) := by
    intro w
    unfold CCol.unNull CCol.orDefault
    rw [h2, h5]
  unfold CCol.prepare
  rw [h3, h2]
  simp only [hd]

theorem more_read {g : Descr} (hg : NoInherited g) (c : CCol) (v : Str) :
    (more g c).read ext v = c.read ext v ∧ (more g c).readLax ext v = c.readLax ext v ∧ (more g c).readWarns ext v = c.readWarns ext v := by
  obtain ⟨h1, h2, h3, h4, h5⟩ := more_facts hg c
  have hd : (more g c).orDefault v = c.orDefault v := by unfold CCol.orDefault; rw [h5]
  unfold CCol.read CCol.readLax CCol.readWarns
  simp only [hd, h1, h2, h4, more_prepare hg]
  exact ⟨trivial, trivial, trivial⟩

/-- The same for a header column. -/
def moreH (g : Descr) (h : HCol) : HCol := { h with col := h.col.map (more g) }

theorem more_cellStep {g : Descr} (hg : NoInherited g) (strict log : Bool) (st : RowSt) (h : HCol) (v : Str) :
    cellStep ext strict log st (moreH g h) v = cellStep ext strict log st h v := by
  unfold cellStep moreH
  cases h.col with
  | none => rfl
  | some c =>
    obtain ⟨h1, h2, h3⟩ := more_read (ext := ext) hg c v
    have hs : ∀ r, storeCell strict log st (more g c) v r = storeCell strict log st c v r := by
      intro r
      unfold storeCell
      rw [more_col]
    simp only [Option.map_some, h1, h2, h3, hs]

theorem more_cellLoop {g : Descr} (hg : NoInherited g) (strict log : Bool) : ∀ (st : RowSt) (hs : List HCol) (vs : List Str),
    cellLoop ext strict log st (hs.map (moreH g)) vs = cellLoop ext strict log st hs vs
  | st, [], vs => rfl
  | st, h :: hs, [] => rfl
  | st, h :: hs, v :: vs => by
    rw [List.map_cons]
    unfold cellLoop
    rw [more_cellStep hg]
    split
    · rfl
    · exact more_cellLoop hg strict log _ hs vs

theorem more_requiredKeys (g : Descr) (hs : List HCol) : requiredKeys (hs.map (moreH g)) = requiredKeys hs := by
  unfold requiredKeys
  rw [List.filter_map, List.map_map]
  congr 1
  apply List.filter_congr
  intro h _
  simp only [Function.comp_apply, moreH]
  cases h.col with
  | none => rfl
  | some c => simp only [Option.map_some, more_col]

theorem more_missing (g : Descr) (t : Table) (hs : List HCol) : missingCols t (hs.map (moreH g)) = missingCols t hs := by
  unfold missingCols
  congr 1
  funext h
  rw [List.any_map]
  congr 2
  funext e
  simp only [Function.comp_apply, moreH]
  cases e.col with
  | none => rfl
  | some c => simp only [Option.map_some, hasHeader, more_col]

theorem more_rowCols (g : Descr) (hs : List HCol) (row : List Str) : rowCols (hs.map (moreH g)) row = (rowCols hs row).map (moreH g) := by
  unfold rowCols
  cases hs with
  | nil => simp [moreH, more, freshCol, List.mapIdx_eq_zipIdx_map]
  | cons h r => simp

/-- The table in a group which has nothing to inherit from. -/
def grouped (t : Table) (g : Descr) : Table := { t with group := some (g, none) }

theorem grouped_colnames (t : Table) (g : Descr) : (grouped t g).colnames = t.colnames := by
  unfold Table.colnames Table.dataCols Table.ccols
  simp only [List.filter_map, List.map_map]
  rfl

theorem more_rowStep {g : Descr} (hg : NoInherited g) (t : Table) (strict log : Bool) (hs : List HCol) (row : List Str) :
    rowStep ext x (grouped t g) strict log (hs.map (moreH g)) row = rowStep ext x t strict log hs row := by
  unfold rowStep
  rw [more_cellLoop hg, more_requiredKeys, grouped_colnames]
  rfl

theorem more_iterRows {g : Descr} (hg : NoInherited g) (t : Table) (strict log : Bool) (err : Option PyErr) :
    ∀ (hs : List HCol) (rows : List (Int × List Str)),
      iterRows ext x (grouped t g) strict log err (hs.map (moreH g)) rows = iterRows ext x t strict log err hs rows
  | hs, [] => rfl
  | hs, (n, row) :: r => by
    unfold iterRows
    rw [more_rowCols, more_rowStep hg, more_iterRows hg t strict log err (rowCols hs row) r]

theorem grouped_ccols {t : Table} (ht : t.group = none) (g : Descr) : (grouped t g).ccols = t.ccols.map (more g) := by
  unfold Table.ccols
  rw [List.map_map]
  congr 1
  funext c
  simp only [Function.comp_apply, more, Table.parents, ht, grouped]
  simp

theorem grouped_lookup {t : Table} (ht : t.group = none) (g : Descr) : ∀ (header : List Str),
    lookupCols (grouped t g) header = (lookupCols t header).map (List.map fun p => (p.1, p.2.map (more g)))
  | [] => rfl
  | h :: r => by
    unfold lookupCols
    rw [show (grouped t g).schema = t.schema from rfl, grouped_lookup ht g r]
    cases t.schema.getColumn h with
    | error e => rfl
    | ok c =>
      cases lookupCols t r with
      | error e => rfl
      | ok cs =>
        simp only [Except.map, List.map_cons, Except.ok.injEq, List.cons.injEq, and_true, Prod.mk.injEq, true_and]
        cases c with
        | none => rfl
        | some c => simp [more, Table.parents, ht, grouped]

theorem grouped_match {t : Table} (ht : t.group = none) (g : Descr) (strict : Bool) (header : List Str) :
    matchCols (grouped t g) strict header = (matchCols t strict header).map (List.map fun p => (p.1, p.2.map (more g))) := by
  unfold matchCols
  rw [grouped_colnames, grouped_ccols ht, List.length_map]
  split
  · simp only [Except.map, Except.ok.injEq]
    rw [List.map_map, ← List.map_id header, List.zip_map, List.map_id, show header.zip (t.ccols.map some) = (header.map id).zip (t.ccols.map some) by simp, List.zip_map, List.map_map]
    rfl
  · simp only [ne_eq, List.map_eq_nil_iff]
    split
    · simp only [Except.map, Except.ok.injEq]
      rw [mapIdx_then]
      congr 1
      funext i h
      rw [List.getElem?_map]
      cases t.ccols[i]? with
      | none => simp [more, freshCol]
      | some c => simp
    · exact grouped_lookup ht g header

/-- **C84** (values) What is read from a text does not change if a table is put into a group which has nothing to inherit from: the same rows,
the same exception, the same warnings. -/
theorem C84_values {t : Table} (ht : t.group = none) {g : Descr} (hg : NoInherited g) (strict log : Bool) (text : Str) :
    (grouped t g).iterdicts ext x strict log text = t.iterdicts ext x strict log text := by
  have hbody : ∀ header rows err, iterBody ext x (grouped t g) strict log header rows err = iterBody ext x t strict log header rows err := by
    intro header rows err
    unfold iterBody
    rw [grouped_match ht]
    cases matchCols t strict header with
    | error e => rfl
    | ok l =>
      have hi : indexed (l.map fun p => (p.1, p.2.map (more g))) = (indexed l).map (moreH g) := by
        unfold indexed
        simp [List.mapIdx_eq_zipIdx_map, List.zipIdx_map, moreH]
      simp only [Except.map]
      rw [hi, more_iterRows hg]
      rw [show missingCols (grouped t g) ((indexed l).map (moreH g)) = missingCols t ((indexed l).map (moreH g)) from rfl, more_missing]
  have hd : (grouped t g).getDialect = t.getDialect := by
    unfold Table.getDialect grouped
    rw [ht]
    rfl
  unfold iterdicts
  rw [hd]
  cases Dsv.Cfg.ofDialect t.getDialect with
  | error e => rfl
  | ok cfg =>
    simp only
    unfold iterEvents
    rw [hd, grouped_colnames]
    simp only [hbody]
    rfl

/-! ## The file -/

/-- The context of the description has no `@base` (an empty one does not count). -/
structure NoContextBase (own : List (Str × J)) : Prop where
  kind : ∀ j, Dict.get "context".toList own = some j → (∃ s, j = .str s) ∨ (∃ m, j = .obj m) ∨ ∃ l, j = .arr l
  items : ∀ l m, Dict.get "context".toList own = some (.arr l) → .obj m ∈ l →
    Dict.get "@base".toList m = none ∨ Dict.get "@base".toList m = some (.str [])

theorem contextBase_none : ∀ {l : List J}, (∀ m, J.obj m ∈ l → Dict.get "@base".toList m = none ∨ Dict.get "@base".toList m = some (.str [])) →
    contextBase l = none ∨ contextBase l = some (.str [])
  | [], _ => .inl rfl
  | .obj m :: r, h => by
    unfold contextBase
    rcases contextBase_none fun m hm => h m (List.mem_cons_of_mem _ hm) with h1 | h1
    · rw [h1]; exact h m (List.mem_cons_self ..)
    · rw [h1]; exact .inr rfl
  | .null :: r, h | .bool _ :: r, h | .int _ :: r, h | .str _ :: r, h | .arr _ :: r, h | .flt _ :: r, h => by
    unfold contextBase
    exact contextBase_none fun m hm => h m (List.mem_cons_of_mem _ hm)

theorem ctxBase_none {own : List (Str × J)} (h : NoContextBase own) : ctxBase own = .ok none := by
  unfold ctxBase
  cases hc : Dict.get "context".toList own with
  | none => rfl
  | some j =>
    rcases h.kind j hc with ⟨s, rfl⟩ | ⟨m, rfl⟩ | ⟨l, rfl⟩
    · rfl
    · rfl
    · rcases contextBase_none (h.items l · hc) with h1 | h1
      · simp only [h1]
      · simp only [h1, if_true]

variable {fx : FExt} {d : Disk}

theorem baseAfter_succ (t : FTable) (n : Nat) : t.baseAfter fx d (n + 1) = (match t.baseAfter fx d n with
    | .error e => .error e
    | .ok b => regroup fx d t.desc.like.props.atProps b) := rfl

theorem base_unchanged {t : FTable} (h : NoContextBase t.desc.like.props.atProps) : ∀ n, t.baseAfter fx d n = t.baseAfter fx d 0
  | 0 => rfl
  | n + 1 => by
    rw [baseAfter_succ]
    rw [base_unchanged h n]
    cases t.baseAfter fx d 0 with
    | error e => rfl
    | ok b => simp only [regroup, ctxBase_none h]

theorem groupProps_none (b : LinkBase) : NoInherited (groupProps b) := by
  cases b <;> exact ⟨_, _, rfl⟩

/-- **C84** If the context of the description has no `@base`, the same rows are read, or the same exception is raised, however often the table
was put into a group. -/
theorem C84_unchanged {t : FTable} (h : NoContextBase t.desc.like.props.atProps) (n : Nat) :
    t.readAfter ext x fx d n = t.readAfter ext x fx d 0 := by
  cases n with
  | zero => rfl
  | succ n =>
    simp only [FTable.readAfter]
    rw [base_unchanged h n, base_unchanged h (n + 1)]
    cases t.baseAfter fx d 0 with
    | error e => rfl
    | ok b =>
      simp only
      have hv := fun text => C84_values (ext := ext) (x := x) (t := t.table) rfl (groupProps_none b) true false text
      have he : (t.groupAt b).table t.desc = grouped t.table (groupProps b) := rfl
      rw [he]
      unfold Table.readRowsAt
      simp only [hv]
      rfl

/-- The directory `p`, then `n` times `c`. -/
def nested (c : Str) (p : PPath) : Nat → PPath
  | 0 => p
  | n + 1 => (nested c p n).join c

/-- **C84 does not hold if the context has a `@base`**: for a local description, the base moves to another directory each time. -/
theorem C84_violated_base {t : FTable} {f : PPath} (hf : t.fname = some f) {l : List J} {c : Str} (hc : c ≠ []) (hu : isUrl c = false)
    (hctx : Dict.get "context".toList t.desc.like.props.atProps = some (.arr l)) (hl : contextBase l = some (.str c))
    (hb : Dict.get "base".toList t.desc.like.props.atProps = none) (hd : ∀ n, d.isDir (nested c f.parent n) = true) :
    ∀ n, t.baseAfter fx d n = .ok (.dir (nested c f.parent n))
  | 0 => by
    show baseOf fx t.desc.like.props.atProps none t.fname = _
    unfold baseOf
    simp only [Option.getD_none, hb, hf]
    rfl
  | n + 1 => by
    rw [baseAfter_succ]
    rw [C84_violated_base hf hc hu hctx hl hb hd n]
    simp only [regroup, ctxBase, hctx, hl, if_neg hc, resolveBase, hu, Bool.false_eq_true, if_false, hd n, if_true]
    rfl

end

end Csvw.Props
