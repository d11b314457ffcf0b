import Verif.Props.C64
import Verif.Props.C35_C38
/-!
# C65: the object for a row
-/

namespace Csvw.Props
open Csvw.JsonLd Csvw.ToJson Csvw.Spec Csvw.Spec.ToJson

section
variable {e : Env} {t : Table} {nm : Bool} {row : RowDict} {n : Nat}

theorem colsOf_get (k : Str) : Dict.get k (colsOf t) = columnOf t k := by
  unfold colsOf columnOf Dict.ofPairs
  rw [Dict.get_update]
  have : ∀ l : List CCol, Dict.get k (l.map fun c => (c.col.header, c)) = l.find? fun c => decide (c.col.header = k) := by
    intro l
    induction l with
    | nil => rfl
    | cons a r ih =>
      simp only [List.map_cons, Dict.get, List.find?_cons, ih]
      by_cases h : a.col.header = k
      · simp [h]
      · simp [h]
  rw [← List.map_reverse, this]
  cases (List.find? (fun c => decide (c.col.header = k)) t.ccols.reverse) <;> rfl

theorem columnOf_mem {k : Str} {c : CCol} (h : columnOf t k = some c) : c ∈ t.ccols ∧ c.col.header = k := by
  unfold columnOf at h
  have h1 := List.mem_of_find?_eq_some h
  have h2 := List.find?_some h
  exact ⟨by simpa using h1, by simpa using h2⟩

theorem skipped_iff {e : Env} {t : Table} (heq : ∀ v s, e.eq v (.one (.str s)) = decide (v = .one (.str s)))
    (hv : ∀ c ∈ t.schema.columns, c.virtual = false) (k : Str) (v : CVal) :
    skipped e t (Dict.get k (colsOf t)) v = true ↔ Omitted t k v := by
  rw [colsOf_get]
  cases hc : columnOf t k with
  | none =>
    simp [skipped, Omitted, hc, nullOf, nullFor, Null, emptyList, heq]
    constructor
    · rintro ((h | h) | h)
      · exact .inr (.inr h)
      · exact .inr (.inl h)
      · exact .inl h
    · rintro (h | h | h)
      · exact .inr h
      · exact .inl (.inr h)
      · exact .inl (.inl h)
  | some c =>
    have hvc : c.col.virtual = false := by
      have := (columnOf_mem hc).1
      unfold Table.ccols at this
      obtain ⟨c0, h0, rfl⟩ := List.mem_map.1 this
      exact hv c0 h0
    simp [skipped, Omitted, hc, nullOf, nullFor, Null, emptyList, heq, hvc]
    constructor
    · rintro ((((h | h) | h) | h) | h)
      · exact .inl (.inl h)
      · exact .inr (.inr (.inr h))
      · exact .inr (.inr (.inl h))
      · exact .inr (.inl h)
      · exact .inl (.inr h)
    · rintro ((h | h) | h | h | h)
      · exact .inl (.inl (.inl (.inl h)))
      · exact .inr h
      · exact .inl (.inr h)
      · exact .inl (.inl (.inr h))
      · exact .inl (.inl (.inl (.inr h)))

theorem inherit_null {p : Prp} : ∀ {l : List Descr}, (∀ d ∈ l, d.get p = .json .null) → inherit p l = .json .null
  | [], _ => rfl
  | [d], h => h d (by simp)
  | d :: d' :: r, h => by
    unfold inherit
    rw [if_pos (h d (by simp))]
    exact inherit_null fun x hx => h x (by simp [hx])

theorem noTemplates_url (ht : NoTemplates t) {p : Prp} (hp : p = .propertyUrl ∨ p = .valueUrl) (k : Str) : cellUrl t p (columnOf t k) = .json .null := by
  have hpar : ∀ d ∈ t.parents, d.get p = .json .null := by
    rcases hp with rfl | rfl
    · exact ht.property
    · exact ht.value
  cases hc : columnOf t k with
  | none =>
    show inherit p _ = _
    exact inherit_null fun d hd => hpar d (by unfold Table.parents; simp at hd ⊢; exact .inr hd)
  | some c =>
    have := (columnOf_mem hc).1
    unfold Table.ccols at this
    obtain ⟨c0, h0, rfl⟩ := List.mem_map.1 this
    have hc0 : c0.props.get p = .json .null := by
      rcases hp with rfl | rfl
      · exact (ht.columns c0 h0).2.1
      · exact (ht.columns c0 h0).2.2
    show colUrl t p _ = _
    unfold colUrl
    split
    · refine inherit_null fun d hd => ?_
      unfold CCol.chain at hd
      rcases List.mem_cons.1 hd with rfl | hd
      · exact hc0
      · exact hpar d hd
    · exact hc0

theorem noTemplates_about (ht : NoTemplates t) (k : Str) : cellAbout (columnOf t k) = .json .null := by
  cases hc : columnOf t k with
  | none => rfl
  | some c =>
    have := (columnOf_mem hc).1
    unfold Table.ccols at this
    obtain ⟨c0, h0, rfl⟩ := List.mem_map.1 this
    exact (ht.columns c0 h0).1

theorem fromCol_plain (ht : NoTemplates t) (k p : Str) (v : CVal) :
    fromCol e t (columnOf t k) row p v n = (formatValue e.ext e.jx (columnOf t k) v).map fun w => { about := none, property := p, value := w } := by
  unfold fromCol
  rw [noTemplates_url ht (.inl rfl), noTemplates_url ht (.inr rfl), noTemplates_about ht]
  show (formatValue e.ext e.jx (columnOf t k) v).bind _ = _
  cases formatValue e.ext e.jx (columnOf t k) v <;> rfl

/-- The triple for a cell which is shown. -/
def CellTriple (e : Env) (t : Table) (p : Str × CVal) (u : Triple) : Prop :=
  u.about = none ∧ u.property = p.1 ∧ formatValue e.ext e.jx (columnOf t p.1) p.2 = .ok u.value

theorem cellTriples_plain (ht : NoTemplates t) (hn : t.schema.columns ≠ [] ∨ nm = true) : ∀ (items : RowDict) (i : Nat) (us : List Triple),
    cellTriples e t nm row n i items = .ok us ↔
      All2 (CellTriple e t) (items.filter fun p => !skipped e t (Dict.get p.1 (colsOf t)) p.2) us
  | [], i, us => by
    constructor
    · intro h; cases h; exact .nil
    · intro h; cases h; rfl
  | (k, v) :: r, i, us => by
    have hp : propName t nm i k = k := by
      unfold propName
      rw [if_neg]
      rcases hn with h | h <;> simp [h]
    unfold cellTriples
    by_cases hs : skipped e t (Dict.get k (colsOf t)) v = true
    · rw [if_pos hs, List.filter_cons_of_neg (by simp [hs])]
      exact cellTriples_plain ht hn r (i + 1) us
    · rw [if_neg hs, List.filter_cons_of_pos (by simp [hs]), hp, colsOf_get, fromCol_plain ht]
      constructor
      · intro h
        obtain ⟨a, ha, h'⟩ := Datatype.bind_ok h
        obtain ⟨as, has, h''⟩ := Datatype.bind_ok h'
        cases h''
        obtain ⟨w, hw, rfl⟩ := Except.map_eq_ok.1 ha
        exact .cons ⟨rfl, rfl, hw⟩ ((cellTriples_plain ht hn r (i + 1) as).1 has)
      · intro h
        cases h with
        | @cons _ u _ us' h1 h2 =>
          obtain ⟨a1, a2, a3⟩ := h1
          have h3 := (cellTriples_plain ht hn r (i + 1) us').2 h2
          rw [h3, a3]
          cases u
          simp only at a1 a2
          subst a1 a2
          rfl

theorem merge_distinct : ∀ (ts acc : List Triple), ((acc ++ ts).map Triple.property).Nodup → merge acc ts = acc ++ ts
  | [], acc, _ => by simp [merge]
  | t :: r, acc, h => by
    have hne : extend t acc = acc ++ [t] := by
      have : ∀ u ∈ acc, u.property ≠ t.property := by
        intro u hu he
        simp only [List.map_append, List.map_cons] at h
        have := (List.nodup_append.1 h).2.2 u.property (List.mem_map.2 ⟨u, hu, rfl⟩) t.property (by simp)
        exact this he
      clear h
      induction acc with
      | nil => rfl
      | cons u acc ih =>
        unfold extend
        rw [if_neg (by simp [this u (by simp)]), ih fun u hu => this u (by simp [hu])]
        rfl
    unfold merge
    have : (if isList t.value then extend t acc else acc ++ [t]) = acc ++ [t] := by rw [hne]; split <;> rfl
    rw [this, merge_distinct r (acc ++ [t]) (by simpa using h)]
    simp

theorem foldl_addTop_distinct : ∀ (ts : List Triple) (g : List (Str × PropVal)), (∀ u ∈ ts, u.about = none) →
    (Dict.keys g ++ ts.map Triple.property).Nodup → ts.foldl addTop g = g ++ ts.map fun u => (u.property, .of u.value)
  | [], g, _, _ => by simp
  | u :: r, g, ha, h => by
    have hk : u.property ∉ Dict.keys g := by
      intro hk
      have := (List.nodup_append.1 h).2.2 _ hk u.property (by simp)
      exact this rfl
    have hadd : addTop g u = g ++ [(u.property, .of u.value)] := by
      unfold addTop
      split
      · next hu =>
        have : u.property = "@id".toList := by simp at hu; exact hu.2
        rw [← this, Dict.set_eq_append_of_not_mem hk]
      · unfold addValue
        rw [(Dict.get_eq_none_iff _ _).2 hk]
        simp only
        rw [Dict.set_eq_append_of_not_mem hk]
    rw [List.foldl_cons, hadd, foldl_addTop_distinct r _ (fun x hx => ha x (by simp [hx]))]
    · simp
    · simpa [Dict.keys] using h

theorem groupTriples_distinct {jx : JExt} {ts : List Triple} (ha : ∀ u ∈ ts, u.about = none) (hd : (ts.map Triple.property).Nodup) :
    groupTriples jx ts = .ok [ts.map fun u => (u.property, .prop (.of u.value))] := by
  unfold groupTriples
  rw [if_pos (others_nil ha)]
  unfold grouped
  rw [merge_distinct ts [] (by simpa using hd), List.nil_append, filter_top ha, foldl_addTop_distinct ts [] ha (by simpa [Dict.keys] using hd)]
  simp [outGroup]

theorem all2_keys {R : Str × CVal → Triple → Prop} (hR : ∀ p u, R p u → u.property = p.1) : ∀ {l : RowDict} {us : List Triple}, All2 R l us →
    us.map Triple.property = l.map Prod.fst
  | _, _, .nil => rfl
  | _, _, .cons h r => by simp [hR _ _ h, all2_keys hR r]

/-- **C65** For a table without URI templates and virtual columns whose columns are described (or which has no metadata at all), a row describes
one object: with a property for each cell in the order of the row except for those which are null, suppressed or empty lists, whose name is
the one of the column and whose value is the value of the cell as JSON-LD literal. (If a value has no literal, the conversion fails.) -/
theorem C65_object (heq : ∀ v s, e.eq v (.one (.str s)) = decide (v = .one (.str s))) (ht : NoTemplates t)
    (hv : ∀ c ∈ t.schema.columns, c.virtual = false) (hn : t.schema.columns ≠ [] ∨ nm = true) (hk : (row.map Prod.fst).Nodup)
    (shown : Str × CVal → Bool) (hs : ∀ k v, shown (k, v) = true ↔ ¬ Omitted t k v) (os : List (List (Str × Out))) :
    describes e t nm row n = .ok os ↔ ∃ o, os = [o] ∧
      All2 (fun p q => q.1 = p.1 ∧ ∃ w, formatValue e.ext e.jx (columnOf t p.1) p.2 = .ok w ∧ q.2 = .prop (.of w)) (row.filter shown) o := by
  have hf : (row.filter fun p => !skipped e t (Dict.get p.1 (colsOf t)) p.2) = row.filter shown := by
    refine List.filter_congr fun p _ => ?_
    have h1 := skipped_iff (e := e) heq hv p.1 p.2
    have h2 := hs p.1 p.2
    rw [← h1] at h2
    cases h3 : skipped e t (Dict.get p.1 (colsOf t)) p.2 with
    | true => rw [h3] at h2; simpa using h2
    | false => rw [h3] at h2; simpa using h2
  have ha : rowTriples e t row n = .ok [] := by
    unfold rowTriples
    rw [inherit_null (p := .aboutUrl) fun d hd => ht.about d hd]
    rfl
  have hvt : virtualTriples e t row n t.ccols = .ok [] := by
    have : ∀ c ∈ t.ccols, c.col.virtual = false := by
      intro c hc
      unfold Table.ccols at hc
      obtain ⟨c0, h0, rfl⟩ := List.mem_map.1 hc
      exact hv c0 h0
    revert this
    generalize t.ccols = l
    intro this
    induction l with
    | nil => rfl
    | cons c r ih =>
      unfold virtualTriples
      rw [if_neg (by simp [this c (by simp)])]
      exact ih fun c hc => this c (by simp [hc])
  have hgt : ∀ {us : List Triple}, All2 (CellTriple e t) (row.filter shown) us →
      groupTriples e.jx us = .ok [us.map fun u => (u.property, .prop (.of u.value))] := by
    intro us h
    refine groupTriples_distinct ?_ ?_
    · intro u hu
      obtain ⟨p, -, hp⟩ := All2_mem_right h u hu
      exact hp.1
    · rw [all2_keys (fun p u h => h.2.1) h]
      exact List.Nodup.sublist (List.Sublist.map _ List.filter_sublist) hk
  unfold describes
  constructor
  · intro h
    obtain ⟨a, ha', h1⟩ := Datatype.bind_ok h
    obtain ⟨b, hb, h2⟩ := Datatype.bind_ok h1
    obtain ⟨c, hc, h3⟩ := Datatype.bind_ok h2
    rw [ha] at ha'; cases ha'
    rw [hvt] at hc; cases hc
    have hb' := (cellTriples_plain ht hn row 1 b).1 hb
    rw [hf] at hb'
    simp only [List.nil_append, List.append_nil] at h3
    rw [hgt hb'] at h3
    cases h3
    refine ⟨_, rfl, ?_⟩
    clear hb h1 h2 h hgt hf
    generalize row.filter shown = items at hb'
    induction hb' with
    | nil => exact .nil
    | cons h1 h2 ih => exact .cons ⟨h1.2.1, _, h1.2.2, rfl⟩ ih
  · rintro ⟨o, rfl, h⟩
    have : ∃ us, All2 (CellTriple e t) (row.filter shown) us ∧ o = us.map fun u => (u.property, .prop (.of u.value)) := by
      clear hgt hf
      generalize row.filter shown = items at h
      induction h with
      | nil => exact ⟨[], .nil, rfl⟩
      | @cons p q l m h1 h2 ih =>
        obtain ⟨us, i1, rfl⟩ := ih
        obtain ⟨h3, w, h4, h5⟩ := h1
        refine ⟨⟨none, p.1, w⟩ :: us, .cons ⟨rfl, rfl, h4⟩ i1, ?_⟩
        rw [List.map_cons, show q = (p.1, .prop (.of w)) from Prod.ext h3 h5]
    obtain ⟨us, h1, rfl⟩ := this
    have hb := (cellTriples_plain (row := row) (n := n) ht hn row 1 us).2 (by rw [hf]; exact h1)
    rw [ha, hb, hvt]
    show groupTriples e.jx ([] ++ (us ++ [])) = _
    rw [List.append_nil, List.nil_append, hgt h1]

end

/-! ## Examples and defects -/

/-- A table with a column `a` of strings and a column `b` of integers. -/
def jsonTable : TableD :=
  { like := { url := some "t.csv".toList,
              schema := { columns := [{ name := some ['a'], number := 1 },
                                      { name := some ['b'], props := { datatype := .dtype { base := .integer } }, number := 2 }] } } }

/-- The table in a group with a title. -/
def jsonData : Data := { desc := .inr { like := { props := { common := [("dc:title".toList, .str ['T'])] } }, tables := [jsonTable] } }

/-- The table as used for reading. -/
def jsonTable' : Table := GroupD.table { like := { props := { common := [("dc:title".toList, .str ['T'])] } }, tables := [jsonTable] } jsonTable

/-- External functions where Python's `==` is equality of representations, and `u` is the URL of all tables. -/
def jsonEnv (ext : Ext) (x : MExt) (jx : JExt) : Env :=
  { ext, x, jx := { jx with resolve := fun _ => "u".toList }, eq := fun a b => decide (a = b) }

theorem jsonTable_rows (ext : Ext) (x : MExt) : Table.iterdicts ext x jsonTable' false false "a,b\nx,5\n,6\n".toList =
    { rows := [(2, [(['a'], .one (.str ['x'])), (['b'], .one (.int 5))]), (3, [(['a'], .one .none), (['b'], .one (.int 6))])] } := by
  have h : DataRows jsonTable' "a,b\nx,5\n,6\n".toList [(1, [['a'], ['b']]), (2, [['x'], ['5']]), (3, [[], ['6']])] none :=
    ⟨_, rfl, by decide +kernel, by decide +kernel⟩
  exact (iterdicts_eq h).trans rfl

/-- The result for a data file: the hypotheses of C64 and C65 hold for this dataset. -/
theorem C64_example (ext : Ext) (x : MExt) (jx : JExt) :
    ToJson.toJson (jsonEnv ext x jx) (fun _ => "a,b\nx,5\n,6\n".toList) jsonData =
    .ok (.obj [("dc:title".toList, .json (.str ['T'])), ("tables".toList, .list [
      .obj [("url".toList, .json (.str "u".toList)), ("row".toList, .list [
        .obj [("url".toList, .json (.str "u#row=2".toList)), ("rownum".toList, .json (.int 1)), ("describes".toList, .list [
          .obj [(['a'], .prop (.one (.str ['x']))), (['b'], .prop (.one (.int 5)))]])],
        .obj [("url".toList, .json (.str "u#row=3".toList)), ("rownum".toList, .json (.int 2)), ("describes".toList, .list [
          .obj [(['b'], .prop (.one (.int 6)))]])]])]])]) := by
  have hc : commentsOf jsonTable' "a,b\nx,5\n,6\n".toList = [] := by decide +kernel
  have ht : tableToJson (jsonEnv ext x jx) false jsonTable jsonTable' "a,b\nx,5\n,6\n".toList = .ok (
      .obj [("url".toList, .json (.str "u".toList)), ("row".toList, .list [
        .obj [("url".toList, .json (.str "u#row=2".toList)), ("rownum".toList, .json (.int 1)), ("describes".toList, .list [
          .obj [(['a'], .prop (.one (.str ['x']))), (['b'], .prop (.one (.int 5)))]])],
        .obj [("url".toList, .json (.str "u#row=3".toList)), ("rownum".toList, .json (.int 2)), ("describes".toList, .list [
          .obj [(['b'], .prop (.one (.int 6)))]])]])]) := by
    unfold tableToJson
    rw [show tableHead (jsonEnv ext x jx) jsonTable jsonTable' = .ok [("url".toList, .json (.str "u".toList))] from rfl, hc]
    rw [show (jsonEnv ext x jx).ext = ext from rfl, show (jsonEnv ext x jx).x = x from rfl, jsonTable_rows]
    rfl
  unfold ToJson.toJson
  rw [show commonOf jsonData = .ok [("dc:title".toList, .str ['T'])] from rfl, show jsonData.tables = [(jsonTable, jsonTable')] from rfl,
    show jsonData.noMetadata = false from rfl]
  unfold tablesToJson
  rw [if_neg (by decide), ht]
  rfl

example : NoTemplates jsonTable' ∧ (∀ p ∈ jsonData.tables, CommonOnly p.1.like.props.common) ∧ (∀ c ∈ jsonTable'.schema.columns, c.virtual = false) ∧
    jsonTable'.schema.columns ≠ [] := by
  refine ⟨⟨?_, ?_, ?_, ?_⟩, ?_, ?_, ?_⟩
  · decide
  · decide
  · decide
  · decide
  · intro p hp k hk
    simp only [jsonData, Data.tables, List.map_cons, List.map_nil, List.mem_singleton] at hp
    subst hp
    cases hk
  · decide
  · decide

/-- A table with one column, and the inherited properties of its schema. -/
def oneColumn (d : Descr) (c : Column) : Table := { schema := { props := d, columns := [c] }, url := "t.csv".toList }

/-- A date. -/
def someDate : DateTime := { year := 2020, month := 1, day := 2 }

/-- **Defect**: a datatype which a column inherits is used for reading, but not for writing JSON: a date in a column which inherits `date`
from its schema makes the conversion fail with `AttributeError`. -/
theorem C65_inherited_datatype_violated (e : Env) (heq : ∀ v s, e.eq v (.one (.str s)) = decide (v = .one (.str s))) (n : Nat) :
    describes e (oneColumn { datatype := .dtype { base := .date } } { name := some ['d'], number := 1 }) false
      [(['d'], .one (.dt someDate))] n = .error .attributeError ∧
    describes e (oneColumn {} { name := some ['d'], props := { datatype := .dtype { base := .date } }, number := 1 }) false
      [(['d'], .one (.dt someDate))] n = .ok [[(['d'], .prop (.one (.str "2020-01-02".toList)))]] := by
  have h1 : ∀ t c, nullOf t c = [[]] → emptyList c (.one (.dt someDate)) = false → (c.any fun c => c.col.suppressOutput || c.col.virtual) = false →
      skipped e t c (.one (.dt someDate)) = false := by
    intro t c hn hl hc
    unfold skipped
    rw [hn, hl, hc]
    simp [heq]
  constructor
  · unfold describes cellTriples
    rw [h1 _ _ rfl rfl rfl]
    rfl
  · unfold describes cellTriples
    rw [h1 _ _ rfl rfl rfl]
    rfl

/-- **Defect**: virtual columns whose output is suppressed are shown all the same, and those without `valueUrl` as `null`. -/
theorem C65_virtual_violated (e : Env) (n : Nat) :
    describes e (oneColumn {} { name := some ['v'], virtual := true, suppressOutput := true, number := 1 }) false [] n =
      .ok [[(['v'], .prop (.one .none))]] := rfl

/-- **Defect**: empty lists are only left out if the separator is a property of the column itself, not if it is inherited. -/
theorem C65_inherited_separator_violated (e : Env) (heq : ∀ v s, e.eq v (.one (.str s)) = decide (v = .one (.str s))) (n : Nat) :
    describes e (oneColumn { separator := .str [';'] } { name := some ['l'], number := 1 }) false
      [(['l'], .many [])] n = .ok [[(['l'], .prop (.many []))]] ∧
    describes e (oneColumn {} { name := some ['l'], props := { separator := .str [';'] }, number := 1 }) false
      [(['l'], .many [])] n = .ok [[]] := by
  constructor
  · unfold describes cellTriples
    rw [show skipped e (oneColumn { separator := .str [';'] } { name := some ['l'], number := 1 }) _ (.many []) = false from ?_]
    · rfl
    · unfold skipped
      simp only [heq]
      rfl
  · unfold describes cellTriples
    rw [show skipped e (oneColumn {} { name := some ['l'], props := { separator := .str [';'] }, number := 1 }) _ (.many []) = true from ?_]
    · rfl
    · unfold skipped
      simp only [heq]
      rfl

/-- **Defect**: lists of values are not converted to JSON-LD literals: dates stay Python objects (which `json.dump` rejects), and decimals are not
made numbers. -/
theorem C65_list_violated (ext : Ext) (jx : JExt) (col : Option CCol) (d : DateTime) :
    formatValue ext jx col (.many [.dt d]) = .ok (.many [.dt d]) ∧ ∃ s, formatValue ext jx none (.one (.dt d)) = .ok (.one (.str s)) :=
  ⟨rfl, _, rfl⟩

/-- **Defect**: comments in the data file replace the property `rdfs:comment` of the metadata. -/
theorem C64_comment_violated {e : Env} {nm : Bool} {d : TableD} {t : Table} {text : Str} {o : Out} (h : tableToJson e nm d t text = .ok o)
    (hc : commentsOf t text ≠ []) : prop "rdfs:comment" o = some (.json (.arr ((commentsOf t text).map .str))) := by
  unfold tableToJson at h
  obtain ⟨head, hh, h'⟩ := Datatype.bind_ok h
  obtain ⟨rows, hr, h''⟩ := Datatype.bind_ok h'
  cases herr : (t.iterdicts e.ext e.x false false text).err with
  | some err => simp only [herr] at h''; cases h''
  | none =>
    simp only [herr] at h''
    cases h''
    show Dict.get "rdfs:comment".toList _ = _
    rw [Dict.get_set_ne (by decide)]
    unfold withComments
    rw [if_neg hc]
    exact Dict.get_set_self _ _ _

end Csvw.Props
