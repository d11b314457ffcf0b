import Verif.Props.C87
import Verif.Props.C85c
/-!
# C87, C85: data reported valid is read by `TableGroup.read`, and can be converted to SQLite
-/

namespace Csvw.Props
open Csvw Csvw.Py Csvw.Spec Csvw.Db Csvw.Table Csvw.Datatypes

section
variable {ext : Ext} {x : MExt} {fx : FExt} {eq : PyEq} {d : Disk} {data : Str → Str} {g : FGroup} {ds ds' : Dataset}
  {items : List (Str × List RowDict)} {sx : SqlExt} {cmp : SqlCmp} {skip force : Bool} {old : Option Database}

theorem mapRes_total {α β : Type} {f : α → Res β} : ∀ {l : List α}, (∀ a ∈ l, ∃ b, f a = .ok b) → ∃ bs, mapRes f l = .ok bs
  | [], _ => ⟨[], rfl⟩
  | a :: l, h => by
    obtain ⟨b, hb⟩ := h a (by simp)
    obtain ⟨bs, hbs⟩ := mapRes_total (l := l) fun a ha => h a (by simp [ha])
    unfold mapRes
    rw [hb]
    simp only [hbs]
    exact ⟨_, rfl⟩

theorem readRows_of_text {t : Table} {text : Str} (hf : FileText fx d g.fname t text) (he : (t.iterdicts ext x true false text).err = none) :
    t.readRows ext x fx d g.fname = .ok ((t.iterdicts ext x true false text).rows.map Prod.snd) := by
  obtain ⟨l, h1, h2⟩ := hf
  unfold Table.readRows
  rw [h1]
  simp only [h2, he]

/-- **C87** If `is_valid` returns `True` for a table group, and the headers of the data files consist of the names of the columns, then `TableGroup.read`
succeeds and returns, for each table, the rows which `is_valid` has seen. -/
theorem C87_group (h : ds.isValid ext x eq data = .ok (true, ds')) (hd : ds.desc = .inr g.desc.group)
    (hf : ∀ t, TableNamed g.desc.group t.url t → FileText fx d g.fname t (data t.url))
    (hh : ∀ t, TableNamed g.desc.group t.url t → ∃ rows err, DataRows t (data t.url) rows err ∧ HeaderInOrder t rows) :
    ∃ items, g.read ext x fx d = .ok items ∧ ∀ t, TableNamed g.desc.group t.url t →
      Dict.get t.url items = some ((t.iterdicts ext x false false (data t.url)).rows.map Prod.snd) := by
  have hread : ∀ t, TableNamed g.desc.group t.url t →
      t.readRows ext x fx d g.fname = .ok ((t.iterdicts ext x false false (data t.url)).rows.map Prod.snd) := by
    intro t ht
    obtain ⟨rows, err, hr, ho⟩ := hh t ht
    obtain ⟨h1, _, h3⟩ := C87_read h (.member hd (tableNamed_mem ht).1) hr ho false
    rw [readRows_of_text (hf t ht) h1, h3]
  have hex : ∃ items, g.read ext x fx d = .ok items := by
    unfold FGroup.read
    refine mapRes_total fun p hp => ?_
    have ht : TableNamed g.desc.group p.2.url p.2 := mem_values_tabledict.1 (List.mem_map_of_mem hp)
    rw [hread p.2 ht]
    exact ⟨_, rfl⟩
  obtain ⟨items, hi⟩ := hex
  refine ⟨items, hi, fun t ht => ?_⟩
  obtain ⟨rows, h1, h2⟩ := items_of_table hi ht
  rw [hread t ht] at h1
  cases h1
  exact h2

/-- **C85** If `is_valid` returns `True` for a table group, and it can be stored in a database, apart from what is checked by `is_valid`, then the conversion to a
database succeeds, and the tables of the database hold the rows of the data files. -/
theorem C85_valid (heq : ExactEq eq) (h : ds.isValid ext x eq data = .ok (true, ds')) (hd : ds.desc = .inr g.desc.group)
    (hs : GroupStorable ext fx d data g items) (hr : g.read ext x fx d = .ok items)
    (hp : ∀ t ∈ g.desc.group.tables, t.url ∉ writeParams)
    (hE : ∀ tables, schema g.desc.group true = .ok tables → Enforces sx cmp nameTranslator tables) (hI : ReadsIntegers sx)
    (hold : old = none ∨ force = true) :
    ∃ db, writeFromTg ext x fx sx nameTranslator skip force true d g old = (some db, none) ∧
      ∀ t, TableNamed g.desc.group t.url t → ∃ spec rows, fromTable t true = .ok spec ∧ Dict.get t.url items = some rows ∧
        ∃ u ∈ db, u.name = t.url ∧ All2 (StoresRow ext sx nameTranslator spec) rows u.rows := by
  obtain ⟨_, h2, h3, _⟩ := (C57_iff (.group hd)).1 ⟨ds', h⟩
  exact C85_checked heq ⟨hs, fun t ht => (h2 t (.member hd (tableNamed_mem ht).1)).key, true, h3⟩ hr hp hE hI hold

end

/-! ## Example -/

/-- The contents of the data files of the group of `C85_example`, with the columns in order and without nulls. -/
def sortedData (url : Str) : Str :=
  if url = "a.csv".toList then "id,b,bs\nx,p,p q\ny,q,q\n".toList else "id\np\nq\n".toList

/-- The files. -/
def sortedDisk : Disk :=
  ⟨fun p => decide (p = ⟨false, [['d']]⟩),
   fun p => if p = ⟨false, [['d'], "a.csv".toList]⟩ then some (.text (sortedData "a.csv".toList))
     else if p = ⟨false, [['d'], "b.csv".toList]⟩ then some (.text (sortedData "b.csv".toList)) else none⟩

/-- The rows of `a.csv`. -/
def sortedA : List RowDict :=
  [[("id".toList, .one (.str ['x'])), ("b".toList, .one (.str ['p'])), ("bs".toList, .many [.str ['p'], .str ['q']])],
   [("id".toList, .one (.str ['y'])), ("b".toList, .one (.str ['q'])), ("bs".toList, .many [.str ['q']])]]

/-- The rows of `b.csv`. -/
def sortedB : List RowDict := [[("id".toList, .one (.str ['p']))], [("id".toList, .one (.str ['q']))]]

theorem sortedA_rows : DataRows linkedA (sortedData "a.csv".toList)
    [(1, ["id".toList, "b".toList, "bs".toList]), (2, [['x'], ['p'], "p q".toList]), (3, [['y'], ['q'], ['q']])] none :=
  ⟨_, rfl, by decide +kernel, by decide +kernel⟩

theorem sortedB_rows : DataRows linkedB (sortedData "b.csv".toList) [(1, ["id".toList]), (2, [['p']]), (3, [['q']])] none :=
  ⟨_, rfl, by decide +kernel, by decide +kernel⟩

section
variable (ext : Ext) (x : MExt) (fx : FExt)

theorem sortedA_iter (strict log : Bool) : linkedA.iterdicts ext x strict log (sortedData "a.csv".toList) = { rows := [(2, sortedA[0]), (3, sortedA[1])] } := by
  rw [iterdicts_eq sortedA_rows]
  cases log <;> cases strict <;> rfl

theorem sortedB_iter (strict log : Bool) : linkedB.iterdicts ext x strict log (sortedData "b.csv".toList) = { rows := [(2, sortedB[0]), (3, sortedB[1])] } := by
  rw [iterdicts_eq sortedB_rows]
  cases log <;> cases strict <;> rfl

theorem sorted_valid : ∃ ds', (Dataset.mk (.inr linkedFile.desc.group) false).isValid ext x exactEq sortedData = .ok (true, ds') := by
  rw [C57_iff (.group rfl)]
  have hA : ∀ log, fileReader ext x sortedData linkedA log = _ := sortedA_iter ext x true
  have hB : ∀ log, fileReader ext x sortedData linkedB log = _ := sortedB_iter ext x true
  have h2 : linkedFile.desc.group.foreignKeys = .ok [⟨linkedB, ["id".toList], linkedA, ["b".toList]⟩, ⟨linkedB, ["id".toList], linkedA, ["bs".toList]⟩] := by
    decide +kernel
  have ht : linkedFile.desc.group.tables = [linkedA, linkedB] := rfl
  refine ⟨rfl, ?_, ?_, ?_⟩
  · rintro t (h | ⟨h, hm⟩)
    · cases h
    · cases h
      rw [ht] at hm
      simp only [List.mem_cons, List.not_mem_nil, or_false] at hm
      rcases hm with rfl | rfl
      · have hu : linkedA.url = "a.csv".toList := rfl
        constructor
        · rw [hu, sortedA_iter]
        · rw [hu, sortedA_iter]
        · unfold checkPrimaryKey
          rw [show linkedA.schema.primaryKey = some ["id".toList] from rfl, hu, sortedA_iter]
          decide +kernel
        · intro _ _ _
          rw [hu, sortedA_iter]
      · have hu : linkedB.url = "b.csv".toList := rfl
        constructor
        · rw [hu, sortedB_iter]
        · rw [hu, sortedB_iter]
        · unfold checkPrimaryKey
          rw [show linkedB.schema.primaryKey = some ["id".toList] from rfl, hu, sortedB_iter]
          decide +kernel
        · intro _ _ _
          rw [hu, sortedB_iter]
  · have h1 : linkedFile.desc.group.validateSchema false = .ok () := by decide +kernel
    have h3 : (([⟨linkedB, ["id".toList], linkedA, ["b".toList]⟩, ⟨linkedB, ["id".toList], linkedA, ["bs".toList]⟩] : List FKey).mergeSort TableGroup.fkeyLe) =
        [⟨linkedB, ["id".toList], linkedA, ["b".toList]⟩, ⟨linkedB, ["id".toList], linkedA, ["bs".toList]⟩] :=
      List.mergeSort_of_pairwise (by decide +kernel)
    have h4 : (linkedFile.desc.group.tables.flatMap fun t => t.schema.foreignKeys.map fun fk => (t, fk)) =
        [(linkedA, { columnReference := ["b".toList], resource := some "b.csv".toList, refColumns := ["id".toList] }),
         (linkedA, { columnReference := ["bs".toList], resource := some "b.csv".toList, refColumns := ["id".toList] })] := rfl
    unfold TableGroup.checkReferentialIntegrity TableGroup.schemaOk
    rw [h1, h2, h4]
    simp only [if_true, TableGroup.nullChecks, hA]
    rw [h3]
    simp only [TableGroup.groupBy, if_true, TableGroup.tableGroups, TableGroup.tableGroup, TableGroup.allSeen, TableGroup.keyGroups, TableGroup.children, hA, hB]
    rfl
  · intro t hm
    unfold Dataset.readTables at hm
    rw [h2, ht] at hm
    have : t = linkedA ∨ t = linkedB := by
      rcases List.mem_append.1 hm with hm | hm
      · simpa using (List.mem_filter.1 hm).1
      · simp only [List.map_cons, List.map_nil, List.mem_cons, List.not_mem_nil, or_false] at hm
        rcases hm with rfl | rfl <;> simp
    rcases this with rfl | rfl
    · rw [show linkedA.url = "a.csv".toList from rfl, sortedA_iter]
    · rw [show linkedB.url = "b.csv".toList from rfl, sortedB_iter]

theorem sorted_text {t : Table} (ht : TableNamed linkedFile.desc.group t.url t) (text : Str) :
    FileText fx sortedDisk linkedFile.fname t text ↔ text = sortedData t.url := by
  rcases linked_named ht with rfl | rfl
  · constructor
    · rintro ⟨l, g1, g2⟩
      have hl : l = .file ⟨false, [['d'], "a.csv".toList]⟩ := (Except.ok.inj g1).symm.trans rfl
      subst hl
      exact (Except.ok.inj g2).symm
    · rintro rfl
      exact ⟨.file ⟨false, [['d'], "a.csv".toList]⟩, rfl, rfl⟩
  · constructor
    · rintro ⟨l, g1, g2⟩
      have hl : l = .file ⟨false, [['d'], "b.csv".toList]⟩ := (Except.ok.inj g1).symm.trans rfl
      subst hl
      exact (Except.ok.inj g2).symm
    · rintro rfl
      exact ⟨.file ⟨false, [['d'], "b.csv".toList]⟩, rfl, rfl⟩

theorem sorted_headers (t : Table) (ht : TableNamed linkedFile.desc.group t.url t) :
    ∃ rows err, DataRows t (sortedData t.url) rows err ∧ HeaderInOrder t rows := by
  rcases linked_named ht with rfl | rfl
  · refine ⟨_, _, sortedA_rows, ?_⟩
    intro _ r hr
    cases hr
    rfl
  · refine ⟨_, _, sortedB_rows, ?_⟩
    intro _ r hr
    cases hr
    rfl

theorem sorted_storable {items : List (Str × List RowDict)}
    (hi : ∀ t, TableNamed linkedFile.desc.group t.url t → Dict.get t.url items = some ((t.iterdicts ext x false false (sortedData t.url)).rows.map Prod.snd)) :
    GroupStorable ext fx sortedDisk sortedData linkedFile items := by
  have h0 := linked_checked ext x fx
  refine ⟨h0.expressible, h0.acyclic, h0.fresh, h0.few, h0.names, h0.plain, h0.tables, h0.links, ?_, ?_⟩
  · intro t ht
    refine ⟨sorted_text fx ht, ?_⟩
    rcases linked_named ht with rfl | rfl
    · exact ⟨[_], _, none, sortedA_rows, rfl, by decide +kernel, .inr (by decide +kernel)⟩
    · exact ⟨[_], _, none, sortedB_rows, rfl, by decide +kernel, .inr (by decide +kernel)⟩
  · intro t rows ht hg
    rw [hi t ht] at hg
    rcases linked_named ht with rfl | rfl
    · rw [show linkedA.url = "a.csv".toList from rfl, sortedA_iter] at hg
      have hrows : rows = sortedA := (Option.some.inj hg).symm
      subst hrows
      refine ⟨?_, by decide +kernel, ?_, ?_⟩
      · intro row hrow q hq w hw
        simp only [sortedA, List.mem_cons, List.not_mem_nil, or_false] at hrow
        rcases hrow with rfl | rfl <;> simp only [List.mem_cons, List.not_mem_nil, or_false] at hq <;>
          rcases hq with rfl | rfl | rfl <;> cases hw <;> simp [Safe]
      · intro pk hpk
        have : ["id".toList] = pk := Option.some.inj hpk
        subst this
        decide +kernel
      · intro fk _ _ _ pk hpk row hrow w hw
        have : "id".toList = pk := (List.cons.inj (Option.some.inj hpk)).1
        subst this
        simp only [sortedA, List.mem_cons, List.not_mem_nil, or_false] at hrow
        rcases hrow with rfl | rfl
        · have : CVal.one (.str ['x']) = .one w := Option.some.inj hw
          cases this
          rfl
        · have : CVal.one (.str ['y']) = .one w := Option.some.inj hw
          cases this
          rfl
    · rw [show linkedB.url = "b.csv".toList from rfl, sortedB_iter] at hg
      have hrows : rows = sortedB := (Option.some.inj hg).symm
      subst hrows
      refine ⟨?_, by decide +kernel, ?_, ?_⟩
      · intro row hrow q hq w hw
        simp only [sortedB, List.mem_cons, List.not_mem_nil, or_false] at hrow
        rcases hrow with rfl | rfl <;> simp only [List.mem_cons, List.not_mem_nil, or_false] at hq <;>
          rcases hq with rfl <;> cases hw <;> simp [Safe]
      · intro pk hpk
        have : ["id".toList] = pk := Option.some.inj hpk
        subst this
        decide +kernel
      · intro fk hfk
        have h' : fk ∈ ([] : List ForeignKey) := hfk
        cases h'

/-- The hypotheses of `C87_group` and `C85_valid` are met by the group of two tables which reference each other. -/
theorem C85_valid_example (sx : SqlExt) (cmp : SqlCmp) : ExactEq exactEq ∧
    (∃ ds', (Dataset.mk (.inr linkedFile.desc.group) false).isValid ext x exactEq sortedData = .ok (true, ds')) ∧
    (∀ t, TableNamed linkedFile.desc.group t.url t → FileText fx sortedDisk linkedFile.fname t (sortedData t.url) ∧
      ∃ rows err, DataRows t (sortedData t.url) rows err ∧ HeaderInOrder t rows) ∧
    (∃ items, linkedFile.read ext x fx sortedDisk = .ok items ∧ GroupStorable ext fx sortedDisk sortedData linkedFile items) ∧
    (∀ t ∈ linkedFile.desc.group.tables, t.url ∉ writeParams) ∧
    ∃ sx', (∀ tables, schema linkedFile.desc.group true = .ok tables → Enforces sx' cmp nameTranslator tables) ∧ ReadsIntegers sx' := by
  obtain ⟨_, _, _, h4, h5⟩ := C85_example ext x fx sx cmp
  obtain ⟨ds', hv⟩ := sorted_valid ext x
  have ht : ∀ t, TableNamed linkedFile.desc.group t.url t → FileText fx sortedDisk linkedFile.fname t (sortedData t.url) :=
    fun t ht => (sorted_text fx ht _).2 rfl
  obtain ⟨items, hi, hg⟩ := C87_group hv rfl ht sorted_headers
  exact ⟨exactEq_exact, ⟨ds', hv⟩, fun t h => ⟨ht t h, sorted_headers t h⟩, ⟨items, hi, sorted_storable ext x fx hg⟩, h4, h5⟩

end
end Csvw.Props
