import Verif.Props.C93
import Verif.Props.C88b
import Verif.Props.C76
/-!
# C93: an example
-/

namespace Csvw.Props
open Csvw Spec Table

/-- A table whose rows refer to rows of the same table. -/
def treeDoc : List (Str × J) :=
  [("@context".toList, .str "http://www.w3.org/ns/csvw".toList), ("url".toList, .str "t.csv".toList),
   ("tableSchema".toList, .obj [("columns".toList, .arr [.obj [("name".toList, .str "ID".toList)], .obj [("name".toList, .str "Up".toList)]]),
     ("foreignKeys".toList, .arr [.obj [("columnReference".toList, .str "Up".toList),
       ("reference".toList, .obj [("resource".toList, .str "t.csv".toList), ("columnReference".toList, .str "ID".toList)])]]),
     ("primaryKey".toList, .str "ID".toList)])]

def treeKey : ForeignKey := { columnReference := ["Up".toList], resource := some "t.csv".toList, refColumns := ["ID".toList] }

def treeTable : TableD :=
  { like := { props := { atProps := [("context".toList, .str "http://www.w3.org/ns/csvw".toList)] }
              schema := { columns := [{ name := some "ID".toList, number := 1 }, { name := some "Up".toList, number := 2 }],
                          foreignKeys := [treeKey], primaryKey := some ["ID".toList] }
              url := some "t.csv".toList } }

def treeFile : FTable := ⟨treeTable, some ⟨false, [['d'], "md.json".toList]⟩⟩

def treeRows : List RowDict :=
  [[("ID".toList, .one (.str ['a'])), ("Up".toList, .one (.str ['a']))], [("ID".toList, .one (.str ['b'])), ("Up".toList, .one (.str ['a']))]]

section
variable {ext : Ext} {x : MExt} {other : Base → Derived → J → Res Val} {ver : CsvLib.CsvVer}

theorem tree_writable : Writable ext x ver treeTable.single treeRows := by
  refine ⟨?_, by decide +kernel, by decide +kernel, by decide +kernel, ⟨',', '"', ['\r', '\n'], ⟨rfl, rfl, ⟨_, rfl⟩, .inl rfl, by decide, by decide, by decide, by decide, .inr rfl⟩⟩,
    ⟨[[['a'], ['a']], [['b'], ['a']]], ?_, ?_, .inl rfl, ⟨rfl, rfl, rfl, by decide, by decide⟩, by unfold Storable; decide, noBom (by decide)⟩⟩
  · intro c hc
    have hc' : c ∈ treeTable.like.schema.columns := hc
    simp only [treeTable, List.mem_cons, List.not_mem_nil, or_false] at hc'
    rcases hc' with rfl | rfl <;> exact ⟨rfl, _, _, rfl⟩
  · exact .cons (.cons ⟨⟨_, rfl, rfl⟩, rfl⟩ (.cons ⟨⟨_, rfl, rfl⟩, rfl⟩ .nil)) (.cons (.cons ⟨⟨_, rfl, rfl⟩, rfl⟩ (.cons ⟨⟨_, rfl, rfl⟩, rfl⟩ .nil)) .nil)
  · intro row _ p hp
    refine C88_quiet_plain ?_ _
    have := (List.mem_filter.1 (List.of_mem_zip hp).1).1
    have h2 : p.1 ∈ treeTable.like.schema.columns.map fun c => (⟨c, treeTable.single.parents⟩ : CCol) := this
    simp only [treeTable, List.map_cons, List.map_nil, List.mem_cons, List.not_mem_nil, or_false] at h2
    rcases h2 with h2 | h2 <;> rw [h2] <;> rfl

theorem tree_noReturns {text : Str} (ht : treeTable.single.write ext x ver true (treeRows.map .dict) = .ok text) : NoReturns treeTable.single text := by
  have hcells : All2 (RowRoundTrips ext x treeTable.single) treeRows [[['a'], ['a']], [['b'], ['a']]] :=
    .cons (.cons ⟨⟨_, rfl, rfl⟩, rfl⟩ (.cons ⟨⟨_, rfl, rfl⟩, rfl⟩ .nil)) (.cons (.cons ⟨⟨_, rfl, rfl⟩, rfl⟩ (.cons ⟨⟨_, rfl, rfl⟩, rfl⟩ .nil)) .nil)
  have hq : QuoteDialect ver treeTable.single.getDialect ',' '"' ['\r', '\n'] :=
    ⟨rfl, rfl, ⟨_, rfl⟩, .inl rfl, by decide, by decide, by decide, by decide, .inr rfl⟩
  exact written_noReturns hcells (by decide +kernel) hq (.inl rfl) (by unfold Storable; decide) (noBom (by decide)) ht (by decide)

theorem tree_keys : KeysHold exactEq treeTable.single treeRows := by
  intro key hk
  have h : some ["ID".toList] = some key := hk
  cases h
  constructor
  · intro d hd k hk
    rw [List.mem_singleton] at hk
    subst hk
    simp only [treeRows, List.mem_cons, List.not_mem_nil, or_false] at hd
    rcases hd with rfl | rfl <;> exact ⟨_, rfl, rfl⟩
  · refine List.pairwise_cons.2 ⟨?_, List.pairwise_singleton _ _⟩
    intro r hr h
    rw [List.mem_singleton] at hr
    subst hr
    exact absurd (h _ (List.mem_singleton.2 rfl)) (by decide)

theorem tree_refs : ReferencesHold exactEq (fun _ => treeRows) ⟨[{ treeTable.single with group := some ({}, none) }]⟩ := by
  generalize hT : ({ treeTable.single with group := some ({}, none) } : Table) = T
  have hfk : ∀ t fk, IsForeignKey ⟨[T]⟩ t fk → t = T ∧ fk = treeKey := by
    rintro t fk ⟨h1, h2, -⟩
    rw [List.mem_singleton] at h1
    subst h1
    refine ⟨rfl, ?_⟩
    rw [← hT] at h2
    exact List.mem_singleton.1 h2
  have hurl : T.url = "t.csv".toList := by rw [← hT]; rfl
  have hrow : ∀ row ∈ treeRows, valueOf row "Up".toList = .one (.str ['a']) := by
    intro row hr
    simp only [treeRows, List.mem_cons, List.not_mem_nil, or_false] at hr
    rcases hr with rfl | rfl <;> rfl
  have hkey : ∀ row ∈ treeRows, ∀ key, Reference treeKey.columnReference row key → key = [.one (.str ['a'])] := by
    intro row hr key hk
    cases hk with
    | @value c hc hn hl =>
      cases hc
      rw [hrow row hr]
    | @item c hc l hl i hi =>
      cases hc
      rw [hrow row hr] at hl
      cases hl
    | composite hc hn => exact absurd hc (by decide)
  constructor
  · rw [← hT]; decide +kernel
  · intro t fk h
    obtain ⟨rfl, rfl⟩ := hfk t fk h
    refine ⟨_, t, rfl, ⟨[], [], rfl, hurl, by simp⟩, ?_⟩
    intro row hr k hk
    exact (tree_keys _ rfl).1 row hr k hk
  · intro t fk h
    obtain ⟨rfl, rfl⟩ := hfk t fk h
    exact ⟨by decide, rfl, by decide +kernel⟩
  · intro t fk h row hr key hk v hv
    obtain ⟨rfl, rfl⟩ := hfk t fk h
    rw [hkey row hr key hk, List.mem_singleton] at hv
    subst hv
    rfl
  · intro t ht fk hf row hr c hc
    rw [List.mem_singleton] at ht
    subst ht
    rw [← hT] at hf
    have hf' : fk ∈ [treeKey] := hf
    rw [List.mem_singleton] at hf'
    subst hf'
    rw [show c = "Up".toList from List.mem_singleton.1 hc, hrow row hr]
    rintro (h | h) <;> cases h
  · intro t fk h r u hr hu row hrow' key hk
    obtain ⟨rfl, rfl⟩ := hfk t fk h
    rw [hkey row hrow' key hk]
    exact ⟨_, List.mem_cons_self, .cons rfl .nil⟩
  · intro t fk h r u hr hu
    obtain ⟨rfl, rfl⟩ := hfk t fk h
    exact (tree_keys _ rfl).2

/-- The hypotheses of the theorems are met. -/
theorem C93_example : DistinctKeys (.obj treeDoc) ∧ TableD.fromvalue ext x other (fun _ => .ok ()) (.obj treeDoc) = .ok treeFile.desc ∧
    LikeWritable ext treeTable.like ∧ NoEmptyLike treeTable.like ∧ FiniteLike treeTable.like ∧
    Warn.table ext x other (fun _ => .ok ()) treeDoc = false ∧ DeclaresCsvw treeDoc ∧ NoContextBase treeTable.like.props.atProps ∧
    Dict.get "base".toList treeTable.like.props.atProps = none := by
  have hcols : ∀ c ∈ treeTable.like.schema.columns, DescrWritable ext c.props ∧ NoEmptyProps c.props ∧ FiniteDescr c.props := by
    intro c hc
    simp only [treeTable, List.mem_cons, List.not_mem_nil, or_false] at hc
    rcases hc with rfl | rfl <;>
      exact ⟨plainWritable rfl rfl rfl rfl, noEmptyPlain rfl (.inl rfl) (.inl rfl), finitePlain (.inl rfl)⟩
  refine ⟨distinct_of_bool (by decide +kernel), rfl, ?_, ?_, ?_, rfl, .text [] [] (by decide +kernel), ?_, rfl⟩
  · exact ⟨plainWritable rfl rfl rfl rfl, plainWritable rfl rfl rfl rfl, fun c hc => (hcols c hc).1, fun d hd => by cases hd⟩
  · exact ⟨noEmptyPlain rfl (.inl rfl) (.inl rfl), noEmptyPlain rfl (.inl rfl) (.inl rfl), fun c hc => (hcols c hc).2.1⟩
  · exact ⟨finitePlain (.inl rfl), finitePlain (.inl rfl), fun c hc => (hcols c hc).2.2⟩
  · constructor
    · intro j hj; cases hj; exact .inl ⟨_, rfl⟩
    · intro l m hj; cases hj

/-- … and `C93_files` for it. -/
theorem C93_example_files {fx : FExt} {buf : Dsv.Buffering} (hjson : ∀ j, treeTable.asdict ext true = .ok j → fx.loads (fx.dumps j) = .ok j) (zipped : Bool) :
    ∃ w m t', (∀ d' : Disk, d'.isDir = oneDir.isDir → treeFile.writeOps ext x fx ver buf d' none true zipped (treeRows.map .dict) = (w, none) ∧
        treeTable.toFileOps ext fx buf d' ⟨false, [['d'], "md.json".toList]⟩ true = (m, none)) ∧
      ∀ ops, ops = w ++ m ∨ ops = m ++ w →
        FTable.fromFile ext x other (fun _ => .ok ()) fx (oneDir.run ops) ⟨false, [['d'], "md.json".toList]⟩ = .ok t' ∧
        ∀ n, t'.readAfter ext x fx (oneDir.run ops) n = .ok treeRows := by
  obtain ⟨h1, h2, h3, h4, -, -, -, h5, h6⟩ := C93_example (ext := ext) (x := x) (other := other)
  obtain ⟨text, ht⟩ := (tree_writable (ext := ext) (x := x) (ver := ver)).writes true
  obtain ⟨w, m, t', k1, k2⟩ := C93_files (other := other) (lk := fun _ => .ok ()) (fx := fx) (ver := ver) (buf := buf) (t := treeFile) (d := oneDir)
    (p := ⟨false, [['d'], "md.json".toList]⟩) (strict := true) (zipped := zipped) (base := none) (items := treeRows.map .dict) (rows := treeRows)
    rfl ⟨⟨_, h1, h2⟩, h3, h4⟩ hjson h6 (.inr ⟨rfl, rfl⟩)
    ⟨by decide, by decide, by decide, fun _ => by decide⟩ (by unfold AllDifferent; cases zipped <;> decide)
    (by
      have h := written_strict (tree_writable (ext := ext) (x := x) (ver := ver)) ht false
      have hr := (tree_writable (ext := ext) (x := x) (ver := ver)).readsLike ht (zipped := zipped) (fun _ => tree_noReturns ht)
      rw [← hr] at h
      exact ⟨text, ht, h.1, h.2.1⟩)
  exact ⟨w, m, t', k1, fun ops hops => ⟨(k2 ops hops).1, (k2 ops hops).2.2 h5⟩⟩

end
/-- **C93 is violated** if the description has an invalid URI template (which is accepted, with a warning, when it is read): `to_file` raises
`TypeError` after the old content of the metadata file was lost; what is left is the beginning of a JSON text. -/
theorem C93_violated_metadata {ext : Ext} {x : MExt} {fx : FExt} {other : Base → Derived → J → Res Val} : ∃ t ops,
    TableD.fromvalue ext x other (fun _ => .ok ()) (.obj [("url".toList, .str "t.csv".toList), ("aboutUrl".toList, .int 5)]) = .ok t ∧
      t.toFileOps ext fx .whole oldFiles ⟨false, [['d'], "md.json".toList]⟩ true = (ops, some .typeError) ∧
      (oldFiles.run ops).files ⟨false, [['d'], "md.json".toList]⟩ = some (.text (fx.cutTable t)) :=
  ⟨_, _, rfl, rfl, rfl⟩

end Csvw.Props
