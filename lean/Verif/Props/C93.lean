import Verif.Model.SingleFile
import Verif.Props.C91
import Verif.Props.C84
/-!
# C93: tables which are described on their own, and their files
-/

namespace Csvw.Spec

/-- The description of a table was read from JSON, and C74 applies to it. -/
structure RereadableTable (ext : Ext) (x : MExt) (other : Base → Derived → J → Res Val) (lk : EncLookup) (t : TableD) : Prop where
  read : ∃ j, DistinctKeys j ∧ TableD.fromvalue ext x other lk j = .ok t
  writable : LikeWritable ext t.like
  noEmpty : NoEmptyLike t.like

end Csvw.Spec

namespace Csvw.Props
open Csvw Spec Table

theorem table_norm_eq {t t' : TableD} (h : SameTable t t') (hn : NoEmptyLike t.like) : t'.single.norm = t.single.norm := by
  have h1 := Descr.norm_eq h.like.props hn.props
  have h2 := Descr.norm_eq h.like.schema.props hn.schema
  have h3 := columns_norm_eq h.like.schema.columns hn.columns
  have h4 : normKey t'.like.schema.primaryKey = normKey t.like.schema.primaryKey := by
    rcases h.like.schema.primaryKey with h | ⟨h, h'⟩
    · rw [h]
    · rw [h, h']; rfl
  have h5 : t'.single.getDialect = t.single.getDialect := by
    unfold getDialect TableD.single
    simp only [Option.bind_none]
    rcases h.like.dialect with hd | ⟨hd1, hd2⟩
    · rw [hd]
    · rw [hd1, hd2]; rfl
  unfold Table.norm
  rw [h5]
  simp only [TableD.single, h1, h2, h3, h4, h.like.schema.foreignKeys, h.like.url, Option.map_none]

theorem single_group_norm (t : Table) : t.group = none →
    ({ t.norm with group := some ({}, none) } : Table) = Table.norm { t with group := some ({}, none) } := by
  intro hg
  have h : ({ t with group := some ({}, none) } : Table).getDialect = t.getDialect := by
    unfold getDialect; rw [hg]; rfl
  unfold Table.norm
  rw [h]
  rfl

theorem single_isValid_norm (ext : Ext) (x : MExt) (eq : PyEq) (data : Str → Str) (t : Table) (w : Bool) (hg : t.group = none) :
    ((⟨.inl t.norm, w⟩ : Dataset).isValid ext x eq data).map Prod.fst = ((⟨.inl t, w⟩ : Dataset).isValid ext x eq data).map Prod.fst := by
  unfold Dataset.isValid
  have h1 : (⟨.inl t.norm, w⟩ : Dataset).tables = (⟨.inl t, w⟩ : Dataset).tables.map Table.norm := rfl
  have h2 : (⟨.inl t.norm, w⟩ : Dataset).tablegroup = (⟨.inl t, w⟩ : Dataset).tablegroup.norm := by
    show TableGroup.mk [({ t.norm with group := some ({}, none) } : Table)] = TableGroup.mk [Table.norm { t with group := some ({}, none) }]
    rw [single_group_norm t hg]
  rw [h1, h2, Dataset.checkTables_norm, TableGroup.checkReferentialIntegrity_norm (Dataset.reader_norm ext x data)]
  cases w with
  | true => rfl
  | false =>
    simp only [Bool.false_eq_true, if_false]
    cases Dataset.checkTables ext x eq data (⟨.inl t, false⟩ : Dataset).tables with
    | error e => rfl
    | ok w =>
      simp only
      cases (⟨.inl t, false⟩ : Dataset).tablegroup.checkReferentialIntegrity eq (Dataset.reader ext x data) false true with
      | error e => rfl
      | ok b => simp only [Dataset.readTables_norm]; rfl

section
variable {ext : Ext} {x : MExt} {other : Base → Derived → J → Res Val} {lk : EncLookup} {fx : FExt} {ver : CsvLib.CsvVer} {buf : Dsv.Buffering}

/-- **C93** If the description of a table which is not in a group, read from JSON, is written as JSON and read again, then the new description describes
the data in the same way: for any data and any program arguments reading, checking the primary key, writing, and `is_valid` have the same results. -/
theorem C93_reread (hlk : lk "utf-8".toList = .ok ()) {t : TableD} (ht : RereadableTable ext x other lk t) (omitDefaults : Bool) :
    ∃ j t', t.asdict ext omitDefaults = .ok j ∧ TableD.fromvalue ext x other lk j = .ok t' ∧ SameData t.single t'.single ∧
      ∀ ext x eq data w, ((⟨.inl t'.single, w⟩ : Dataset).isValid ext x eq data).map Prod.fst =
        ((⟨.inl t.single, w⟩ : Dataset).isValid ext x eq data).map Prod.fst := by
  obtain ⟨d, hd, h⟩ := ht.read
  obtain ⟨m, t', h1, h2, h3⟩ := table_roundtrip hlk hd h ht.writable omitDefaults
  have h4 := table_norm_eq h3 ht.noEmpty
  refine ⟨.obj m, t', h1, h2, sameData_of_norm h4, ?_⟩
  intro ext x eq data w
  rw [← single_isValid_norm _ _ _ _ _ _ rfl, h4, single_isValid_norm _ _ _ _ _ _ rfl]

theorem table_dropInvalid_eq {t : TableD} (h : LikeWritable ext t.like) : t.dropInvalid = t := by
  unfold TableD.dropInvalid
  rw [like_dropInvalid_eq h]

theorem single_toFile {t : TableD} (hw : LikeWritable ext t.like) {j : J} (hj : t.asdict ext true = .ok j) {d : Disk} {p : PPath}
    (hp : d.isDir p.parent = true ∧ d.isDir p = false) :
    t.toFileOps ext fx buf d p true = (FOp.create p :: (buf.pieces (fx.dumps j)).map (.append p), none) := by
  unfold TableD.toFileOps Disk.writable
  rw [table_dropInvalid_eq hw, hj, hp.1, hp.2]
  simp

theorem single_write_ok {t : FTable} {d : Disk} {p : PPath} {strict zipped : Bool} {base : Option PPath}
    (hto : base = some p.parent ∨ base = none ∧ t.fname = some p ∧ Dict.get "base".toList t.desc.like.props.atProps = none)
    (hd : DirsExist d p zipped [t.desc.single]) (hdiff : AllDifferent p zipped [t.desc.single]) {items : List Item} {text : Str}
    (hw : t.desc.single.write ext x ver strict items = .ok text) :
    t.writeOps ext x fx ver buf d base strict zipped items = (dataOps ext x ver buf d p strict zipped [(t.desc.single, items)], none) := by
  have hmem : t.desc.single ∈ [t.desc.single] := List.mem_singleton.2 rfl
  have h2 : resolveLink fx d t.table.url (.dir p.parent) = .file (dataFile p t.desc.single) := resolve_dataFile (t := t.desc.single) hd.metadata.1 (hd.local_ _ hmem)
  have h3 : t.writeTo fx d base = .ok (dataFile p t.desc.single) := by
    rcases hto with rfl | ⟨rfl, hf, hb⟩
    · unfold FTable.writeTo
      simp only
      rw [h2]
      rfl
    · unfold FTable.writeTo FTable.baseAfter baseOf
      simp only [Option.getD_none, hb, hf, h2]
      rfl
  have h1 := (writeOps_ok (buf := buf) (d' := d) hw (hd.data _ hmem)
    (fun h => ⟨hd.zip h _ hmem, zip_ne hdiff h _ hmem⟩)).1
  unfold FTable.writeOps
  rw [h3]
  simp only
  unfold dataOps
  rw [List.flatMap_cons, List.flatMap_nil, List.append_nil]
  exact Prod.ext rfl h1

/-- What is on the disk after writing the data and the description, in either order. -/
theorem single_files {t : FTable} (hlw : LikeWritable ext t.desc.like) {j : J} (hj : t.desc.asdict ext true = .ok j)
    {d : Disk} {p : PPath} {strict zipped : Bool} {base : Option PPath}
    (hto : base = some p.parent ∨ base = none ∧ t.fname = some p ∧ Dict.get "base".toList t.desc.like.props.atProps = none)
    (hd : DirsExist d p zipped [t.desc.single]) (hdiff : AllDifferent p zipped [t.desc.single]) {items : List Item} {text : Str}
    (hw : t.desc.single.write ext x ver strict items = .ok text) :
    ∃ w m, (∀ d' : Disk, d'.isDir = d.isDir → t.writeOps ext x fx ver buf d' base strict zipped items = (w, none) ∧
        t.desc.toFileOps ext fx buf d' p true = (m, none)) ∧
      ∀ ops, ops = w ++ m ∨ ops = m ++ w → (d.run ops).files p = some (.text (fx.dumps j)) ∧
        Holds fx (d.run ops) (dataFile p t.desc.single) (asRead zipped text) := by
  have hmem : t.desc.single ∈ [t.desc.single] := List.mem_singleton.2 rfl
  have hitem : (t.desc.single, items) ∈ [(t.desc.single, items)] := List.mem_singleton.2 rfl
  have hne : ∀ q ∈ touched p zipped t.desc.single, p ≠ q := by
    intro q hq h
    refine (List.nodup_cons.1 hdiff).1 (List.mem_flatMap.2 ⟨_, hmem, ?_⟩)
    exact Eq.subst (motive := fun q => q ∈ touched p zipped t.desc.single) h.symm hq
  have htgt : ∀ o ∈ (FOp.create p :: (buf.pieces (fx.dumps j)).map (.append p)), o.target = p := by
    intro o ho
    rcases List.mem_cons.1 ho with rfl | ho
    · rfl
    · obtain ⟨a, -, rfl⟩ := List.mem_map.1 ho
      rfl
  refine ⟨dataOps ext x ver buf d p strict zipped [(t.desc.single, items)], FOp.create p :: (buf.pieces (fx.dumps j)).map (.append p), ?_, ?_⟩
  · intro d' hdir
    have hd' : DirsExist d' p zipped [t.desc.single] :=
      ⟨by rw [hdir]; exact hd.metadata, hd.local_, fun t h => by rw [hdir]; exact hd.data t h, fun h t ht => by rw [hdir]; exact hd.zip h t ht⟩
    refine ⟨?_, single_toFile hlw hj hd'.metadata⟩
    rw [single_write_ok hto hd' hdiff hw]
    have : dataOps ext x ver buf d' p strict zipped [(t.desc.single, items)] = dataOps ext x ver buf d p strict zipped [(t.desc.single, items)] := by
      unfold dataOps Table.writeOps Disk.writable
      rw [hdir]
    rw [this]
  · have hdir : ∀ ops, (d.run ops).isDir (dataFile p t.desc.single) = false := by
      intro ops; rw [Disk.isDir_run]; exact (hd.data _ hmem).2
    rintro ops (rfl | rfl)
    · rw [Disk.run_append]
      refine ⟨Disk.run_write buf _ _, ?_⟩
      have hst := dataOps_stored (ext := ext) (x := x) (ver := ver) (buf := buf) (strict := strict) (d' := d) (l := [(t.desc.single, items)]) hd hdiff _ hitem text hw
      have hst' := hst.mono
        (d' := (d.run (dataOps ext x ver buf d p strict zipped [(t.desc.single, items)])).run (FOp.create p :: (buf.pieces (fx.dumps j)).map (.append p)))
        (Disk.run_other fun o ho => by rw [htgt o ho]; exact hne _ (mem_touched (zipped := zipped)).1)
        (fun hz => Disk.run_other fun o ho => by rw [htgt o ho]; exact hne _ ((mem_touched (zipped := zipped)).2 hz))
      exact hst'.holds fx (by rw [Disk.isDir_run]; exact hdir _)
    · rw [Disk.run_append]
      have hst := dataOps_stored (ext := ext) (x := x) (ver := ver) (buf := buf) (strict := strict)
        (d' := d.run (FOp.create p :: (buf.pieces (fx.dumps j)).map (.append p))) (l := [(t.desc.single, items)]) hd hdiff _ hitem text hw
      refine ⟨?_, hst.holds fx (by rw [Disk.isDir_run]; exact hdir _)⟩
      rw [Disk.run_other, Disk.run_write]
      intro o ho h
      have := dataOps_targets ho
      rw [h] at this
      simp only [List.map_cons, List.map_nil, List.flatMap_cons, List.flatMap_nil, List.append_nil] at this
      exact hne _ this rfl

/-- **C93** A description of a table which is not in a group was read from JSON. Writing it with `to_file(p)` and writing rows with
`write(rows, base=p.parent)` – or `write(rows)`, if the description was read from `p` – succeeds, zipped or not, in either order; then `from_file(p)` gives a table
whose `iterdicts()` returns the rows which `iterdicts` reads from what `write` returns. This also holds after the table was put into a group, any number of times
(C84), if its context has no `@base`. -/
theorem C93_files (hlk : lk "utf-8".toList = .ok ()) {t : FTable} (ht : RereadableTable ext x other lk t.desc)
    (hjson : ∀ j, t.desc.asdict ext true = .ok j → fx.loads (fx.dumps j) = .ok j)
    (hbase : Dict.get "base".toList t.desc.like.props.atProps = none) {d : Disk} {p : PPath} {strict zipped : Bool} {base : Option PPath}
    (hto : base = some p.parent ∨ base = none ∧ t.fname = some p)
    (hd : DirsExist d p zipped [t.desc.single]) (hdiff : AllDifferent p zipped [t.desc.single]) {items : List Item} {rows : List RowDict}
    (hrt : WrittenAndRead ext x ver strict zipped t.desc.single items rows) :
    ∃ w m t', (∀ d' : Disk, d'.isDir = d.isDir → t.writeOps ext x fx ver buf d' base strict zipped items = (w, none) ∧
        t.desc.toFileOps ext fx buf d' p true = (m, none)) ∧
      ∀ ops, ops = w ++ m ∨ ops = m ++ w → FTable.fromFile ext x other lk fx (d.run ops) p = .ok t' ∧
        t'.readAfter ext x fx (d.run ops) 0 = .ok rows ∧
        (NoContextBase t.desc.like.props.atProps → ∀ n, t'.readAfter ext x fx (d.run ops) n = .ok rows) := by
  obtain ⟨dj, hdj, h⟩ := ht.read
  obtain ⟨m0, t', h1, h2, h3⟩ := table_roundtrip hlk hdj h ht.writable true
  have hs := sameData_of_norm (table_norm_eq h3 ht.noEmpty)
  obtain ⟨text, w1, w2, w3⟩ := hrt
  obtain ⟨w, m, k1, k2⟩ := single_files (buf := buf) (fx := fx) ht.writable h1 (hto.imp_right fun h => ⟨h.1, h.2, hbase⟩) hd hdiff w1
  have hat : ∀ k v, Dict.get k t'.like.props.atProps = some v → Dict.get k t.desc.like.props.atProps = some v := fun k v h => ((h3.like.props.atProps k v).1 h).1
  refine ⟨w, m, ⟨t', some p⟩, k1, ?_⟩
  intro ops hops
  obtain ⟨f1, f2⟩ := k2 ops hops
  have hread : FTable.readAfter ext x fx (d.run ops) ⟨t', some p⟩ 0 = .ok rows := by
    have hb : Dict.get "base".toList t'.like.props.atProps = none := by
      cases hb : Dict.get "base".toList t'.like.props.atProps with
      | none => rfl
      | some v => rw [hat _ _ hb] at hbase; cases hbase
    unfold FTable.readAfter FTable.baseAfter baseOf
    simp only [Option.getD_none, hb]
    unfold Table.readRowsAt
    have hurl : t'.single.url = t.desc.single.url := hs.url
    have h2 : resolveLink fx (d.run ops) t'.single.url (.dir p.parent) = .file (dataFile p t.desc.single) := by
      rw [hurl]
      refine resolve_dataFile (t := t.desc.single) ?_ (hd.local_ _ (List.mem_singleton.2 rfl))
      rw [Disk.isDir_run]; exact hd.metadata.1
    have hu' : (FTable.mk t' (some p)).table.url = t'.single.url := rfl
    have hi' : ∀ text, (FTable.mk t' (some p)).table.iterdicts ext x true false text = t'.single.iterdicts ext x true false text := fun _ => rfl
    simp only [hu', hi']
    rw [h2]
    unfold Holds at f2
    rw [f2]
    simp only [hs.read, w2, w3]
  refine ⟨?_, hread, ?_⟩
  · unfold FTable.fromFile
    rw [f1]
    simp only [hjson _ h1, h2]
  · intro hc n
    rw [C84_unchanged ⟨fun j hj => hc.kind j (hat _ _ hj), fun l m hl hm => hc.items l m (hat _ _ hl) hm⟩]
    exact hread

/-! ## Validation -/

/-- **C88** A table which is not in a group, and whose data are read like the text written: its foreign keys can only refer to the table itself. -/
theorem C88_self {t : Table} {d : Dataset} {eq : PyEq} {data : Str → Str} (hd : d.desc = .inl t) (hg : t.group = none) (hw : d.warned = false)
    {v : CsvLib.CsvVer} {strict : Bool} {rows : List RowDict} (hr : Writable ext x v t rows)
    {text : Str} (ht : t.write ext x v strict (rows.map .dict) = .ok text) (hl : ReadsLike ext x t text (data t.url)) (hk : KeysHold eq t rows)
    (hrefs : ReferencesHold eq (fun _ => rows) ⟨[{ t with group := some ({}, none) }]⟩) : ∃ d', d.isValid ext x eq data = .ok (true, d') := by
  rw [C57_iff (.single hd)]
  refine ⟨hw, ?_, ?_⟩
  · rintro u (h | ⟨h, hm⟩)
    · rw [hd] at h
      cases h
      exact (written_valid hr ht hk).like hl
    · rw [hd] at h; cases h
  · refine integrity_holds ?_ hrefs
    intro u hu log
    rw [List.mem_singleton] at hu
    subst hu
    have h1 := C84_values (ext := ext) (x := x) hg (g := {}) ⟨[], [], rfl⟩ true log (data t.url)
    have h2 := written_strict hr ht log
    rw [← hl] at h2
    unfold TableGroup.rowsOf
    show (Table.iterdicts _ _ _ _ _ _).err = none ∧ (Table.iterdicts _ _ _ _ _ _).rows.map Prod.snd = rows ∧ (Table.iterdicts _ _ _ _ _ _).warned = false
    exact h1 ▸ h2

/-- The keys of the properties of a table which are neither `@`-properties nor common properties. -/
theorem table_own_keys {od : Bool} {t : TableLike} {l : List (Str × J)} (h : t.props.items ext od = .ok l) {K : List (String × J × J)}
    (hK : t.items ext = .ok K) {v w : J} : ∀ e ∈ l ++ attrItems od (K ++ [("suppressOutput", v, w)]), e.1 ≠ "tables".toList := by
  intro e he
  rcases List.mem_append.1 he with he | he
  · unfold Descr.items at h
    obtain ⟨_, -, h⟩ := Datatype.bind_ok h
    obtain ⟨_, -, h⟩ := Datatype.bind_ok h
    obtain ⟨_, -, h⟩ := Datatype.bind_ok h
    obtain ⟨_, -, h⟩ := Datatype.bind_ok h
    simp only [pure, Except.pure, Except.ok.injEq] at h
    subst h
    have key : ∀ k ∈ inheritedNames.map String.toList, k ≠ "tables".toList := by decide +kernel
    exact key _ (attrItems_keys he)
  · have := attrItems_keys he
    rw [List.map_append] at this
    rcases List.mem_append.1 this with h' | h'
    · unfold TableLike.items at hK
      obtain ⟨_, -, hK⟩ := Datatype.bind_ok hK
      simp only [pure, Except.pure, Except.ok.injEq] at hK
      subst hK
      have key : ∀ k ∈ likeNames.map String.toList, k ≠ "tables".toList := by decide +kernel
      exact key _ h'
    · simp only [List.map_cons, List.map_nil, List.mem_singleton] at h'
      rw [h']
      decide +kernel

/-- The document which is written mentions the namespace, if the document which was read did, and has no `tables`. -/
theorem table_reopen {md : List (Str × J)} (hd : DistinctKeys (.obj md)) {t : TableD}
    (h : TableD.fromvalue ext x other lk (.obj md) = .ok t) {od : Bool} {m : List (Str × J)} (hm : t.asdict ext od = .ok (.obj m)) :
    (DeclaresCsvw md → DeclaresCsvw m) ∧ Dict.get "tables".toList m = none := by
  obtain ⟨p, hp, hf⟩ := fromParts_ok h
  unfold TableD.ofParts at hf
  obtain ⟨like, hl, hf⟩ := Datatype.bind_ok hf
  split at hf
  · cases hf
  simp only [pure, Except.pure, Except.ok.injEq] at hf
  subst hf
  unfold TableD.asdict at hm
  obtain ⟨items, i1, hm⟩ := Datatype.bind_ok hm
  obtain ⟨K, i2, hm⟩ := Datatype.bind_ok hm
  simp only [pure, Except.pure, Except.ok.injEq, J.obj.injEq] at hm
  subst hm
  unfold TableLike.ofParts at hl
  obtain ⟨D, hD, hl⟩ := Datatype.bind_ok hl
  obtain ⟨dia, -, hl⟩ := Datatype.bind_ok hl
  obtain ⟨dir, -, hl⟩ := Datatype.bind_ok hl
  obtain ⟨sch, -, hl⟩ := Datatype.bind_ok hl
  obtain ⟨trs, -, hl⟩ := Datatype.bind_ok hl
  obtain ⟨url, -, hl⟩ := Datatype.bind_ok hl
  obtain ⟨a', h6, hl⟩ := Datatype.bind_ok hl
  simp only [pure, Except.pure, Except.ok.injEq] at hl
  have hat : D.atProps = p.atProps := by
    unfold Descr.ofParts at hD
    obtain ⟨d0, -, rfl⟩ := Except.map_eq_ok.1 hD
    rfl
  obtain ⟨hgood, -⟩ := postInit_good h6 (descrFrom hd hp hD).good
  have hgood' : GoodParts x "Table".toList like.props.atProps like.props.common := by rw [← hl]; exact hgood
  rw [hat] at h6
  constructor
  · intro hdc
    have ha : like.props.atProps = a' := by rw [← hl]
    cases hd with
    | obj hn _ => exact declares_written hn hp (by rw [ha]; exact h6) hgood' hdc
  · rw [asdictOf_own hgood' (by decide), (Dict.get_eq_none_iff _ _).2]
    intro hm
    obtain ⟨e, he, hk⟩ := List.mem_map.1 hm
    exact table_own_keys i1 i2 e (List.mem_filter.1 he).1 hk

/-- **C93** … and if the description was read without warnings from a metadata file that mentions the CSVW namespace, the rows can be written, and primary keys (and
foreign keys, which can only refer to the table itself) hold, then `csvwvalidate` for the metadata file which was written finds the table to be valid: its
exit status is 0. -/
theorem C93_validate (hlk : lk "utf-8".toList = .ok ()) {md : List (Str × J)} (hmd : DistinctKeys (.obj md)) {t : FTable}
    (h : TableD.fromvalue ext x other lk (.obj md) = .ok t.desc) (hw : LikeWritable ext t.desc.like) (hne : NoEmptyLike t.desc.like)
    (hfin : FiniteLike t.desc.like) (hclean : Warn.table ext x other lk md = false) (hctx : DeclaresCsvw md)
    (hjson : ∀ j, t.desc.asdict ext true = .ok j → fx.loads (fx.dumps j) = .ok j)
    {d : Disk} {p : PPath} {strict zipped : Bool} {base : Option PPath}
    (hto : base = some p.parent ∨ base = none ∧ t.fname = some p ∧ Dict.get "base".toList t.desc.like.props.atProps = none)
    (hd : DirsExist d p zipped [t.desc.single]) (hdiff : AllDifferent p zipped [t.desc.single]) {eq : PyEq} {rows : List RowDict}
    (hrows : Writable ext x ver t.desc.single rows) (hk : KeysHold eq t.desc.single rows)
    (hrefs : ReferencesHold eq (fun _ => rows) ⟨[{ t.desc.single with group := some ({}, none) }]⟩)
    (hzip : zipped = true → ∀ text, t.desc.single.write ext x ver strict (rows.map .dict) = .ok text → NoReturns t.desc.single text) :
    ∃ w m, (∀ d' : Disk, d'.isDir = d.isDir → t.writeOps ext x fx ver buf d' base strict zipped (rows.map .dict) = (w, none) ∧
        t.desc.toFileOps ext fx buf d' p true = (m, none)) ∧
      ∀ ops, ops = w ++ m ∨ ops = m ++ w → ∀ (o : OpenExt) (wd : Locate.World) (url : Str) (data : Str → Str), isUrl url = false →
        Served fx (d.run ops) p [t.desc.single] wd url data → csvwvalidate ext x other lk o wd eq data url = .ok 0 := by
  obtain ⟨m0, t', h1, h2, h3⟩ := table_roundtrip hlk hmd h hw true
  obtain ⟨r1, r2⟩ := table_reopen hmd h h1
  obtain ⟨m1, e1, hw'⟩ := table_written hlk hmd h hw hfin hclean (od := true) (fun h => by cases h) h1
  cases e1
  obtain ⟨text, ht⟩ := hrows.writes strict
  obtain ⟨w, m, k1, k2⟩ := single_files (buf := buf) (fx := fx) hw h1 hto hd hdiff ht
  refine ⟨w, m, k1, ?_⟩
  intro ops hops o wd url data hurl hs
  obtain ⟨f1, f2⟩ := k2 ops hops
  have hget : wd.getJson url = .ok (.obj m0) := by
    rw [hs.metadata (fx.dumps (.obj m0)) (by unfold Holds Disk.read; simp only [f1])]
    exact hjson _ h1
  have hfix : t'.fixNames = t' := fixNames_same h3 (table_fix hmd h hclean)
  have hinit : Opened.init ext x other lk o wd url none = .ok ⟨.table t', isMinimal m0⟩ := by
    rw [C68_init]
    refine ⟨m0, false, .json _ hget, r1 hctx, rfl, .inl ⟨r2, t', ⟨t', ?_, ?_⟩, ?_⟩⟩
    · unfold basedAt
      rw [if_neg (by simp [hurl])]
      exact h2
    · rw [if_neg (by simp)]
    · rw [hfix]
  have hdoc : Opened.document wd url none = .ok (.obj m0, false) := by
    unfold Opened.document
    show (match wd.getJson url with | .ok md => _ | .error .valueError => _ | .error e => _) = _
    rw [hget]
  have hwarn : Warn.init ext x other lk wd url none = false := by
    have hd0 : Warn.document wd url none = false := by
      unfold Warn.document
      rw [show (nonEmpty none).getD url = url from rfl, hget]
    unfold Warn.init
    rw [hdoc, hd0]
    simp only [r2, hw', Bool.or_false]
  obtain ⟨d', hvalid⟩ := C88_self (ext := ext) (x := x) (eq := eq) (data := data) (d := ⟨.inl t.desc.single, false⟩) (t := t.desc.single) rfl rfl rfl (v := ver)
    (strict := strict) hrows ht (by rw [hs.data _ (List.mem_singleton.2 rfl) _ f2]; exact hrows.readsLike ht fun hz => hzip hz text ht) hk hrefs
  have hval : ((⟨.inl t'.single, false⟩ : Dataset).isValid ext x eq data).map Prod.fst =
        ((⟨.inl t.desc.single, false⟩ : Dataset).isValid ext x eq data).map Prod.fst := by
    rw [← single_isValid_norm _ _ _ _ _ _ rfl, table_norm_eq h3 hne, single_isValid_norm _ _ _ _ _ _ rfl]
  rw [hvalid] at hval
  obtain ⟨⟨b, d''⟩, hv1, hv2⟩ := Except.map_eq_ok.1 hval
  unfold csvwvalidate
  rw [hinit, hwarn]
  show (match Dataset.isValid ext x eq data ⟨.inl t'.single, false⟩ with | .error .valueError => _ | .error e => _ | .ok (true, _) => _ | .ok (false, _) => _) = _
  rw [hv1]
  cases hv2
  rfl

end
end Csvw.Props
