import Verif.Lemmas.Files
import Verif.Props.C74
import Verif.Props.C37
import Verif.Props.C94
/-!
# C75: writing a data set to files and reading it back
-/

namespace Csvw.Props
open Csvw Spec Table

theorem dropInvalid_eq {ext : Ext} {d : Descr} (h : DescrWritable ext d) : d.dropInvalid = d := by
  unfold Descr.dropInvalid
  rw [if_neg h.aboutUrl, if_neg h.propertyUrl, if_neg h.valueUrl]

theorem like_dropInvalid_eq {ext : Ext} {t : TableLike} (h : LikeWritable ext t) : t.dropInvalid = t := by
  unfold TableLike.dropInvalid
  rw [dropInvalid_eq h.props, dropInvalid_eq h.schema]
  have : t.schema.columns.map (fun c => { c with props := c.props.dropInvalid }) = t.schema.columns := by
    conv => rhs; rw [← List.map_id t.schema.columns]
    apply List.map_congr_left
    intro c hc
    rw [dropInvalid_eq (h.columns c hc)]
    rfl
  rw [this]

theorem group_dropInvalid_eq {ext : Ext} {g : GroupD} (h : LikeWritable ext g.like) (ht : ∀ t ∈ g.tables, LikeWritable ext t.like) :
    g.dropInvalid = g := by
  unfold GroupD.dropInvalid
  rw [like_dropInvalid_eq h]
  have : g.tables.map (fun t => { t with like := t.like.dropInvalid }) = g.tables := by
    conv => rhs; rw [← List.map_id g.tables]
    apply List.map_congr_left
    intro c hc
    rw [like_dropInvalid_eq (ht c hc)]
    rfl
  rw [this]

theorem mapRes_ok {α β : Type} {f : α → Res β} {g : α → β} {l : List α} (h : ∀ a ∈ l, f a = .ok (g a)) : mapRes f l = .ok (l.map g) := by
  induction l with
  | nil => rfl
  | cons a r ih =>
    unfold mapRes
    rw [h a List.mem_cons_self, ih fun b hb => h b (List.mem_cons_of_mem _ hb)]
    rfl

section
variable {ext : Ext} {x : MExt} {other : Base → Derived → J → Res Val} {lk : EncLookup} {fx : FExt} {ver : CsvLib.CsvVer} {buf : Dsv.Buffering}

/-- Reading the rows of a table whose data are stored. -/
theorem readRows_of_holds {d : Disk} {p : PPath} {t : Table} {gp : Descr × Option Dialect} (hg : t.group = some gp)
    (hb : Dict.get "base".toList gp.1.atProps = none) (hp : d.isDir p.parent = true) (hu : isUrl t.url = false) {text : Str}
    (hh : Holds fx d (dataFile p t) text) (he : (t.iterdicts ext x true false text).err = none) :
    t.readRows ext x fx d (some p) = .ok ((t.iterdicts ext x true false text).rows.map Prod.snd) := by
  unfold Table.readRows Table.location baseOf
  rw [hg]
  simp only [Option.map_some, Option.getD_some, hb]
  rw [resolve_dataFile hp hu]
  unfold Holds at hh
  rw [hh]
  simp only [he]

theorem read_group {d : Disk} {p : PPath} {g : GroupD} {result : Str → List RowDict} (hu : (g.group.tables.map Table.url).Nodup)
    (h : ∀ t ∈ g.group.tables, t.readRows ext x fx d (some p) = .ok (result t.url)) :
    (FGroup.mk g (some p)).read ext x fx d = .ok (g.group.tables.map fun t => (t.url, result t.url)) := by
  unfold FGroup.read
  have hk : Dict.keys (g.group.tables.map fun t => (t.url, t)) = g.group.tables.map Table.url := by
    unfold Dict.keys; rw [List.map_map]; rfl
  have ht : g.group.tabledict = g.group.tables.map fun t => (t.url, t) := by
    unfold TableGroup.tabledict
    exact Dict.ofPairs_of_nodup (by rw [hk]; exact hu)
  simp only
  rw [ht, mapRes_ok (g := fun e => (e.1, result e.1)), List.map_map]
  · rfl
  · intro e he
    obtain ⟨t, htm, rfl⟩ := List.mem_map.1 he
    simp only [h t htm]
    rfl

theorem sameData_urls {l l' : List Table} (h : All2 SameData l l') : l'.map Table.url = l.map Table.url := by
  induction h with
  | nil => rfl
  | cons h1 _ ih => rw [List.map_cons, List.map_cons, ih, h1.url]

theorem all2_mem_right {α β : Type} {R : α → β → Prop} {l : List α} {l' : List β} (h : All2 R l l') : ∀ b ∈ l', ∃ a ∈ l, R a b := by
  induction h with
  | nil => intro b hb; cases hb
  | cons h1 _ ih =>
    intro b hb
    rcases List.mem_cons.1 hb with rfl | hb
    · exact ⟨_, List.mem_cons_self, h1⟩
    · obtain ⟨a, ha, hr⟩ := ih b hb
      exact ⟨a, List.mem_cons_of_mem _ ha, hr⟩

/-- **C75** Writing a table group with rows for all its tables to files, zipped or not, succeeds; reading the metadata file gives a table
group whose `read()` returns, for each table, the rows `iterdicts` reads from what `write` returns for the table. -/
theorem C75_roundtrip (hlk : lk "utf-8".toList = .ok ()) {g : GroupD} (hg : Rereadable ext x other lk g)
    (hjson : ∀ j, g.asdict ext true = .ok j → fx.loads (fx.dumps j) = .ok j) (hbase : Dict.get "base".toList g.like.props.atProps = none)
    (hu : (g.group.tables.map Table.url).Nodup) {l : List (Table × List Item)} (hl : ∀ e ∈ l, e.1 ∈ g.group.tables)
    (hall : ∀ t ∈ g.group.tables, ∃ rows, (t, rows) ∈ l) {d : Disk} {p : PPath} {strict zipped : Bool}
    (hd : DirsExist d p zipped (l.map Prod.fst)) (hdiff : AllDifferent p zipped (l.map Prod.fst)) {result : Str → List RowDict}
    (hrt : ∀ e ∈ l, WrittenAndRead ext x ver strict zipped e.1 e.2 (result e.1.url)) :
    ∃ ops g', g.writeOps ext x fx ver buf d p strict zipped (Spec.itemsOf l) = (ops, none) ∧
      FGroup.fromFile ext x other lk fx (d.run ops) p = .ok g' ∧
      g'.read ext x fx (d.run ops) = .ok (g.group.tables.map fun t => (t.url, result t.url)) := by
  obtain ⟨j0, hdj, hj0⟩ := hg.read
  obtain ⟨j, g', hj, hg', hsame⟩ := C54_group hlk hdj hj0 hg.group.1 (fun t ht => (hg.tables t ht).1) true
  have hnorm := group_norm_eq hsame hg.group.2 (fun t ht => (hg.tables t ht).2) hg.dialects
  have hdata := all2_imp (fun _ _ => sameData_of_norm) hnorm
  have hurls := sameData_urls hdata
  have hinv := group_dropInvalid_eq hg.group.1 fun t ht => (hg.tables t ht).1
  have htf : g.toFileOps ext fx buf d p true = (FOp.create p :: (buf.pieces (fx.dumps j)).map (.append p), none) := by
    unfold GroupD.toFileOps Disk.writable
    rw [hinv, hj, hd.metadata.1, hd.metadata.2]
    simp
  have hw := groupOps_append (ext := ext) (x := x) (fx := fx) (ver := ver) (buf := buf) (rest := []) (strict := strict) hu hl hd
    (fun hz e he => zip_ne hdiff hz e.1 (List.mem_map.2 ⟨e, he, rfl⟩))
    (fun e he => by obtain ⟨text, h, -⟩ := hrt e he; exact ⟨text, h⟩)
  rw [List.append_nil] at hw
  have hnil : g.writeOps ext x fx ver buf d p strict zipped [] = g.toFileOps ext fx buf d p true := rfl
  rw [hnil, htf] at hw
  simp only at hw
  refine ⟨_, ⟨g', some p⟩, hw, ?_, ?_⟩
  · unfold FGroup.fromFile
    rw [Disk.run_append, Disk.run_write]
    simp only [hjson j hj, hg']
  · rw [Disk.run_append]
    have hbase' : Dict.get "base".toList g'.like.props.atProps = none := by
      cases hb : Dict.get "base".toList g'.like.props.atProps with
      | none => rfl
      | some v =>
        have := ((hsame.like.props.atProps _ v).1 hb).1
        rw [hbase] at this
        cases this
    have hlist : g.group.tables.map (fun t => (t.url, result t.url)) = g'.group.tables.map fun t => (t.url, result t.url) := by
      have : ∀ l : List Table, l.map (fun t => (t.url, result t.url)) = (l.map Table.url).map fun u => (u, result u) := by
        intro l; rw [List.map_map]; rfl
      rw [this, this, hurls]
    rw [hlist]
    refine read_group (by rw [hurls]; exact hu) ?_
    intro t' ht'
    obtain ⟨t, ht, hs⟩ := all2_mem_right hdata t' ht'
    obtain ⟨rows, hr⟩ := hall t ht
    obtain ⟨text, h1, h2, h3⟩ := hrt _ hr
    have hst := dataOps_stored (ext := ext) (x := x) (ver := ver) (buf := buf) (strict := strict) (d' := d) hd hdiff _ hr text h1
    have hdir := hd.data t (List.mem_map.2 ⟨_, hr, rfl⟩)
    have hurl := hd.local_ t (List.mem_map.2 ⟨_, hr, rfl⟩)
    have hne : ∀ q ∈ touched p zipped t, p ≠ q := by
      intro q hq h
      refine (List.nodup_cons.1 hdiff).1 (List.mem_flatMap.2 ⟨t, List.mem_map.2 ⟨_, hr, rfl⟩, ?_⟩)
      exact Eq.subst (motive := fun q => q ∈ touched p zipped t) h.symm hq
    have htgt : ∀ o ∈ (FOp.create p :: (buf.pieces (fx.dumps j)).map (.append p)), o.target = p := by
      intro o ho
      rcases List.mem_cons.1 ho with rfl | ho
      · rfl
      · obtain ⟨a, -, rfl⟩ := List.mem_map.1 ho
        rfl
    have hst' := hst.mono
      (d' := (d.run (dataOps ext x ver buf d p strict zipped l)).run (FOp.create p :: (buf.pieces (fx.dumps j)).map (.append p)))
      (Disk.run_other fun o ho => by rw [htgt o ho]; exact hne _ (mem_touched (zipped := zipped)).1)
      (fun hz => Disk.run_other fun o ho => by rw [htgt o ho]; exact hne _ ((mem_touched (zipped := zipped)).2 hz))
    have hfile : dataFile p t' = dataFile p t := by unfold dataFile; rw [hs.url]
    have hholds := hst'.holds fx (by rw [Disk.isDir_run, Disk.isDir_run]; exact hdir.2)
    obtain ⟨td, htd, rfl⟩ := List.mem_map.1 ht'
    have hres : (g'.table td).readRows ext x fx
        ((d.run (dataOps ext x ver buf d p strict zipped l)).run (FOp.create p :: (buf.pieces (fx.dumps j)).map (.append p))) (some p) =
        .ok (((g'.table td).iterdicts ext x true false (asRead zipped text)).rows.map Prod.snd) := by
      refine readRows_of_holds (gp := (g'.like.props, g'.like.dialect)) rfl hbase' ?_ ?_ ?_ ?_
      · rw [Disk.isDir_run, Disk.isDir_run]; exact hd.metadata.1
      · rw [hs.url]; exact hurl
      · rw [hfile]; exact hholds
      · rw [hs.read]; exact h2
    rw [hres, hs.read, h3, hs.url]

/-- The rows have exactly the columns of the table as keys, their values can be written and read (C36, C37), and the dialect of the table can
store the cells. -/
def StorableRows (ext : Ext) (x : MExt) (ver : CsvLib.CsvVer) (t : Table) (dicts : List RowDict) : Prop :=
  ∃ dl q lt rows, (∀ c ∈ t.schema.columns, c.virtual = false) ∧ t.colnames.Nodup ∧ t.colnames ≠ [] ∧ All2 (RowRoundTrips ext x t) dicts rows ∧
    (∀ d ∈ dicts, Dict.keys d = t.colnames) ∧ QuoteDialect ver t.getDialect dl q lt ∧ EscapesKept ver t.getDialect (fileRows t rows) ∧
    NoSkipping t.getDialect (fileRows t rows) ∧ Storable t.getDialect (fileRows t rows) ∧ ¬ Spec.StartsWithBom (fileRows t rows)

/-- **C75** In particular: `write(p, **data)`, then `from_file(p).read()`, gives `data`. (If the data are zipped, cells must not contain carriage returns,
see C94.) -/
theorem C75_same (hlk : lk "utf-8".toList = .ok ()) {g : GroupD} (hg : Rereadable ext x other lk g)
    (hjson : ∀ j, g.asdict ext true = .ok j → fx.loads (fx.dumps j) = .ok j) (hbase : Dict.get "base".toList g.like.props.atProps = none)
    (hu : (g.group.tables.map Table.url).Nodup) {d : Disk} {p : PPath} {strict zipped : Bool}
    (hd : DirsExist d p zipped g.group.tables) (hdiff : AllDifferent p zipped g.group.tables) {data : List (Str × List RowDict)}
    (hdata : All2 (fun t e => t.url = e.1 ∧ StorableRows ext x ver t e.2) g.group.tables data)
    (hzip : zipped = true → All2 (fun t e => ∀ text, t.write ext x ver strict (e.2.map .dict) = .ok text → NoReturns t text) g.group.tables data) :
    ∃ ops g', g.writeOps ext x fx ver buf d p strict zipped (data.map fun e => (e.1, e.2.map .dict)) = (ops, none) ∧
      FGroup.fromFile ext x other lk fx (d.run ops) p = .ok g' ∧ g'.read ext x fx (d.run ops) = .ok data := by
  have key : ∀ {ts : List Table} {data : List (Str × List RowDict)}, (ts.map Table.url).Nodup →
      All2 (fun t e => t.url = e.1 ∧ StorableRows ext x ver t e.2) ts data →
      (zipped = true → All2 (fun t e => ∀ text, t.write ext x ver strict (e.2.map .dict) = .ok text → NoReturns t text) ts data) →
      ∃ l : List (Table × List Item), ∃ result : Str → List RowDict, l.map Prod.fst = ts ∧ Spec.itemsOf l = data.map (fun e => (e.1, e.2.map .dict)) ∧
        (∀ e ∈ l, WrittenAndRead ext x ver strict zipped e.1 e.2 (result e.1.url)) ∧ ts.map (fun t => (t.url, result t.url)) = data := by
    intro ts data hn h hzip
    induction h with
    | nil => exact ⟨[], fun _ => [], rfl, rfl, (by rintro e ⟨⟩), rfl⟩
    | @cons t e ts data h1 h2 ih =>
      rw [List.map_cons, List.nodup_cons] at hn
      obtain ⟨l, result, e1, e2, e3, e4⟩ := ih hn.2 (fun hz => by cases hzip hz; assumption)
      obtain ⟨hurl, dl, q, lt, rows, k1, k2, k3, k4, k5, k6, k7, k8, k9, k10⟩ := h1
      have hother : ∀ t' ∈ ts, t'.url ≠ t.url := fun t' ht' he => hn.1 (he ▸ List.mem_map.2 ⟨t', ht', rfl⟩)
      refine ⟨(t, e.2.map .dict) :: l, fun u => if u = t.url then e.2 else result u, ?_, ?_, ?_, ?_⟩
      · rw [List.map_cons, e1]
      · unfold Spec.itemsOf at e2 ⊢
        rw [List.map_cons, List.map_cons, e2, hurl]
      · intro e' he'
        rcases List.mem_cons.1 he' with rfl | he'
        · simp only [if_pos]
          obtain ⟨text, w1, w2, w3⟩ := C37_same ver strict false dl q lt k1 k2 k3 k4 k5 k6 k7 k8 k9 k10
          have hsame := written_asRead k4 (fun _ d hd k hk => by rw [← k5 d hd]; exact hk) k6 k7 k9 k10 w1 (zipped := zipped)
            (fun hz => by cases hzip hz with | cons h1 _ => exact h1 text w1) true false
          exact ⟨text, w1, by rw [hsame]; exact w2, by rw [hsame]; exact w3⟩
        · simp only [if_neg (hother e'.1 (e1 ▸ List.mem_map.2 ⟨e', he', rfl⟩))]
          exact e3 e' he'
      · have h0 : ts.map (fun t' => (t'.url, if t'.url = t.url then e.2 else result t'.url)) = ts.map fun t' => (t'.url, result t'.url) := by
          apply List.map_congr_left
          intro t' ht'
          rw [if_neg (hother t' ht')]
        simp only [List.map_cons, if_pos]
        rw [h0, e4, hurl]
  obtain ⟨l, result, e1, e2, e3, e4⟩ := key hu hdata hzip
  have := C75_roundtrip (buf := buf) (fx := fx) (d := d) (p := p) (strict := strict) (zipped := zipped) hlk hg hjson hbase hu (l := l)
    (fun e he => e1 ▸ List.mem_map.2 ⟨e, he, rfl⟩)
    (fun t ht => by
      rw [← e1] at ht
      obtain ⟨e, he, rfl⟩ := List.mem_map.1 ht
      exact ⟨e.2, he⟩)
    (by rw [e1]; exact hd) (by rw [e1]; exact hdiff) e3
  rwa [e2, e4] at this

end

/-! ## Example -/

/-- A disk with the directory `d` only. -/
def oneDir : Disk := ⟨fun p => decide (p = ⟨false, [['d']]⟩), fun _ => none⟩

/-- The table of the group of C74. -/
def rereadTable : Table := rereadGroup.table (rereadGroup.tables.head (List.cons_ne_nil _ _))

/-- The hypotheses of `C75_same` are met: the table group of C74 is written to `d/md.json`. -/
theorem C75_example {ext : Ext} {x : MExt} {other : Base → Derived → J → Res Val} {fx : FExt} {ver : CsvLib.CsvVer} {buf : Dsv.Buffering}
    (hjson : ∀ j, rereadGroup.asdict ext true = .ok j → fx.loads (fx.dumps j) = .ok j) (zipped : Bool) : ∃ ops g',
    rereadGroup.writeOps ext x fx ver buf oneDir ⟨false, [['d'], "md.json".toList]⟩ true zipped
      [("t.csv".toList, [.dict [("ID".toList, .one (.int 5)), ("L".toList, .many [.str ['u'], .str ['v', ';']])]])] = (ops, none) ∧
      FGroup.fromFile ext x other (fun _ => .ok ()) fx (oneDir.run ops) ⟨false, [['d'], "md.json".toList]⟩ = .ok g' ∧
      g'.read ext x fx (oneDir.run ops) =
        .ok [("t.csv".toList, [[("ID".toList, .one (.int 5)), ("L".toList, .many [.str ['u'], .str ['v', ';']])]])] := by
  obtain ⟨h1, h2, h3, h4, h5, h6, h7⟩ := C74_example (ext := ext) (x := x) (other := other)
  have hc : All2 (RowRoundTrips ext x rereadTable)
      [[("ID".toList, .one (.int 5)), ("L".toList, .many [.str ['u'], .str ['v', ';']])]] [["5".toList, "u,v;".toList]] :=
    .cons (.cons ⟨⟨_, rfl, rfl⟩, rfl⟩ (.cons ⟨⟨_, rfl, rfl⟩, rfl⟩ .nil)) .nil
  have hq : QuoteDialect ver rereadTable.getDialect ';' '"' ['\r', '\n'] :=
    ⟨rfl, rfl, ⟨_, rfl⟩, .inl rfl, by decide, by decide, by decide, by decide, .inr rfl⟩
  have hs : Storable rereadTable.getDialect
      (fileRows rereadTable [["5".toList, "u,v;".toList]]) := by
    unfold Storable; decide
  have hb : ¬ Spec.StartsWithBom (fileRows rereadTable [["5".toList, "u,v;".toList]]) := by
    rintro ⟨s, cells, rest, h⟩
    have h2 : (some 'I' : Option Char) = some Spec.bom := congrArg (fun l => (l.head?.bind List.head?).bind List.head?) h
    revert h2
    decide
  refine C75_same (data := [("t.csv".toList, [[("ID".toList, .one (.int 5)), ("L".toList, .many [.str ['u'], .str ['v', ';']])]])])
    rfl ⟨⟨_, h1, h2⟩, ⟨h3, h5⟩, fun t ht => ⟨h4 t ht, h6 t ht⟩, h7⟩ hjson rfl (by decide) ?_ ?_ ?_ ?_
  · exact ⟨by decide, by decide, by decide, fun _ => by decide⟩
  · unfold AllDifferent; cases zipped <;> decide
  · exact .cons ⟨rfl, ';', '"', ['\r', '\n'], [["5".toList, "u,v;".toList]], by decide, by decide, by decide, hc, by decide, hq, .inl rfl,
      ⟨rfl, rfl, rfl, by decide, by decide⟩, hs, hb⟩ .nil
  · exact fun _ => .cons (fun text hw => written_noReturns hc (by decide) hq (.inl rfl) hs hb hw (by decide)) .nil

end Csvw.Props
