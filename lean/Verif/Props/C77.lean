import Verif.Props.C76
/-!
# C77: `TableGroup.copy`
-/

namespace Csvw.Props
open Csvw Spec Table

section
variable {ext : Ext} {x : MExt} {other : Base → Derived → J → Res Val} {lk : EncLookup} {fx : FExt} {ver : CsvLib.CsvVer} {buf : Dsv.Buffering}

theorem mapRes_congr {α β γ : Type} {R : α → β → Prop} {f : α → Res γ} {f' : β → Res γ} {l : List α} {l' : List β} (h : All2 R l l')
    (hf : ∀ a b, a ∈ l → b ∈ l' → R a b → f a = f' b) : mapRes f l = mapRes f' l' := by
  induction h with
  | nil => rfl
  | cons h1 _ ih =>
    unfold mapRes
    rw [hf _ _ List.mem_cons_self List.mem_cons_self h1,
      ih fun a b ha hb => hf a b (List.mem_cons_of_mem _ ha) (List.mem_cons_of_mem _ hb)]

/-- Reading the rows of a table from its file. -/
theorem readRows_file {d : Disk} {p : PPath} {t : Table} {gp : Descr × Option Dialect} (hg : t.group = some gp)
    (hb : Dict.get "base".toList gp.1.atProps = none) (hp : d.isDir p.parent = true) (hu : isUrl t.url = false) {text : Str}
    (hh : d.files (dataFile p t) = some (.text text)) :
    t.readRows ext x fx d (some p) = match (t.iterdicts ext x true false text).err with
      | some e => .error e
      | none => .ok ((t.iterdicts ext x true false text).rows.map Prod.snd) := by
  unfold Table.readRows Table.location baseOf
  rw [hg]
  simp only [Option.map_some, Option.getD_some, hb]
  rw [resolve_dataFile hp hu]
  unfold Disk.read
  simp only [hh]
  rfl

theorem tabledict_of_nodup {g : TableGroup} (hu : (g.tables.map Table.url).Nodup) : g.tabledict = g.tables.map fun t => (t.url, t) := by
  unfold TableGroup.tabledict
  refine Dict.ofPairs_of_nodup ?_
  unfold Dict.keys; rw [List.map_map]; exact hu

/-- Two groups with the same data, in files with the same content, read the same. -/
theorem read_same {g g' : GroupD} {d d' : Disk} {p p' : PPath} (hu : (g.group.tables.map Table.url).Nodup)
    (hb : Dict.get "base".toList g.like.props.atProps = none) (hb' : Dict.get "base".toList g'.like.props.atProps = none)
    (hs : All2 SameData g.group.tables g'.group.tables) (hp : d.isDir p.parent = true) (hp' : d'.isDir p'.parent = true)
    (hl : ∀ t ∈ g.group.tables, isUrl t.url = false)
    (hf : ∀ t ∈ g.group.tables, ∃ s, d.files (dataFile p t) = some (.text s) ∧ d'.files (dataFile p' t) = some (.text s)) :
    (FGroup.mk g' (some p')).read ext x fx d' = (FGroup.mk g (some p)).read ext x fx d := by
  unfold FGroup.read
  simp only
  have hu' : (g'.group.tables.map Table.url).Nodup := by rw [sameData_urls hs]; exact hu
  rw [tabledict_of_nodup hu, tabledict_of_nodup hu']
  refine (mapRes_congr (all2_to_map (R := fun (a b : Str × Table) => SameData a.2 b.2) (fun t => (t.url, t)) (fun t => (t.url, t)) hs) ?_).symm
  rintro ⟨u, t⟩ ⟨u', t'⟩ ha hb2 h
  simp only at h ⊢
  obtain ⟨t1, ht, hte⟩ := List.mem_map.1 ha
  cases hte
  obtain ⟨t1', ht', hte⟩ := List.mem_map.1 hb2
  cases hte
  obtain ⟨s, e1, e2⟩ := hf t ht
  obtain ⟨td, -, rfl⟩ := List.mem_map.1 ht
  obtain ⟨td', -, rfl⟩ := List.mem_map.1 ht'
  have hfile : dataFile p' (g'.table td') = dataFile p' (g.table td) := by unfold dataFile; rw [h.url]
  rw [readRows_file (gp := (g.like.props, g.like.dialect)) rfl hb hp (hl _ ht) e1,
    readRows_file (gp := (g'.like.props, g'.like.dialect)) rfl hb' hp' (by rw [h.url]; exact hl _ ht) (by rw [hfile]; exact e2), h.read, h.url]

theorem copyTables_ok {p p' : PPath} {d0 : Disk} (hp : d0.isDir p.parent = true) (hp' : d0.isDir p'.parent = true) : ∀ {ts : List Table} {d : Disk},
    d.isDir = d0.isDir → (∀ t ∈ ts, isUrl t.url = false) →
    (∀ t ∈ ts, d0.isDir (dataFile p' t).parent = true ∧ d0.isDir (dataFile p' t) = false) → (∀ t ∈ ts, ∃ f, d.files (dataFile p t) = some f) →
    (∀ t ∈ ts, ∀ t' ∈ ts, dataFile p t ≠ dataFile p' t') → (ts.map (dataFile p')).Nodup →
    (copyTables fx (.dir p.parent) p'.parent d ts).2 = none ∧
    (∀ o ∈ (copyTables fx (.dir p.parent) p'.parent d ts).1, o.target ∈ ts.map (dataFile p')) ∧
    ∀ t ∈ ts, (d.run (copyTables fx (.dir p.parent) p'.parent d ts).1).files (dataFile p' t) = d.files (dataFile p t) := by
  intro ts
  induction ts with
  | nil => intro d _ _ _ _ _ _; exact ⟨rfl, (by rintro o ⟨⟩), (by rintro o ⟨⟩)⟩
  | cons t r ih =>
    intro d hd hl hw hf hne hnd
    rw [List.map_cons, List.nodup_cons] at hnd
    have hr : (resolveLink fx d t.url (.dir p.parent)).path = dataFile p t := by
      rw [resolve_dataFile (by rw [hd]; exact hp) (hl t List.mem_cons_self)]; rfl
    have hr' : (resolveLink fx d t.url (.dir p'.parent)).path = dataFile p' t := by
      rw [resolve_dataFile (by rw [hd]; exact hp') (hl t List.mem_cons_self)]; rfl
    obtain ⟨f, hft⟩ := hf t List.mem_cons_self
    have hops : d.copyOps (dataFile p t) (dataFile p' t) = ([.create (dataFile p' t), .copy (dataFile p t) (dataFile p' t)], none) := by
      unfold Disk.copyOps Disk.writable
      simp only [hd, (hw t List.mem_cons_self).1, (hw t List.mem_cons_self).2, Bool.false_eq_true, if_false,
        if_neg (hne t List.mem_cons_self t List.mem_cons_self), hft]
      rfl
    have hstep : copyTables fx (.dir p.parent) p'.parent d (t :: r) =
        ([FOp.create (dataFile p' t), .copy (dataFile p t) (dataFile p' t)] ++
          (copyTables fx (.dir p.parent) p'.parent (d.run [FOp.create (dataFile p' t), .copy (dataFile p t) (dataFile p' t)]) r).1,
         (copyTables fx (.dir p.parent) p'.parent (d.run [FOp.create (dataFile p' t), .copy (dataFile p t) (dataFile p' t)]) r).2) := by
      conv => lhs; unfold copyTables
      rw [hr, hr', hops]
    have hother : ∀ q, q ≠ dataFile p' t →
        (d.run [FOp.create (dataFile p' t), .copy (dataFile p t) (dataFile p' t)]).files q = d.files q := by
      intro q hq
      refine Disk.run_other ?_
      intro o ho
      rcases List.mem_cons.1 ho with rfl | ho
      · exact hq.symm
      · rw [List.mem_singleton] at ho; subst ho; exact hq.symm
    have hnew : (d.run [FOp.create (dataFile p' t), .copy (dataFile p t) (dataFile p' t)]).files (dataFile p' t) = d.files (dataFile p t) := by
      show (if dataFile p' t = dataFile p' t then (d.exec (.create (dataFile p' t))).files (dataFile p t) else _) = _
      rw [if_pos rfl]
      exact if_neg (hne t List.mem_cons_self t List.mem_cons_self)
    have hsrc : ∀ t1 ∈ r, (d.run [FOp.create (dataFile p' t), .copy (dataFile p t) (dataFile p' t)]).files (dataFile p t1) = d.files (dataFile p t1) :=
      fun t1 h1 => hother _ (hne t1 (List.mem_cons_of_mem _ h1) t List.mem_cons_self)
    obtain ⟨i1, i2, i3⟩ := ih (d := d.run [FOp.create (dataFile p' t), .copy (dataFile p t) (dataFile p' t)]) (by rw [Disk.isDir_run, hd])
      (fun t1 h1 => hl t1 (List.mem_cons_of_mem _ h1)) (fun t1 h1 => hw t1 (List.mem_cons_of_mem _ h1))
      (fun t1 h1 => by rw [hsrc t1 h1]; exact hf t1 (List.mem_cons_of_mem _ h1))
      (fun t1 h1 t2 h2 => hne t1 (List.mem_cons_of_mem _ h1) t2 (List.mem_cons_of_mem _ h2)) hnd.2
    rw [hstep]
    refine ⟨i1, ?_, ?_⟩
    · intro o ho
      rw [List.map_cons]
      rcases List.mem_append.1 ho with ho | ho
      · rcases List.mem_cons.1 ho with rfl | ho
        · exact List.mem_cons_self
        · rw [List.mem_singleton] at ho; subst ho; exact List.mem_cons_self
      · exact List.mem_cons_of_mem _ (i2 o ho)
    · intro t1 h1
      rw [Disk.run_append]
      rcases List.mem_cons.1 h1 with rfl | h1
      · rw [Disk.run_other, hnew]
        intro o ho h
        exact hnd.1 (h ▸ i2 o ho)
      · rw [i3 t1 h1, hsrc t1 h1]

/-- **C77** `copy(dest)` for a table group read from the file `p`, without `@base`, if `dest` is a directory and the new files are different
from the old data files: the data set can be read from `dest`, by a new object as well as by the one which was copied, with the same result
as before. Files other than the new ones are not changed. -/
theorem C77_copy (hlk : lk "utf-8".toList = .ok ()) {g : GroupD} (hg : Rereadable ext x other lk g)
    (hjson : ∀ j, g.asdict ext true = .ok j → fx.loads (fx.dumps j) = .ok j) (hbase : Dict.get "base".toList g.like.props.atProps = none)
    (hu : (g.group.tables.map Table.url).Nodup) {d : Disk} {p dest p' : PPath} (hp : d.isDir p.parent = true)
    (hp' : p' = dest.join p.name ∧ p'.parent = dest) (hd : DirsExist d p' false g.group.tables) (hdiff : AllDifferent p' false g.group.tables)
    (hold : ∀ t ∈ g.group.tables, (∃ s, d.files (dataFile p t) = some (.text s)) ∧ ∀ t' ∈ g.group.tables, dataFile p t ≠ dataFile p' t') :
    ∃ ops, (FGroup.mk g (some p)).copy ext fx buf d dest = (ops, ⟨g, some p'⟩, none) ∧
      (∃ g', FGroup.fromFile ext x other lk fx (d.run ops) p' = .ok g' ∧
        g'.read ext x fx (d.run ops) = (FGroup.mk g (some p)).read ext x fx d) ∧
      (FGroup.mk g (some p')).read ext x fx (d.run ops) = (FGroup.mk g (some p)).read ext x fx d ∧
      ∀ q, q ≠ p' → (∀ t ∈ g.group.tables, q ≠ dataFile p' t) → (d.run ops).files q = d.files q := by
  obtain ⟨j0, hdj, hj0⟩ := hg.read
  obtain ⟨j, g', hj, hg', hsame⟩ := C54_group hlk hdj hj0 hg.group.1 (fun t ht => (hg.tables t ht).1) true
  have hnorm := group_norm_eq hsame hg.group.2 (fun t ht => (hg.tables t ht).2) hg.dialects
  have hdata := all2_imp (fun _ _ => sameData_of_norm) hnorm
  have hinv := group_dropInvalid_eq hg.group.1 fun t ht => (hg.tables t ht).1
  have hbase' : Dict.get "base".toList g'.like.props.atProps = none := by
    cases hb : Dict.get "base".toList g'.like.props.atProps with
    | none => rfl
    | some v =>
      have := ((hsame.like.props.atProps _ v).1 hb).1
      rw [hbase] at this
      cases this
  obtain ⟨hp1, rfl⟩ := hp'
  have hn := List.nodup_cons.1 hdiff
  have hflat : ∀ ts : List Table, ts.flatMap (touched p' false) = ts.map (dataFile p') := by
    intro ts
    induction ts with
    | nil => rfl
    | cons a r ih => rw [List.flatMap_cons, ih]; rfl
  rw [hflat] at hn
  obtain ⟨c1, c2, c3⟩ := copyTables_ok (fx := fx) hp hd.metadata.1 (d := d) rfl hd.local_ hd.data (fun t ht => let ⟨s, h⟩ := (hold t ht).1; ⟨_, h⟩)
    (fun t ht t' ht' => (hold t ht).2 t' ht') hn.2
  have hw : g.toFileOps ext fx buf (d.run (copyTables fx (.dir p.parent) p'.parent d g.group.tables).1) p' true =
      (FOp.create p' :: (buf.pieces (fx.dumps j)).map (.append p'), none) := by
    unfold GroupD.toFileOps Disk.writable
    rw [hinv, hj, Disk.isDir_run, hd.metadata.1, hd.metadata.2]
    simp
  have hcopy : (FGroup.mk g (some p)).copy ext fx buf d p'.parent =
      ((copyTables fx (.dir p.parent) p'.parent d g.group.tables).1 ++ (FOp.create p' :: (buf.pieces (fx.dumps j)).map (.append p')), ⟨g, some p'⟩, none) := by
    unfold FGroup.copy baseOf
    simp only [Option.getD_none, hbase]
    cases hct : copyTables fx (.dir p.parent) p'.parent d g.group.tables with
    | mk o e =>
      rw [hct] at c1 hw
      simp only at c1
      subst c1
      simp only
      rw [← hp1, hw]
  have htgt : ∀ o ∈ (FOp.create p' :: (buf.pieces (fx.dumps j)).map (.append p')), o.target = p' := by
    intro o ho
    rcases List.mem_cons.1 ho with rfl | ho
    · rfl
    · obtain ⟨a, -, rfl⟩ := List.mem_map.1 ho
      rfl
  refine ⟨_, hcopy, ?_⟩
  rw [Disk.run_append]
  have hfiles : ∀ t ∈ g.group.tables, ∃ s, d.files (dataFile p t) = some (.text s) ∧
      ((d.run (copyTables fx (.dir p.parent) p'.parent d g.group.tables).1).run (FOp.create p' :: (buf.pieces (fx.dumps j)).map (.append p'))).files
        (dataFile p' t) = some (.text s) := by
    intro t ht
    obtain ⟨⟨s, hs⟩, -⟩ := hold t ht
    refine ⟨s, hs, ?_⟩
    rw [Disk.run_other, c3 t ht, hs]
    intro o ho h
    rw [htgt o ho] at h
    exact hn.1 (List.mem_map.2 ⟨t, ht, h.symm⟩)
  refine ⟨⟨⟨g', some p'⟩, ?_, ?_⟩, ?_, ?_⟩
  · unfold FGroup.fromFile
    rw [Disk.run_write]
    simp only [hjson j hj, hg']
  · exact read_same hu hbase hbase' hdata hp (by rw [Disk.isDir_run, Disk.isDir_run]; exact hd.metadata.1) hd.local_ hfiles
  · refine read_same hu hbase hbase ?_ hp (by rw [Disk.isDir_run, Disk.isDir_run]; exact hd.metadata.1) hd.local_ hfiles
    have : ∀ l : List Table, All2 SameData l l := by
      intro l
      induction l with
      | nil => exact .nil
      | cons a r ih => exact .cons ⟨rfl, fun _ _ _ _ _ => rfl, fun _ _ _ _ _ => rfl, fun _ _ _ _ _ => rfl⟩ ih
    exact this _
  · intro q hq hq'
    rw [Disk.run_other fun o ho h => hq (by rw [← h, htgt o ho]), Disk.run_other]
    intro o ho h
    obtain ⟨t, ht, hte⟩ := List.mem_map.1 (c2 o ho)
    exact hq' t ht (by rw [hte, h])

end

/-! ## Examples -/

/-- The directories `d` and `e`; the table group of C74 in `d`. -/
def twoDirs : Disk :=
  ⟨fun p => decide (p = ⟨false, [['d']]⟩ ∨ p = ⟨false, [['e']]⟩), fun p =>
    if p = ⟨false, [['d'], "t.csv".toList]⟩ then some (.text "ID;L\n5;u,v\n".toList) else none⟩

section
variable {ext : Ext} {x : MExt} {other : Base → Derived → J → Res Val} {fx : FExt} {buf : Dsv.Buffering}

/-- The hypotheses of `C77_copy` are met: copying from `d/md.json` to `e`. -/
theorem C77_example : Rereadable ext x other (fun _ => .ok ()) rereadGroup ∧ Dict.get "base".toList rereadGroup.like.props.atProps = none ∧
    (rereadGroup.group.tables.map Table.url).Nodup ∧
    (PPath.mk false [['e'], "md.json".toList] = (PPath.mk false [['e']]).join (PPath.mk false [['d'], "md.json".toList]).name) ∧
    DirsExist twoDirs ⟨false, [['e'], "md.json".toList]⟩ false rereadGroup.group.tables ∧
    AllDifferent ⟨false, [['e'], "md.json".toList]⟩ false rereadGroup.group.tables ∧
    ∀ t ∈ rereadGroup.group.tables, (∃ s, twoDirs.files (dataFile ⟨false, [['d'], "md.json".toList]⟩ t) = some (.text s)) ∧
      ∀ t' ∈ rereadGroup.group.tables, dataFile ⟨false, [['d'], "md.json".toList]⟩ t ≠ dataFile ⟨false, [['e'], "md.json".toList]⟩ t' := by
  obtain ⟨h1, h2, h3, h4, h5, h6, h7⟩ := C74_example (ext := ext) (x := x) (other := other)
  refine ⟨⟨⟨_, h1, h2⟩, ⟨h3, h5⟩, fun t ht => ⟨h4 t ht, h6 t ht⟩, h7⟩, rfl, by decide, by decide, ⟨by decide, by decide, by decide, by decide⟩,
    by unfold AllDifferent; decide, ?_⟩
  intro t ht
  rw [show rereadGroup.group.tables = [rereadGroup.table rereadGroup.tables[0]] from rfl, List.mem_singleton] at ht
  subst ht
  exact ⟨⟨_, rfl⟩, by decide⟩

/-- **C77 is violated** if `dest` does not exist: the data files are copied to the directory of `dest`, then writing the metadata fails; and the
object is broken: it refers to the file which does not exist. -/
theorem C77_violated_missing : ∃ ops,
    (FGroup.mk rereadGroup (some ⟨false, [['d'], "md.json".toList]⟩)).copy ext fx buf twoDirs ⟨false, [['e'], "new".toList]⟩ =
        (ops, ⟨rereadGroup, some ⟨false, [['e'], "new".toList, "md.json".toList]⟩⟩, some .osError) ∧
      (twoDirs.run ops).files ⟨false, [['e'], "t.csv".toList]⟩ = some (.text "ID;L\n5;u,v\n".toList) :=
  ⟨_, rfl, rfl⟩

/-- The table group of the example, with a base URL. -/
def withBase : GroupD := { rereadGroup with like := { rereadGroup.like with props := { rereadGroup.like.props with atProps := [("base".toList, .str ['d', '/'])] } } }

/-- **C77 is violated** for descriptions with `@base`: `copy` does not adapt it, so that the copy refers to the data in the old place. (`d/` is
resolved against the current directory.) -/
theorem C77_violated_base (hj : fx.urljoin ['d', '/'] "t.csv".toList = "d/t.csv".toList) (d' : Disk) : ∃ ops,
    (FGroup.mk withBase (some ⟨false, [['d'], "md.json".toList]⟩)).copy ext fx buf twoDirs ⟨false, [['e']]⟩ =
        (ops, ⟨withBase, some ⟨false, [['e'], "md.json".toList]⟩⟩, none) ∧
      (withBase.table withBase.tables[0]).location fx d' (some ⟨false, [['e'], "md.json".toList]⟩) = .ok (.file ⟨false, [['d'], "t.csv".toList]⟩) := by
  have h1 : ∀ d : Disk, resolveLink fx d "t.csv".toList (.url ['d', '/']) = .file ⟨false, [['d'], "t.csv".toList]⟩ := by
    intro d
    show Loc.ofStr (fx.urljoin ['d', '/'] "t.csv".toList) = _
    rw [hj]
    rfl
  refine ⟨[.create ⟨false, [['e'], "t.csv".toList]⟩, .copy ⟨false, [['d'], "t.csv".toList]⟩ ⟨false, [['e'], "t.csv".toList]⟩] ++
    (withBase.toFileOps ext fx buf (twoDirs.run [.create ⟨false, [['e'], "t.csv".toList]⟩, .copy ⟨false, [['d'], "t.csv".toList]⟩ ⟨false, [['e'], "t.csv".toList]⟩])
      ⟨false, [['e'], "md.json".toList]⟩ true).1, ?_, ?_⟩
  · unfold FGroup.copy
    show (match copyTables fx (.url ['d', '/']) ⟨false, [['e']]⟩ twoDirs [withBase.table withBase.tables[0]] with
      | (ops, some e) => (ops, _, some e)
      | (ops, none) => _) = _
    have h2 : copyTables fx (.url ['d', '/']) ⟨false, [['e']]⟩ twoDirs [withBase.table withBase.tables[0]] =
        ([.create ⟨false, [['e'], "t.csv".toList]⟩, .copy ⟨false, [['d'], "t.csv".toList]⟩ ⟨false, [['e'], "t.csv".toList]⟩], none) := by
      unfold copyTables
      rw [show (withBase.table withBase.tables[0]).url = "t.csv".toList from rfl, h1]
      rfl
    rw [h2]
    rfl
  · show Except.ok (resolveLink fx d' "t.csv".toList (.url ['d', '/'])) = _
    rw [h1]

/-- **C77 is violated** for zipped data, which can be read, but not copied. -/
theorem C77_violated_zip : ∃ d : Disk,
    ((FGroup.mk rereadGroup (some ⟨false, [['d'], "md.json".toList]⟩)).read ext x fx d).isOk = true ∧
      (FGroup.mk rereadGroup (some ⟨false, [['d'], "md.json".toList]⟩)).copy ext fx buf d ⟨false, [['e']]⟩ =
        ([], ⟨rereadGroup, some ⟨false, [['d'], "md.json".toList]⟩⟩, some .osError) := by
  refine ⟨⟨twoDirs.isDir, fun p => if p = ⟨false, [['d'], "t.csv.zip".toList]⟩ then some (.zip [("t.csv".toList, "ID;L\n5;u,v\n".toList)]) else none⟩,
    ?_, rfl⟩
  have h : DataRows (rereadGroup.table rereadGroup.tables[0]) "ID;L\n5;u,v\n".toList
      [(1, ["ID".toList, "L".toList]), (2, ["5".toList, "u,v".toList])] none := ⟨_, rfl, by decide +kernel, by decide +kernel⟩
  have hr := iterdicts_eq (ext := ext) (x := x) (strict := true) (log := false) h
  have he : ((rereadGroup.table rereadGroup.tables[0]).iterdicts ext x true false "ID;L\n5;u,v\n".toList).err = none := by rw [hr]; rfl
  rw [read_group (result := fun _ => ((rereadGroup.table rereadGroup.tables[0]).iterdicts ext x true false "ID;L\n5;u,v\n".toList).rows.map Prod.snd)
    (by decide)]
  · rfl
  · intro t ht
    rw [show rereadGroup.group.tables = [rereadGroup.table rereadGroup.tables[0]] from rfl, List.mem_singleton] at ht
    subst ht
    exact readRows_of_holds (text := "ID;L\n5;u,v\n".toList) (gp := (rereadGroup.like.props, rereadGroup.like.dialect)) rfl rfl rfl rfl rfl he

end
end Csvw.Props
