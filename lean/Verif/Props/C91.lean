import Verif.Props.C90
import Verif.Props.C88
import Verif.Props.C83
import Verif.Props.C80
import Verif.Props.C75
/-!
# C91: `csvwvalidate` accepts what `TableGroup.write` writes
-/

namespace Csvw.Spec

/-- The files are those seen by the program: the document at `url` is the metadata file `p`, and the data of each table are read from its data file. -/
structure Served (fx : FExt) (d : Disk) (p : PPath) (ts : List Table) (w : Locate.World) (url : Str) (data : Str → Str) : Prop where
  metadata : ∀ text, Holds fx d p text → w.getJson url = fx.loads text
  data : ∀ t ∈ ts, ∀ text, Holds fx d (dataFile p t) text → data t.url = text

end Csvw.Spec

namespace Csvw.Props
open Csvw Spec Table

section
variable {ext : Ext} {x : MExt} {other : Base → Derived → J → Res Val} {lk : EncLookup} {fx : FExt} {ver : CsvLib.CsvVer} {buf : Dsv.Buffering}

/-- What is on the disk after writing. -/
theorem write_files {g : GroupD} (hinv : g.dropInvalid = g) {j : J} (hj : g.asdict ext true = .ok j)
    (hu : (g.group.tables.map Table.url).Nodup) {l : List (Table × List Item)} (hl : ∀ e ∈ l, e.1 ∈ g.group.tables)
    {d : Disk} {p : PPath} {strict zipped : Bool}
    (hd : DirsExist d p zipped (l.map Prod.fst)) (hdiff : AllDifferent p zipped (l.map Prod.fst))
    (hw : ∀ e ∈ l, ∃ text, e.1.write ext x ver strict e.2 = .ok text) :
    ∃ ops, g.writeOps ext x fx ver buf d p strict zipped (Spec.itemsOf l) = (ops, none) ∧ Holds fx (d.run ops) p (fx.dumps j) ∧
      ∀ e ∈ l, ∀ text, e.1.write ext x ver strict e.2 = .ok text → Holds fx (d.run ops) (dataFile p e.1) (asRead zipped text) := by
  have htf : g.toFileOps ext fx buf d p true = (FOp.create p :: (buf.pieces (fx.dumps j)).map (.append p), none) := by
    unfold GroupD.toFileOps Disk.writable
    rw [hinv, hj, hd.metadata.1, hd.metadata.2]
    simp
  have hw := groupOps_append (ext := ext) (x := x) (fx := fx) (ver := ver) (buf := buf) (rest := []) (strict := strict) hu hl hd
    (fun hz e he => zip_ne hdiff hz e.1 (List.mem_map.2 ⟨e, he, rfl⟩)) hw
  rw [List.append_nil] at hw
  have hnil : g.writeOps ext x fx ver buf d p strict zipped [] = g.toFileOps ext fx buf d p true := rfl
  rw [hnil, htf] at hw
  simp only at hw
  refine ⟨_, hw, ?_, ?_⟩
  · unfold Holds Disk.read
    simp only [Disk.run_append, Disk.run_write]
  · intro e he text ht
    rw [Disk.run_append]
    have hst := dataOps_stored (ext := ext) (x := x) (ver := ver) (buf := buf) (strict := strict) (d' := d) hd hdiff _ he text ht
    have hdir := hd.data e.1 (List.mem_map.2 ⟨_, he, rfl⟩)
    have hne : ∀ q ∈ touched p zipped e.1, p ≠ q := by
      intro q hq h
      refine (List.nodup_cons.1 hdiff).1 (List.mem_flatMap.2 ⟨e.1, List.mem_map.2 ⟨_, he, rfl⟩, ?_⟩)
      exact Eq.subst (motive := fun q => q ∈ touched p zipped e.1) h.symm hq
    have htgt : ∀ o ∈ (FOp.create p :: (buf.pieces (fx.dumps j)).map (.append p)), o.target = p := by
      intro o ho
      rcases List.mem_cons.1 ho with rfl | ho
      · rfl
      · obtain ⟨a, -, rfl⟩ := List.mem_map.1 ho
        rfl
    have hst' := hst.mono
      (d' := (d.run (dataOps ext x ver buf d p strict zipped l)).run (FOp.create p :: (buf.pieces (fx.dumps j)).map (.append p)))
      (Disk.run_other fun o ho => by rw [htgt o ho]; exact hne _ (mem_touched (zipped := zipped)).1)
      (fun hz => Disk.run_other fun o ho => by rw [htgt o ho]; exact hne _ ((mem_touched (zipped := zipped)).2 hz))
    exact hst'.holds fx (by rw [Disk.isDir_run, Disk.isDir_run]; exact hdir.2)

theorem Writable.writes {t : Table} {dicts : List RowDict} (hw : Writable ext x ver t dicts) (strict : Bool) :
    ∃ text, t.write ext x ver strict (dicts.map .dict) = .ok text := by
  obtain ⟨dl, q, lt, hd⟩ := hw.dialect
  obtain ⟨rows, hcells, _, hq, hs, hc, hb⟩ := hw.cells
  obtain ⟨text, h, _⟩ := C37_same (ext := ext) (x := x) ver strict false dl q lt (fun c hc => (hw.columns c hc).1) hw.distinct hw.some_column hcells hw.keys hd hq hs hc hb
  exact ⟨text, h⟩

/-- Rows without carriage returns are read in the same way if they are zipped. -/
theorem Writable.readsLike {t : Table} {dicts : List RowDict} (hw : Writable ext x ver t dicts) {strict zipped : Bool} {text : Str}
    (ht : t.write ext x ver strict (dicts.map .dict) = .ok text) (hz : zipped = true → NoReturns t text) :
    ReadsLike ext x t text (asRead zipped text) := by
  obtain ⟨dl, q, lt, hd⟩ := hw.dialect
  obtain ⟨rows, hcells, _, hq, hs, hc, hb⟩ := hw.cells
  exact written_asRead hcells (fun _ d hd k hk => by rw [← hw.keys d hd]; exact hk) hd hq hc hb ht hz

theorem fixName_same {c c' : Column} (h : c'.name = c.name) (hf : fixName c = c) : fixName c' = c' := by
  unfold fixName at hf ⊢
  rw [h]
  split
  · rfl
  · next n hn =>
    rw [hn] at hf
    split
    · next hb =>
      dsimp only at hf
      rw [if_pos hb] at hf
      have := congrArg Column.name hf
      rw [hn] at this
      cases this
    · rfl

theorem fixNames_same {t t' : TableD} (h : SameTable t t') (hf : t.fixNames = t) : t'.fixNames = t' := by
  have hcols : t'.like.schema.columns.map fixName = t'.like.schema.columns := by
    have h1 : t.like.schema.columns.map fixName = t.like.schema.columns := congrArg (fun t : TableD => t.like.schema.columns) hf
    conv => rhs; rw [← List.map_id t'.like.schema.columns]
    refine List.map_congr_left fun c' hc' => ?_
    obtain ⟨c, hc, hs⟩ := all2_left_mem h.like.schema.columns c' hc'
    refine fixName_same hs.name ?_
    have : ∀ l : List Column, l.map fixName = l → ∀ c ∈ l, fixName c = c := by
      intro l
      induction l with
      | nil => intro _ c hc; cases hc
      | cons a r ih =>
        intro h c hc
        simp only [List.map_cons, List.cons.injEq] at h
        rcases List.mem_cons.1 hc with rfl | hc
        · exact h.1
        · exact ih h.2 c hc
    exact this _ h1 c hc
  unfold TableD.fixNames
  rw [hcols]

/-- **C91** A group of tables was read, without warnings, from a metadata file that mentions the CSVW namespace, and is written with rows for its tables,
which can be written and such that primary and foreign keys hold (and without carriage returns in their cells, if the data are zipped, see C94). Then writing succeeds, and `csvwvalidate` for the metadata file which was written
finds the data set to be valid: its exit status is 0. -/
theorem C91_validate (hlk : lk "utf-8".toList = .ok ()) {md : List (Str × J)} (hmd : DistinctKeys (.obj md)) {g : GroupD}
    (h : GroupD.fromvalue ext x other lk (.obj md) = .ok g) (hg : Rereadable ext x other lk g) (hfin : FiniteLike g.like)
    (hft : ∀ t ∈ g.tables, FiniteLike t.like) (hclean : Warn.group ext x other lk md = false) (hctx : DeclaresCsvw md) (hne : g.tables ≠ [])
    (hjson : ∀ j, g.asdict ext true = .ok j → fx.loads (fx.dumps j) = .ok j) (hu : (g.group.tables.map Table.url).Nodup)
    {d : Disk} {p : PPath} {strict zipped : Bool} (hd : DirsExist d p zipped g.group.tables) (hdiff : AllDifferent p zipped g.group.tables)
    {eq : PyEq} {rows : Table → List RowDict} (hrows : ∀ t ∈ g.group.tables, Writable ext x ver t (rows t) ∧ KeysHold eq t (rows t))
    (hrefs : ReferencesHold eq rows g.group)
    (hzip : zipped = true → ∀ t ∈ g.group.tables, ∀ text, t.write ext x ver strict ((rows t).map .dict) = .ok text → NoReturns t text) :
    ∃ ops, g.writeOps ext x fx ver buf d p strict zipped (g.group.tables.map fun t => (t.url, (rows t).map .dict)) = (ops, none) ∧
      ∀ (o : OpenExt) (w : Locate.World) (url : Str) (data : Str → Str), isUrl url = false →
        Served fx (d.run ops) p g.group.tables w url data → csvwvalidate ext x other lk o w eq data url = .ok 0 := by
  obtain ⟨m, g', h1, h2, h3, h4, h5⟩ := group_reopen hlk hmd h hg.group.1 (fun t ht => (hg.tables t ht).1) true
  obtain ⟨j0, g0, k1, k2, -, -, -, k6⟩ := C74_reread hlk hmd h hg.group.1 (fun t ht => (hg.tables t ht).1) hg.group.2
    (fun t ht => (hg.tables t ht).2) hg.dialects true
  rw [h1] at k1
  cases k1
  rw [h2] at k2
  cases k2
  have hw' := group_written hlk hmd h hg.group.1 (fun t ht => (hg.tables t ht).1) hfin hft hclean (fun h => by cases h) h1
  have hfst : (g.group.tables.map fun t => (t, (rows t).map Item.dict)).map Prod.fst = g.group.tables := by
    rw [List.map_map]; exact List.map_id _
  have hmem : ∀ {t}, t ∈ g.group.tables → (t, (rows t).map Item.dict) ∈ g.group.tables.map fun t => (t, (rows t).map Item.dict) :=
    fun ht => List.mem_map.2 ⟨_, ht, rfl⟩
  obtain ⟨ops, w1, w2, w3⟩ := write_files (x := x) (fx := fx) (ver := ver) (buf := buf) (d := d) (p := p) (strict := strict) (zipped := zipped)
    (l := g.group.tables.map fun t => (t, (rows t).map Item.dict))
    (group_dropInvalid_eq hg.group.1 fun t ht => (hg.tables t ht).1) h1 hu
    (fun e he => by obtain ⟨t, ht, rfl⟩ := List.mem_map.1 he; exact ht) (by rw [hfst]; exact hd) (by rw [hfst]; exact hdiff)
    (fun e he => by obtain ⟨t, ht, rfl⟩ := List.mem_map.1 he; exact (hrows t ht).1.writes strict)
  refine ⟨ops, ?_, ?_⟩
  · unfold Spec.itemsOf at w1
    rw [List.map_map] at w1
    exact w1
  intro o w url data hurl hs
  obtain ⟨v, l, hv⟩ := h5 hne
  have hget : w.getJson url = .ok (.obj m) := by rw [hs.metadata _ w2]; exact hjson _ h1
  -- names
  have hfix : g'.tables.map TableD.fixNames = g'.tables := by
    have hsrc : ∀ t ∈ g.tables, t.fixNames = t := by
      intro t ht
      have h' := h
      obtain ⟨pp, hp, hf⟩ := fromParts_ok h'
      unfold GroupD.ofParts at hf
      obtain ⟨like, -, hf⟩ := Datatype.bind_ok hf
      obtain ⟨ts, htb, hf⟩ := Datatype.bind_ok hf
      simp only [pure, Except.pure, Except.ok.injEq] at hf
      have hclean' := hclean
      unfold Warn.group at hclean'
      simp only [Bool.or_eq_false_iff] at hclean'
      have s3 := hclean'.2
      rw [own_get hmd.nodup hp (by decide) (fun _ => by decide +kernel)] at htb
      subst hf
      unfold Warn.given at s3
      cases hgt : Dict.get "tables".toList md with
      | none => rw [hgt] at htb; cases htb; cases ht
      | some v =>
        rw [hgt] at htb s3
        cases v with
        | arr lj =>
          obtain ⟨tm, htm, hf⟩ := mapObjs_mem htb t ht
          simp only [Warn.tables, List.any_eq_false] at s3
          have hdv : DistinctKeys (.arr lj) := by have := hmd.arg "tables"; unfold argOf at this; rwa [hgt] at this
          exact table_fix (distinct_arr hdv _ htm) hf (by simpa using s3 _ htm)
        | obj o => cases htb; cases ht
        | str o => cases htb; cases ht
        | _ => cases htb
    conv => rhs; rw [← List.map_id g'.tables]
    refine List.map_congr_left fun t' ht' => ?_
    obtain ⟨t, ht, hst⟩ := all2_left_mem h3.tables t' ht'
    exact fixNames_same hst (hsrc t ht)
  have hinit : Opened.init ext x other lk o w url none = .ok ⟨.group g', isMinimal m⟩ := by
    rw [C68_init]
    refine ⟨m, false, .json _ hget, h4 hctx, rfl, .inr ⟨v, l, hv, g', ?_, ?_, ?_⟩⟩
    · unfold basedAt
      rw [if_neg (by simp [hurl])]
      exact h2
    · rw [hurl]; intro h; cases h
    · rw [hfix]
  have hdoc : Opened.document w url none = .ok (.obj m, false) := by
    unfold Opened.document
    show (match w.getJson url with | .ok md => _ | .error .valueError => _ | .error e => _) = _
    rw [hget]
  have hwarn : Warn.init ext x other lk w url none = false := by
    have hd0 : Warn.document w url none = false := by
      unfold Warn.document
      rw [show (nonEmpty none).getD url = url from rfl, hget]
    unfold Warn.init
    rw [hdoc, hd0]
    simp only [hv, hw', Bool.or_false]
  obtain ⟨d', hvalid⟩ := C88_group_like (ext := ext) (x := x) (eq := eq) (data := data) (d := ⟨.inr g.group, false⟩) (g := g.group) rfl rfl (v := ver)
    (strict := strict) (rows := rows) (fun t ht => by
      obtain ⟨text, ht1⟩ := (hrows t ht).1.writes strict
      refine ⟨(hrows t ht).1, ⟨text, ht1, ?_⟩, (hrows t ht).2⟩
      rw [hs.data t ht _ (w3 _ (hmem ht) text ht1)]
      exact (hrows t ht).1.readsLike ht1 fun hz => hzip hz t ht text ht1) hrefs
  have hval := k6 ext x eq data false
  rw [hvalid] at hval
  obtain ⟨⟨b, d''⟩, hv1, hv2⟩ := Except.map_eq_ok.1 hval
  unfold csvwvalidate
  rw [hinit, hwarn]
  show (match Dataset.isValid ext x eq data ⟨.inr g'.group, false⟩ with | .error .valueError => _ | .error e => _ | .ok (true, _) => _ | .ok (false, _) => _) = _
  rw [hv1]
  cases hv2
  rfl

end
end Csvw.Props
