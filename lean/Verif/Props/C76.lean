import Verif.Props.C75
import Verif.Props.C41
/-!
# C76: interrupted and failing `TableGroup.write`
-/

namespace Csvw.Props
open Csvw Spec Table

/-- The tables named by the keyword arguments. -/
def namedTables (g : GroupD) (items : List (Str × List Item)) : List Table := items.filterMap fun e => Dict.get e.1 g.group.tabledict

theorem get_tabledict_url {g : TableGroup} {n : Str} {t : Table} (h : Dict.get n g.tabledict = some t) : t.url = n := by
  unfold TableGroup.tabledict at h
  obtain ⟨be, af, -, h', -⟩ := ((get_ofPairs_map (fun t : Table => t.url) g.tables n).1 t).1 h
  exact h'

section
variable {ext : Ext} {x : MExt} {other : Base → Derived → J → Res Val} {lk : EncLookup} {fx : FExt} {ver : CsvLib.CsvVer} {buf : Dsv.Buffering}

/-- What a `write` without exception requires. -/
theorem of_writeOps_none {d : Disk} {t : Table} {p : PPath} {strict zipped : Bool} {items : List Item}
    (h : (t.writeOps ext x ver buf d p strict zipped items).2 = none) :
    d.isDir p.parent = true ∧ d.isDir p = false ∧ (∃ text, t.write ext x ver strict items = .ok text) ∧ (zipped = true → d.isDir p.zip = false) := by
  unfold Table.writeOps Disk.writable at h
  rw [fileTexts_write]
  cases h1 : d.isDir p.parent <;> cases h2 : d.isDir p <;> simp only [h1, h2] at h <;> try (simp at h; done)
  refine ⟨rfl, rfl, ?_⟩
  cases h3 : (t.fileTexts ext x ver strict items).2 with
  | some e => simp [h3] at h
  | none =>
    refine ⟨⟨_, rfl⟩, ?_⟩
    rintro rfl
    cases h4 : d.isDir p.zip with
    | false => rfl
    | true => simp [h3, h4] at h

/-- Either only data files are concerned, or all of them were written, and the metadata file is concerned. -/
theorem writeOps_cases {d : Disk} {g : GroupD} {p : PPath} {strict zipped : Bool} (hp : d.isDir p.parent = true) :
    ∀ {items : List (Str × List Item)}, (∀ t ∈ namedTables g items, isUrl t.url = false) →
    (∀ o ∈ (g.writeOps ext x fx ver buf d p strict zipped items).1, o.target ∈ (namedTables g items).flatMap (touched p zipped)) ∨
    ∃ l, items = itemsOf l ∧ namedTables g items = l.map Prod.fst ∧
      (∀ e ∈ l, Dict.get e.1.url g.group.tabledict = some e.1 ∧ (d.isDir (dataFile p e.1).parent = true ∧ d.isDir (dataFile p e.1) = false) ∧
        (∃ text, e.1.write ext x ver strict e.2 = .ok text) ∧ (zipped = true → d.isDir (dataFile p e.1).zip = false)) ∧
      (g.writeOps ext x fx ver buf d p strict zipped items).1 = dataOps ext x ver buf d p strict zipped l ++ (g.toFileOps ext fx buf d p true).1 := by
  intro items
  induction items with
  | nil => intro _; exact .inr ⟨[], rfl, rfl, (by rintro e ⟨⟩), rfl⟩
  | cons a r ih =>
    obtain ⟨n, rows⟩ := a
    intro hl
    cases ht : Dict.get n g.group.tabledict with
    | none =>
      left
      have : g.writeOps ext x fx ver buf d p strict zipped ((n, rows) :: r) = ([], some .keyError) := by
        unfold GroupD.writeOps; rw [ht]
      rw [this]
      rintro o ⟨⟩
    | some t =>
      have hn : namedTables g ((n, rows) :: r) = t :: namedTables g r := by
        unfold namedTables; rw [List.filterMap_cons]; simp only [ht]
      rw [hn] at hl ⊢
      have hres : (resolveLink fx d t.url (.dir p.parent)).path = dataFile p t := by
        rw [resolve_dataFile hp (hl t List.mem_cons_self)]; rfl
      have htg : ∀ o ∈ (t.writeOps ext x ver buf d (dataFile p t) strict zipped rows).1, o.target ∈ touched p zipped t := fun o ho => writeOps_targets ho
      cases hw : t.writeOps ext x ver buf d (dataFile p t) strict zipped rows with
      | mk ops err =>
        rw [hw] at htg
        cases err with
        | some e =>
          left
          have : g.writeOps ext x fx ver buf d p strict zipped ((n, rows) :: r) = (ops, some e) := by
            conv => lhs; unfold GroupD.writeOps
            rw [ht]; simp only [hres, hw]
          rw [this, List.flatMap_cons]
          exact fun o ho => List.mem_append_left _ (htg o ho)
        | none =>
          have hstep : (g.writeOps ext x fx ver buf d p strict zipped ((n, rows) :: r)).1 =
              ops ++ (g.writeOps ext x fx ver buf d p strict zipped r).1 := by
            conv => lhs; unfold GroupD.writeOps
            rw [ht]; simp only [hres, hw]
          rw [hstep, List.flatMap_cons]
          rcases ih (fun t' h => hl t' (List.mem_cons_of_mem _ h)) with h | ⟨l, h1, h2, h3, h4⟩
          · left
            intro o ho
            rcases List.mem_append.1 ho with ho | ho
            · exact List.mem_append_left _ (htg o ho)
            · exact List.mem_append_right _ (h o ho)
          · right
            have hok := of_writeOps_none (by rw [hw])
            refine ⟨(t, rows) :: l, ?_, by rw [h2]; rfl, ?_, ?_⟩
            · unfold itemsOf at h1 ⊢
              rw [List.map_cons, ← h1, get_tabledict_url ht]
            · intro e he
              rcases List.mem_cons.1 he with rfl | he
              · exact ⟨by rw [get_tabledict_url ht, ht], ⟨hok.1, hok.2.1⟩, hok.2.2⟩
              · exact h3 e he
            · rw [h4, ← List.append_assoc]
              congr 1
              unfold dataOps
              rw [List.flatMap_cons, hw]

theorem prefix_append {α : Type} {a b pre post : List α} (h : a ++ b = pre ++ post) :
    (∃ r, a = pre ++ r) ∨ ∃ m, pre = a ++ m ∧ b = m ++ post := by
  rcases List.append_eq_append_iff.1 h with ⟨m, h1, h2⟩ | ⟨m, h1, h2⟩
  · exact .inr ⟨m, h1, h2⟩
  · exact .inl ⟨m, h1⟩

theorem toFileOps_targets {d : Disk} {g : GroupD} {p : PPath} {od : Bool} {o : FOp} (ho : o ∈ (g.toFileOps ext fx buf d p od).1) : o.target = p := by
  unfold GroupD.toFileOps at ho
  have key : ∀ s, o ∈ FOp.create p :: (buf.pieces s).map (.append p) → o.target = p := by
    intro s h
    rcases List.mem_cons.1 h with rfl | h
    · rfl
    · obtain ⟨a, -, rfl⟩ := List.mem_map.1 h
      rfl
  split at ho
  · cases ho
  · split at ho
    · cases ho
    · split at ho
      · exact key _ ho
      · exact key _ ho

theorem toFileOps_dir {d : Disk} {g : GroupD} {p : PPath} {od : Bool} (h : d.isDir p = true) : (g.toFileOps ext fx buf d p od).1 = [] := by
  unfold GroupD.toFileOps Disk.writable
  split
  · rfl
  · rw [h]; simp

/-- **C76** Interrupting `TableGroup.write` at any point (`pre` are the operations performed so far): files other than the metadata file and
the data files named do not change; and the metadata file does not change before all data files are complete. -/
theorem C76_interrupted {d : Disk} {g : GroupD} {p : PPath} {strict zipped : Bool} {items : List (Str × List Item)} (hp : d.isDir p.parent = true)
    (hl : ∀ t ∈ namedTables g items, isUrl t.url = false) (hdiff : AllDifferent p zipped (namedTables g items)) {pre post : List FOp}
    (hops : (g.writeOps ext x fx ver buf d p strict zipped items).1 = pre ++ post) :
    (∀ q, q ≠ p → (∀ t ∈ namedTables g items, q ∉ touched p zipped t) → (d.run pre).files q = d.files q) ∧
    ((d.run pre).files p ≠ d.files p → ∀ e ∈ items, ∃ t text, Dict.get e.1 g.group.tabledict = some t ∧
      t.write ext x ver strict e.2 = .ok text ∧ Holds fx (d.run pre) (dataFile p t) (asRead zipped text)) := by
  have hpnot := (List.nodup_cons.1 hdiff).1
  rcases writeOps_cases (ext := ext) (x := x) (fx := fx) (ver := ver) (buf := buf) (strict := strict) (zipped := zipped) hp hl with h | ⟨l, h1, h2, h3, h4⟩
  · rw [hops] at h
    refine ⟨?_, ?_⟩
    · intro q hq hq'
      refine Disk.run_other fun o ho he => ?_
      obtain ⟨t, ht, hto⟩ := List.mem_flatMap.1 (h o (List.mem_append_left _ ho))
      exact hq' t ht (he ▸ hto)
    · intro hne
      refine absurd (Disk.run_other fun o ho he => ?_) hne
      exact hpnot (he ▸ h o (List.mem_append_left _ ho))
  · have htg : ∀ o ∈ pre ++ post, o.target = p ∨ o.target ∈ (namedTables g items).flatMap (touched p zipped) := by
      intro o ho
      rw [← hops, h4] at ho
      rcases List.mem_append.1 ho with ho | ho
      · right; rw [h2]; exact dataOps_targets ho
      · exact .inl (toFileOps_targets ho)
    refine ⟨?_, ?_⟩
    · intro q hq hq'
      refine Disk.run_other fun o ho he => ?_
      rcases htg o (List.mem_append_left _ ho) with h | h
      · exact hq (he ▸ h)
      · obtain ⟨t, ht, hto⟩ := List.mem_flatMap.1 h
        exact hq' t ht (he ▸ hto)
    · intro hne
      rw [hops] at h4
      rcases prefix_append h4.symm with ⟨r, hr⟩ | ⟨m, hm, hm'⟩
      · refine absurd (Disk.run_other fun o ho he => ?_) hne
        have hin := dataOps_targets (ext := ext) (x := x) (ver := ver) (buf := buf) (d := d) (strict := strict) (p := p) (zipped := zipped)
          (l := l) (o := o) (by rw [hr]; exact List.mem_append_left _ ho)
        rw [← h2] at hin
        exact hpnot (Eq.subst (motive := fun q => q ∈ (namedTables g items).flatMap (touched p zipped)) he hin)
      · have hdir : d.isDir p = false := by
          cases hd : d.isDir p with
          | false => rfl
          | true =>
            rw [toFileOps_dir hd] at hm'
            have : m = [] := (List.append_eq_nil_iff.1 hm'.symm).1
            rw [hm, this, List.append_nil] at hne
            refine absurd (Disk.run_other fun o ho he => ?_) hne
            have hin := dataOps_targets ho
            rw [← h2] at hin
            exact hpnot (Eq.subst (motive := fun q => q ∈ (namedTables g items).flatMap (touched p zipped)) he hin)
        have hmt : ∀ o ∈ m, o.target = p := fun o ho =>
          toFileOps_targets (ext := ext) (fx := fx) (buf := buf) (d := d) (g := g) (od := true) (by rw [hm']; exact List.mem_append_left _ ho)
        have hd : DirsExist d p zipped (l.map Prod.fst) := by
          refine ⟨⟨hp, hdir⟩, ?_, ?_, ?_⟩
          · rw [← h2]; exact hl
          · intro t ht
            obtain ⟨e, he, rfl⟩ := List.mem_map.1 ht
            exact (h3 e he).2.1
          · intro hz t ht
            obtain ⟨e, he, rfl⟩ := List.mem_map.1 ht
            exact (h3 e he).2.2.2 hz
        intro e he
        rw [h1] at he
        unfold itemsOf at he
        obtain ⟨e, hel, rfl⟩ := List.mem_map.1 he
        clear he
        have he := hel
        obtain ⟨k1, k2, ⟨text, k3⟩, k4⟩ := h3 e he
        refine ⟨e.1, text, k1, k3, ?_⟩
        rw [hm, Disk.run_append]
        have hst := dataOps_stored (ext := ext) (x := x) (ver := ver) (buf := buf) (strict := strict) (d' := d) hd (h2 ▸ hdiff) e he text k3
        have hne' : ∀ q ∈ touched p zipped e.1, p ≠ q := by
          intro q hq h
          refine hpnot (List.mem_flatMap.2 ⟨e.1, h2 ▸ List.mem_map.2 ⟨_, he, rfl⟩, ?_⟩)
          exact Eq.subst (motive := fun q => q ∈ touched p zipped e.1) h.symm hq
        have hst' := hst.mono (d' := (d.run (dataOps ext x ver buf d p strict zipped l)).run m)
          (Disk.run_other fun o ho => by rw [hmt o ho]; exact hne' _ (mem_touched (zipped := zipped)).1)
          (fun hz => Disk.run_other fun o ho => by rw [hmt o ho]; exact hne' _ ((mem_touched (zipped := zipped)).2 hz))
        exact hst'.holds fx (by rw [Disk.isDir_run, Disk.isDir_run]; exact k2.2)

theorem itemTexts_append {ext : Ext} {x : MExt} {ver : CsvLib.CsvVer} {cfg : Dsv.Cfg} {t : Table} {strict : Bool} {i : Item} {b : List Item} {e : PyErr}
    (hi : rowOf ext t strict i = .error e) : ∀ {a : List Item}, (t.itemTexts ext x ver cfg strict a).2 = none →
    t.itemTexts ext x ver cfg strict (a ++ i :: b) = ((t.itemTexts ext x ver cfg strict a).1, some e) := by
  intro a
  induction a with
  | nil =>
    intro _
    show t.itemTexts ext x ver cfg strict (i :: b) = _
    unfold itemTexts
    rw [hi]
  | cons c r ih =>
    intro h
    show t.itemTexts ext x ver cfg strict (c :: (r ++ i :: b)) = _
    have e1 : ∀ l, t.itemTexts ext x ver cfg strict (c :: l) = match rowOf ext t strict c with
        | .error e => ([], some e)
        | .ok ws => match Dsv.writerow ver cfg {} (ws.map (cellOf x)) with
          | .error e => ([], some e)
          | .ok s => (s.out :: (t.itemTexts ext x ver cfg strict l).1, (t.itemTexts ext x ver cfg strict l).2) := fun _ => rfl
    rw [e1] at h
    rw [e1, e1]
    cases h1 : rowOf ext t strict c with
    | error e' => rw [h1] at h; cases h
    | ok ws =>
      rw [h1] at h
      simp only at h ⊢
      cases h2 : Dsv.writerow ver cfg {} (ws.map (cellOf x)) with
      | error e' => rw [h2] at h; cases h
      | ok s =>
        rw [h2] at h
        simp only at h ⊢
        rw [ih h]

/-- **C76** A row which cannot be written (`rowOf` is what `write` computes for it): the exception is raised, and the data file holds what is
written for the rows before (only). -/
theorem C76_rows {d : Disk} {t : Table} {p : PPath} {strict zipped : Bool} {a b : List Item} {i : Item} {e : PyErr} {text : Str}
    (hw : d.isDir p.parent = true ∧ d.isDir p = false) (ha : t.write ext x ver strict a = .ok text) (hi : rowOf ext t strict i = .error e) :
    (t.writeOps ext x ver buf d p strict zipped (a ++ i :: b)).2 = some e ∧
      (d.run (t.writeOps ext x ver buf d p strict zipped (a ++ i :: b)).1).files p = some (.text text) := by
  have hf : t.fileTexts ext x ver strict (a ++ i :: b) = ((t.fileTexts ext x ver strict a).1, some e) := by
    rw [fileTexts_write] at ha
    unfold fileTexts at ha ⊢
    cases hc : Dsv.Cfg.ofDialect t.getDialect with
    | error e' => rw [hc] at ha; cases ha
    | ok cfg =>
      rw [hc] at ha
      simp only at ha ⊢
      by_cases hh : t.getDialect.header = true
      · rw [if_pos hh] at ha
        rw [if_pos hh, if_pos hh]
        cases hr : Dsv.writerow ver cfg {} (t.colnames.map some) with
        | error e' => rw [hr] at ha; cases ha
        | ok s =>
          rw [hr] at ha
          simp only at ha ⊢
          cases hn : (t.itemTexts ext x ver cfg strict a).2 with
          | some e' => rw [hn] at ha; cases ha
          | none => rw [itemTexts_append hi hn]
      · rw [if_neg hh] at ha
        rw [if_neg hh, if_neg hh]
        cases hn : (t.itemTexts ext x ver cfg strict a).2 with
        | some e' => rw [hn] at ha; cases ha
        | none => rw [itemTexts_append hi hn]
  have ht : (t.fileTexts ext x ver strict a).1.flatten = text := by
    rw [fileTexts_write] at ha
    cases hn : (t.fileTexts ext x ver strict a).2 with
    | some e' => rw [hn] at ha; cases ha
    | none => rw [hn] at ha; injection ha
  unfold Table.writeOps Disk.writable
  rw [hw.1, hw.2]
  simp only [Bool.not_false, Bool.and_self, Bool.not_true, Bool.false_eq_true, if_false, hf]
  rw [ht]
  exact ⟨trivial, Disk.run_write buf text d⟩

/-- **C76** If the rows for a table cannot be written, or there is no such table, then the exception is raised by `TableGroup.write`; the data
files of the tables before are complete, and those of the tables after, and the metadata file, are not changed (not even in between). -/
theorem C76_failed {d : Disk} {g : GroupD} {p : PPath} {strict zipped : Bool} (hu : (g.group.tables.map Table.url).Nodup)
    {l : List (Table × List Item)} {n : Str} {rows : List Item} {rest : List (Str × List Item)} {e : PyErr} (hl : ∀ e ∈ l, e.1 ∈ g.group.tables)
    (hd : DirsExist d p zipped (namedTables g (itemsOf l ++ (n, rows) :: rest)))
    (hdiff : AllDifferent p zipped (namedTables g (itemsOf l ++ (n, rows) :: rest)))
    (hok : ∀ e ∈ l, ∃ text, e.1.write ext x ver strict e.2 = .ok text)
    (hbad : (Dict.get n g.group.tabledict = none ∧ e = .keyError) ∨
      ∃ t, Dict.get n g.group.tabledict = some t ∧ t.write ext x ver strict rows = .error e) :
    ∃ ops, g.writeOps ext x fx ver buf d p strict zipped (itemsOf l ++ (n, rows) :: rest) = (ops, some e) ∧
      (∀ e' ∈ l, ∃ text, e'.1.write ext x ver strict e'.2 = .ok text ∧ Holds fx (d.run ops) (dataFile p e'.1) (asRead zipped text)) ∧
      ∀ pre post, ops = pre ++ post → (d.run pre).files p = d.files p ∧
        ∀ t ∈ namedTables g rest, ∀ q ∈ touched p zipped t, (d.run pre).files q = d.files q := by
  have hnl : namedTables g (itemsOf l ++ (n, rows) :: rest) =
      l.map Prod.fst ++ ((Dict.get n g.group.tabledict).toList ++ namedTables g rest) := by
    unfold namedTables itemsOf
    rw [List.filterMap_append, List.filterMap_map, List.filterMap_cons]
    congr 1
    · clear hd hdiff hok
      induction l with
      | nil => rfl
      | cons a r ih =>
        rw [List.filterMap_cons, List.map_cons]
        simp only [Function.comp_apply, get_tabledict hu (hl a List.mem_cons_self)]
        exact congrArg _ (ih fun e he => hl e (List.mem_cons_of_mem _ he))
    · cases Dict.get n g.group.tabledict <;> rfl
  rw [hnl] at hd hdiff
  have hd1 : DirsExist d p zipped (l.map Prod.fst) :=
    ⟨hd.metadata, fun t h => hd.local_ t (List.mem_append_left _ h), fun t h => hd.data t (List.mem_append_left _ h),
      fun h' t h => hd.zip h' t (List.mem_append_left _ h)⟩
  unfold AllDifferent at hdiff
  rw [List.nodup_cons, List.flatMap_append, List.nodup_append] at hdiff
  obtain ⟨hn1, hn2, hn3, hn4⟩ := hdiff
  have hdiff1 : AllDifferent p zipped (l.map Prod.fst) := List.nodup_cons.2 ⟨fun h => hn1 (List.mem_append_left _ h), hn2⟩
  rw [List.flatMap_append, List.nodup_append] at hn3
  have happ := groupOps_append (ext := ext) (x := x) (fx := fx) (ver := ver) (buf := buf) (strict := strict) (rest := (n, rows) :: rest) hu hl hd1
    (fun hz e he => zip_ne hdiff1 hz e.1 (List.mem_map.2 ⟨e, he, rfl⟩)) hok
  have hlast : ∃ ops, g.writeOps ext x fx ver buf d p strict zipped ((n, rows) :: rest) = (ops, some e) ∧
      ∀ o ∈ ops, o.target ∈ (Dict.get n g.group.tabledict).toList.flatMap (touched p zipped) := by
    cases ht : Dict.get n g.group.tabledict with
    | none =>
      have hbad : e = .keyError := by
        rcases hbad with ⟨-, h⟩ | ⟨t, h, -⟩
        · exact h
        · rw [ht] at h; cases h
      refine ⟨[], ?_, by rintro o ⟨⟩⟩
      unfold GroupD.writeOps
      rw [ht, hbad]
    | some t =>
      rw [ht] at hd
      have hbad : t.write ext x ver strict rows = .error e := by
        rcases hbad with ⟨h, -⟩ | ⟨t', h, h'⟩
        · rw [ht] at h; cases h
        · rw [ht] at h; cases h; exact h'
      have hmem : t ∈ l.map Prod.fst ++ ((some t).toList ++ namedTables g rest) :=
        List.mem_append_right _ (List.mem_append_left _ (by simp))
      have hres : (resolveLink fx d t.url (.dir p.parent)).path = dataFile p t := by
        rw [resolve_dataFile hd.metadata.1 (hd.local_ t hmem)]; rfl
      have herr := writeOps_error (buf := buf) (zipped := zipped) hbad (hd.data t hmem)
      refine ⟨(t.writeOps ext x ver buf d (dataFile p t) strict zipped rows).1, ?_, ?_⟩
      · unfold GroupD.writeOps
        rw [ht]
        simp only [hres]
        cases hw : t.writeOps ext x ver buf d (dataFile p t) strict zipped rows with
        | mk ops err =>
          rw [hw] at herr
          simp only at herr
          rw [herr]
      · intro o ho
        simp only [Option.toList, List.flatMap_cons, List.flatMap_nil, List.append_nil]
        exact writeOps_targets ho
  obtain ⟨ops, ho1, ho2⟩ := hlast
  rw [ho1] at happ
  refine ⟨_, happ, ?_, ?_⟩
  · intro e' he'
    obtain ⟨text, ht⟩ := hok e' he'
    refine ⟨text, ht, ?_⟩
    have hst := dataOps_stored (ext := ext) (x := x) (ver := ver) (buf := buf) (strict := strict) (d' := d) hd1 hdiff1 e' he' text ht
    rw [Disk.run_append]
    have hne : ∀ q ∈ touched p zipped e'.1, ∀ o ∈ ops, o.target ≠ q := by
      intro q hq o ho h
      refine hn4 q (List.mem_flatMap.2 ⟨e'.1, List.mem_map.2 ⟨_, he', rfl⟩, hq⟩) o.target ?_ h.symm
      rw [List.flatMap_append]
      exact List.mem_append_left _ (ho2 o ho)
    have hst' := hst.mono (d' := (d.run (dataOps ext x ver buf d p strict zipped l)).run ops)
      (Disk.run_other (hne _ (mem_touched (zipped := zipped)).1))
      (fun hz => Disk.run_other (hne _ ((mem_touched (zipped := zipped)).2 hz)))
    exact hst'.holds fx (by rw [Disk.isDir_run, Disk.isDir_run]; exact (hd1.data e'.1 (List.mem_map.2 ⟨_, he', rfl⟩)).2)
  · intro pre post hpre
    have htg : ∀ o ∈ pre, o.target ∈ (l.map Prod.fst).flatMap (touched p zipped) ∨
        o.target ∈ (Dict.get n g.group.tabledict).toList.flatMap (touched p zipped) := by
      intro o ho
      have : o ∈ dataOps ext x ver buf d p strict zipped l ++ ops := by rw [hpre]; exact List.mem_append_left _ ho
      rcases List.mem_append.1 this with h | h
      · exact .inl (dataOps_targets h)
      · exact .inr (ho2 o h)
    refine ⟨?_, ?_⟩
    · refine Disk.run_other fun o ho h => hn1 ?_
      rw [List.flatMap_append]
      rcases htg o ho with h' | h'
      · exact List.mem_append_left _ (Eq.subst (motive := fun q => q ∈ (l.map Prod.fst).flatMap (touched p zipped)) h h')
      · exact List.mem_append_right _ (List.mem_append_left _
          (Eq.subst (motive := fun q => q ∈ (Dict.get n g.group.tabledict).toList.flatMap (touched p zipped)) h h'))
    · intro t ht q hq
      have hq' : q ∈ (namedTables g rest).flatMap (touched p zipped) := List.mem_flatMap.2 ⟨t, ht, hq⟩
      refine Disk.run_other fun o ho h => ?_
      rcases htg o ho with h' | h'
      · refine hn4 _ h' q ?_ h
        rw [List.flatMap_append]
        exact List.mem_append_right _ hq'
      · exact hn3.2.2 _ h' q hq' h

end

/-! ## Examples -/

/-- A group with two tables with an integer column. -/
def twoInts : GroupD :=
  { tables := [{ like := { url := some "t.csv".toList, schema := { columns := [{ name := some ['a'], props := { datatype := .dtype { base := .integer } }, number := 1 }] } } },
               { like := { url := some "u.csv".toList, schema := { columns := [{ name := some ['a'], props := { datatype := .dtype { base := .integer } }, number := 1 }] } } }] }

/-- The directory `d` with the files `md.json`, `t.csv` and `u.csv`. -/
def oldFiles : Disk :=
  ⟨fun p => decide (p = ⟨false, [['d']]⟩), fun p =>
    if p = ⟨false, [['d'], "md.json".toList]⟩ then some (.text "old metadata".toList)
    else if p = ⟨false, [['d'], "t.csv".toList]⟩ then some (.text "old t".toList)
    else if p = ⟨false, [['d'], "u.csv".toList]⟩ then some (.text "old u".toList) else none⟩

/-- The row for the second table has an unknown key. -/
def badRows : List (Str × List Item) :=
  [("t.csv".toList, [.dict [(['a'], .one (.int 5))]]), ("u.csv".toList, [.dict [(['a'], .one (.int 6))], .dict [(['b'], .one (.int 7))]])]

section
variable {ext : Ext} {x : MExt} {fx : FExt} {ver : CsvLib.CsvVer}

/-- The hypotheses of `C76_failed` and `C76_interrupted` are met. -/
theorem C76_example : badRows = itemsOf [(twoInts.table twoInts.tables[0], [.dict [(['a'], .one (.int 5))]])] ++
      [("u.csv".toList, [.dict [(['a'], .one (.int 6))], .dict [(['b'], .one (.int 7))]])] ∧
    (twoInts.group.tables.map Table.url).Nodup ∧
    DirsExist oldFiles ⟨false, [['d'], "md.json".toList]⟩ true (namedTables twoInts badRows) ∧
    AllDifferent ⟨false, [['d'], "md.json".toList]⟩ true (namedTables twoInts badRows) ∧
    (twoInts.table twoInts.tables[0]).write ext x ver true [.dict [(['a'], .one (.int 5))]] = .ok "a\r\n5\r\n".toList ∧
    Dict.get "u.csv".toList twoInts.group.tabledict = some (twoInts.table twoInts.tables[1]) ∧
    (twoInts.table twoInts.tables[1]).write ext x ver true [.dict [(['a'], .one (.int 6))], .dict [(['b'], .one (.int 7))]] = .error .valueError :=
  ⟨rfl, by decide, ⟨by decide, by decide, by decide, fun _ => by decide⟩, by unfold AllDifferent; decide, by obtain ⟨a, b⟩ := ver; cases a <;> cases b <;> rfl, rfl, by obtain ⟨a, b⟩ := ver; cases a <;> cases b <;> rfl⟩

/-- **C76 is violated** for the data files themselves: what an existing data file contained is lost when `write` fails. -/
theorem C76_violated_data : ∃ ops,
    twoInts.writeOps ext x fx ver .whole oldFiles ⟨false, [['d'], "md.json".toList]⟩ true false badRows = (ops, some .valueError) ∧
      (oldFiles.run ops).files ⟨false, [['d'], "t.csv".toList]⟩ = some (.text "a\r\n5\r\n".toList) ∧
      (oldFiles.run ops).files ⟨false, [['d'], "u.csv".toList]⟩ = some (.text "a\r\n6\r\n".toList) ∧
      (oldFiles.run ops).files ⟨false, [['d'], "md.json".toList]⟩ = some (.text "old metadata".toList) := by
  obtain ⟨a, b⟩ := ver
  cases a <;> cases b <;> exact ⟨_, rfl, rfl, rfl, rfl⟩

/-- **C76 is violated** if the directory of the metadata file does not exist: data files are written to *its* directory, where they replace
others; then writing the metadata fails. -/
theorem C76_violated_directory : ∃ ops,
    twoInts.writeOps ext x fx ver .whole oldFiles ⟨false, [['d'], "new".toList, "md.json".toList]⟩ true false
        [("t.csv".toList, [.dict [(['a'], .one (.int 5))]])] = (ops, some .osError) ∧
      (oldFiles.run ops).files ⟨false, [['d'], "t.csv".toList]⟩ = some (.text "a\r\n5\r\n".toList) := by
  obtain ⟨a, b⟩ := ver
  cases a <;> cases b <;> exact ⟨_, rfl, rfl⟩

/-- A description with an invalid URI template. -/
def invalidTemplate : J := .obj [("tables".toList, .arr [.obj [("url".toList, .str "t.csv".toList), ("aboutUrl".toList, .int 5)]])]

/-- **C76 is violated** for the metadata file if the description has an invalid URI template (which is accepted, with a warning, when it is
read): `write` raises `TypeError` after the old content of the metadata file was lost; what is left is the beginning of a JSON text. -/
theorem C76_violated_metadata {other : Base → Derived → J → Res Val} : ∃ g ops,
    GroupD.fromvalue ext x other (fun _ => .ok ()) invalidTemplate = .ok g ∧
      g.writeOps ext x fx ver .whole oldFiles ⟨false, [['d'], "md.json".toList]⟩ true false [] = (ops, some .typeError) ∧
      (oldFiles.run ops).files ⟨false, [['d'], "md.json".toList]⟩ = some (.text (fx.cut g)) :=
  ⟨_, _, rfl, rfl, rfl⟩

end
end Csvw.Props
