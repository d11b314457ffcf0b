import Verif.Spec.Files
/-!
# Lemmas about files
-/

namespace Csvw
open Spec

namespace Table

theorem itemTexts_out (ext : Ext) (x : MExt) (ver : CsvLib.CsvVer) (cfg : Dsv.Cfg) (t : Table) (strict : Bool) (items : List Item) :
    ∀ s, (writeItems ext x ver cfg t strict s items).map Dsv.WState.out = match (t.itemTexts ext x ver cfg strict items).2 with
      | none => .ok (s.out ++ (t.itemTexts ext x ver cfg strict items).1.flatten)
      | some e => .error e := by
  induction items with
  | nil => intro s; simp [writeItems, itemTexts, Except.map]
  | cons i r ih =>
    intro s
    unfold writeItems itemTexts
    cases rowOf ext t strict i with
    | error e => rfl
    | ok ws =>
      simp only
      unfold Dsv.writerow
      cases CsvLib.writeRow ver cfg.fmt ((ws.map (cellOf x)).map fun c => Dsv.escapeDoubled cfg.fmt (Dsv.cellText c)) with
      | error e => rfl
      | ok tx =>
        simp only [ih]
        cases (t.itemTexts ext x ver cfg strict r).2 with
        | none => simp
        | some e => rfl

theorem fileTexts_write (ext : Ext) (x : MExt) (ver : CsvLib.CsvVer) (t : Table) (strict : Bool) (items : List Item) :
    t.write ext x ver strict items = match (t.fileTexts ext x ver strict items).2 with
      | none => .ok (t.fileTexts ext x ver strict items).1.flatten
      | some e => .error e := by
  unfold write fileTexts
  cases Dsv.Cfg.ofDialect t.getDialect with
  | error e => rfl
  | ok cfg =>
    simp only
    cases t.getDialect.header with
    | false =>
      simp only [Bool.false_eq_true, if_false]
      have := itemTexts_out ext x ver cfg t strict items {}
      rw [this]
      rfl
    | true =>
      simp only [if_true]
      unfold Dsv.writerow
      cases CsvLib.writeRow ver cfg.fmt ((t.colnames.map some).map fun c => Dsv.escapeDoubled cfg.fmt (Dsv.cellText c)) with
      | error e => rfl
      | ok tx =>
        simp only
        rw [itemTexts_out]
        simp

end Table

/-- The file an operation changes. -/
def FOp.target : FOp → PPath
  | .create p => p
  | .append p _ => p
  | .store p _ _ => p
  | .copy _ p => p
  | .unlink p => p

namespace Disk

theorem run_append (d : Disk) (a b : List FOp) : d.run (a ++ b) = (d.run a).run b := List.foldl_append

theorem isDir_run (ops : List FOp) : ∀ d : Disk, (d.run ops).isDir = d.isDir := by
  induction ops with
  | nil => intro d; rfl
  | cons o r ih =>
    intro d
    show ((d.exec o).run r).isDir = d.isDir
    rw [ih]
    cases o <;> rfl

theorem exec_other {d : Disk} {o : FOp} {q : PPath} (h : o.target ≠ q) : (d.exec o).files q = d.files q := by
  cases o <;> exact if_neg fun h' => h h'.symm

theorem run_other {q : PPath} {ops : List FOp} : ∀ {d : Disk}, (∀ o ∈ ops, o.target ≠ q) → (d.run ops).files q = d.files q := by
  induction ops with
  | nil => intro d _; rfl
  | cons o r ih =>
    intro d h
    show ((d.exec o).run r).files q = d.files q
    rw [ih fun o' h' => h o' (List.mem_cons_of_mem _ h'), exec_other (h o List.mem_cons_self)]

theorem run_appends {p : PPath} (l : List Str) : ∀ {d : Disk} {s : Str}, d.files p = some (.text s) →
    (d.run (l.map (.append p))).files p = some (.text (s ++ l.flatten)) := by
  induction l with
  | nil => intro d s h; simpa [run] using h
  | cons a r ih =>
    intro d s h
    show ((d.exec (.append p a)).run (r.map (.append p))).files p = _
    have h1 : (d.exec (.append p a)).files p = some (.text (s ++ a)) := by
      show (if p = p then some (File.text (d.textOf p ++ a)) else d.files p) = _
      rw [if_pos rfl]
      unfold textOf
      rw [h]
    rw [ih h1]
    simp

theorem run_write {p : PPath} (buf : Dsv.Buffering) (s : Str) (d : Disk) :
    (d.run (.create p :: (buf.pieces s).map (.append p))).files p = some (.text s) := by
  show ((d.exec (.create p)).run _).files p = _
  rw [run_appends (s := [])]
  · rw [buf.complete]; rfl
  · exact if_pos rfl

end Disk

/-- The content as it is stored. -/
def Stored (zipped : Bool) (d : Disk) (p : PPath) (text : Str) : Prop :=
  if zipped then d.files p = none ∧ d.files p.zip = some (.zip [(p.name, text)]) else d.files p = some (.text text)

theorem Stored.holds {zipped : Bool} {d : Disk} {p : PPath} {text : Str} (fx : FExt) (h : Stored zipped d p text) (hd : d.isDir p = false) :
    Holds fx d p (asRead zipped text) := by
  unfold Holds Disk.read asRead
  unfold Stored at h
  cases zipped with
  | false =>
    rw [if_neg (by simp)] at h
    simp only [h]
    rfl
  | true =>
    rw [if_pos rfl] at h
    have h1 : p.name.isSuffixOf p.name = true := by rw [List.isSuffixOf_iff_suffix]; exact List.suffix_rfl
    simp only [h.1, hd, h.2, List.find?, h1]
    rfl

theorem Stored.mono {zipped : Bool} {d d' : Disk} {p : PPath} {text : Str} (h : Stored zipped d p text)
    (h1 : d'.files p = d.files p) (h2 : zipped = true → d'.files p.zip = d.files p.zip) : Stored zipped d' p text := by
  unfold Stored at h ⊢
  cases zipped with
  | false => simpa [h1] using h
  | true => simpa [h1, h2 rfl] using h

section
variable {ext : Ext} {x : MExt} {ver : CsvLib.CsvVer} {buf : Dsv.Buffering} {fx : FExt}

/-- The operations of writing a table concern its own files. -/
theorem writeOps_targets {d : Disk} {t : Table} {p : PPath} {strict zipped : Bool} {items : List Table.Item} {o : FOp}
    (ho : o ∈ (t.writeOps ext x ver buf d p strict zipped items).1) : o.target ∈ (if zipped then [p, p.zip] else [p]) := by
  unfold Table.writeOps at ho
  have hw : ∀ s, o ∈ FOp.create p :: (buf.pieces s).map (.append p) → o.target = p := by
    intro s h
    rcases List.mem_cons.1 h with rfl | h
    · rfl
    · obtain ⟨a, -, rfl⟩ := List.mem_map.1 h
      rfl
  have hp : ∀ b : Bool, p ∈ (if b = true then [p, p.zip] else [p]) := by intro b; cases b <;> simp
  split at ho
  · exact absurd ho (by simp)
  · simp only at ho
    split at ho
    · rw [hw _ ho]; exact hp _
    · split at ho
      · rw [hw _ ho]; exact hp _
      · next hz =>
        have hz : zipped = true := by simpa using hz
        split at ho
        · rw [hw _ ho]; exact hp _
        · rcases List.mem_append.1 ho with ho | ho
          · rw [hw _ ho]; exact hp _
          · rw [hz, if_pos rfl]
            simp only [List.mem_cons, List.not_mem_nil, or_false] at ho
            rcases ho with rfl | rfl | rfl <;> simp [FOp.target]

/-- Writing a table. -/
theorem writeOps_ok {d d' : Disk} {t : Table} {p : PPath} {strict zipped : Bool} {items : List Table.Item} {text : Str}
    (h : t.write ext x ver strict items = .ok text) (hw : d.isDir p.parent = true ∧ d.isDir p = false)
    (hz : zipped = true → d.isDir p.zip = false ∧ p.zip ≠ p) :
    (t.writeOps ext x ver buf d p strict zipped items).2 = none ∧
      Stored zipped (d'.run (t.writeOps ext x ver buf d p strict zipped items).1) p text := by
  rw [Table.fileTexts_write] at h
  unfold Table.writeOps Disk.writable
  rw [hw.1, hw.2]
  simp only [Bool.not_false, Bool.and_self, Bool.not_true, Bool.false_eq_true, if_false]
  cases he : (t.fileTexts ext x ver strict items).2 with
  | some e => rw [he] at h; simp at h
  | none =>
    rw [he] at h
    simp only [Except.ok.injEq] at h
    simp only [h]
    cases zipped with
    | false =>
      refine ⟨by simp, ?_⟩
      unfold Stored
      exact Disk.run_write buf text d'
    | true =>
      obtain ⟨h1, h2⟩ := hz rfl
      simp only [Bool.not_true, Bool.false_eq_true, if_false, h1]
      refine ⟨by simp, ?_⟩
      unfold Stored
      rw [if_pos rfl, Disk.run_append]
      have h3 := Disk.run_write (p := p) buf text d'
      generalize d'.run (FOp.create p :: (buf.pieces text).map (.append p)) = d1 at h3
      show (((d1.exec (.create p.zip)).exec (.store p.zip p p.name)).exec (.unlink p)).files p = none ∧
        (((d1.exec (.create p.zip)).exec (.store p.zip p p.name)).exec (.unlink p)).files p.zip = _
      constructor
      · exact if_pos rfl
      · rw [Disk.exec_other (o := .unlink p) (by exact fun h => h2 h.symm)]
        show (if p.zip = p.zip then some (File.zip [(p.name, (d1.exec (.create p.zip)).textOf p)]) else _) = _
        rw [if_pos rfl]
        have h4 : (d1.exec (.create p.zip)).files p = some (.text text) := by
          rw [Disk.exec_other (o := .create p.zip) h2, h3]
        unfold Disk.textOf
        rw [h4]

/-- Writing a table fails. -/
theorem writeOps_error {d : Disk} {t : Table} {p : PPath} {strict zipped : Bool} {items : List Table.Item} {e : PyErr}
    (h : t.write ext x ver strict items = .error e) (hw : d.isDir p.parent = true ∧ d.isDir p = false) :
    (t.writeOps ext x ver buf d p strict zipped items).2 = some e := by
  rw [Table.fileTexts_write] at h
  unfold Table.writeOps Disk.writable
  rw [hw.1, hw.2]
  simp only [Bool.not_false, Bool.and_self, Bool.not_true, Bool.false_eq_true, if_false]
  cases he : (t.fileTexts ext x ver strict items).2 with
  | none => rw [he] at h; simp at h
  | some e' =>
    rw [he] at h
    simp only [Except.error.injEq] at h
    rw [h]

/-- The operations for the data files. -/
def dataOps (ext : Ext) (x : MExt) (ver : CsvLib.CsvVer) (buf : Dsv.Buffering) (d : Disk) (p : PPath) (strict zipped : Bool)
    (l : List (Table × List Table.Item)) : List FOp :=
  l.flatMap fun e => (e.1.writeOps ext x ver buf d (dataFile p e.1) strict zipped e.2).1

theorem get_tabledict {g : TableGroup} (hu : (g.tables.map Table.url).Nodup) {t : Table} (ht : t ∈ g.tables) :
    Dict.get t.url g.tabledict = some t := by
  unfold TableGroup.tabledict
  have hk : Dict.keys (g.tables.map fun t => (t.url, t)) = g.tables.map Table.url := by
    unfold Dict.keys; rw [List.map_map]; rfl
  rw [Dict.ofPairs_of_nodup (by rw [hk]; exact hu)]
  exact Dict.get_of_mem_nodup (by rw [hk]; exact hu) (List.mem_map.2 ⟨t, ht, rfl⟩)

theorem resolve_dataFile {d : Disk} {p : PPath} {t : Table} (hp : d.isDir p.parent = true) (hu : isUrl t.url = false) :
    resolveLink fx d t.url (.dir p.parent) = .file (dataFile p t) := by
  unfold resolveLink
  simp only [hu, hp, Bool.false_eq_true, if_false, if_true]
  rfl

/-- After tables which can be written. -/
theorem groupOps_append {d : Disk} {g : GroupD} {p : PPath} {strict zipped : Bool} (hu : (g.group.tables.map Table.url).Nodup)
    {rest : List (Str × List Table.Item)} {l : List (Table × List Table.Item)} : (hl : ∀ e ∈ l, e.1 ∈ g.group.tables) →
    DirsExist d p zipped (l.map Prod.fst) →
    (zipped = true → ∀ e ∈ l, (dataFile p e.1).zip ≠ dataFile p e.1) → (∀ e ∈ l, ∃ text, e.1.write ext x ver strict e.2 = .ok text) →
    g.writeOps ext x fx ver buf d p strict zipped (itemsOf l ++ rest) =
      (dataOps ext x ver buf d p strict zipped l ++ (g.writeOps ext x fx ver buf d p strict zipped rest).1,
        (g.writeOps ext x fx ver buf d p strict zipped rest).2) := by
  induction l with
  | nil => intro _ _ _ _; rfl
  | cons e r ih =>
    intro hl hd hz hw
    have hr := ih (fun e' h => hl e' (List.mem_cons_of_mem _ h))
      ⟨hd.metadata, fun t h => hd.local_ t (List.mem_cons_of_mem _ h), fun t h => hd.data t (List.mem_cons_of_mem _ h),
        fun h' t h => hd.zip h' t (List.mem_cons_of_mem _ h)⟩
      (fun h' e' h => hz h' e' (List.mem_cons_of_mem _ h)) (fun e' h => hw e' (List.mem_cons_of_mem _ h))
    obtain ⟨text, ht⟩ := hw e List.mem_cons_self
    have h1 := (writeOps_ok (buf := buf) (d' := d) ht (hd.data e.1 List.mem_cons_self)
      (fun h => ⟨hd.zip h e.1 List.mem_cons_self, hz h e List.mem_cons_self⟩)).1
    have h2 := resolve_dataFile (fx := fx) hd.metadata.1 (hd.local_ e.1 List.mem_cons_self)
    have h3 := get_tabledict hu (hl e List.mem_cons_self)
    have h4 : GroupD.writeOps ext x fx ver buf d g p strict zipped (itemsOf (e :: r) ++ rest) =
        match Dict.get e.1.url g.group.tabledict with
        | none => ([], some .keyError)
        | some t => match t.writeOps ext x ver buf d (resolveLink fx d t.url (.dir p.parent)).path strict zipped e.2 with
          | (ops, some e) => (ops, some e)
          | (ops, none) => (ops ++ (g.writeOps ext x fx ver buf d p strict zipped (itemsOf r ++ rest)).1,
              (g.writeOps ext x fx ver buf d p strict zipped (itemsOf r ++ rest)).2) := rfl
    rw [h4, h3]
    simp only [h2, Loc.path]
    generalize hg : e.1.writeOps ext x ver buf d (dataFile p e.1) strict zipped e.2 = o at h1
    obtain ⟨ops, err⟩ := o
    simp only at h1
    subst h1
    simp only [hr]
    unfold dataOps
    rw [List.flatMap_cons, hg, List.append_assoc]

theorem dataOps_targets {d : Disk} {p : PPath} {strict zipped : Bool} {l : List (Table × List Table.Item)} {o : FOp}
    (ho : o ∈ dataOps ext x ver buf d p strict zipped l) : o.target ∈ (l.map Prod.fst).flatMap (touched p zipped) := by
  unfold dataOps at ho
  obtain ⟨e, he, ho⟩ := List.mem_flatMap.1 ho
  refine List.mem_flatMap.2 ⟨e.1, List.mem_map.2 ⟨e, he, rfl⟩, ?_⟩
  exact writeOps_targets ho

theorem zip_ne {p : PPath} {zipped : Bool} {ts : List Table} (h : AllDifferent p zipped ts) (hz : zipped = true) :
    ∀ t ∈ ts, (dataFile p t).zip ≠ dataFile p t := by
  intro t ht h'
  have h1 := (List.nodup_cons.1 h).2
  have h2 : (touched p zipped t).Nodup := by
    obtain ⟨a, b, rfl⟩ := List.append_of_mem ht
    rw [List.flatMap_append, List.flatMap_cons] at h1
    exact (List.nodup_append.1 (List.nodup_append.1 h1).2.1).1
  unfold touched at h2
  rw [hz, if_pos rfl, h'] at h2
  simp at h2

theorem mem_touched {p : PPath} {zipped : Bool} {t : Table} : dataFile p t ∈ touched p zipped t ∧
    (zipped = true → (dataFile p t).zip ∈ touched p zipped t) := by
  unfold touched
  cases zipped <;> simp

/-- After the operations for the data files, all data are stored. -/
theorem dataOps_stored {d : Disk} {p : PPath} {strict zipped : Bool} {l : List (Table × List Table.Item)} : ∀ {d' : Disk},
    DirsExist d p zipped (l.map Prod.fst) → AllDifferent p zipped (l.map Prod.fst) →
    ∀ e ∈ l, ∀ text, e.1.write ext x ver strict e.2 = .ok text →
    Stored zipped (d'.run (dataOps ext x ver buf d p strict zipped l)) (dataFile p e.1) text := by
  induction l with
  | nil => intro _ _ _ e he; cases he
  | cons a r ih =>
    intro d' hd hdiff e he text ht
    have hd' : DirsExist d p zipped (r.map Prod.fst) :=
      ⟨hd.metadata, fun t h => hd.local_ t (List.mem_cons_of_mem _ h), fun t h => hd.data t (List.mem_cons_of_mem _ h),
        fun h' t h => hd.zip h' t (List.mem_cons_of_mem _ h)⟩
    have hn := (List.nodup_cons.1 hdiff)
    rw [List.map_cons, List.flatMap_cons] at hn
    have hn2 := List.nodup_append.1 hn.2
    have hdiff' : AllDifferent p zipped (r.map Prod.fst) :=
      List.nodup_cons.2 ⟨fun h => hn.1 (List.mem_append_right _ h), hn2.2.1⟩
    have hops : dataOps ext x ver buf d p strict zipped (a :: r) =
        (a.1.writeOps ext x ver buf d (dataFile p a.1) strict zipped a.2).1 ++ dataOps ext x ver buf d p strict zipped r := by
      unfold dataOps; rw [List.flatMap_cons]
    rw [hops, Disk.run_append]
    rcases List.mem_cons.1 he with rfl | he
    · have h1 := (writeOps_ok (buf := buf) (d' := d') ht (hd.data e.1 List.mem_cons_self)
        (fun h => ⟨hd.zip h e.1 List.mem_cons_self, zip_ne hdiff h e.1 List.mem_cons_self⟩)).2
      refine h1.mono (Disk.run_other ?_) fun hz => Disk.run_other ?_
      · intro o ho h
        exact hn2.2.2 _ (mem_touched (zipped := zipped)).1 _ (dataOps_targets ho) h.symm
      · intro o ho h
        exact hn2.2.2 _ ((mem_touched (zipped := zipped)).2 hz) _ (dataOps_targets ho) h.symm
    · exact ih hd' hdiff' e he text ht

end
end Csvw
