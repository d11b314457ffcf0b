import Verif.Lemmas.Metadata3
/-!
# Lemmas about `asdict` and `fromvalue`: schemas
-/

namespace Csvw
open Spec Datatypes

section
variable {ext : Ext} {x : MExt} {other : Base → Derived → J → Res Val}

theorem strsOf_map (l : List Str) : strsOf (l.map .str) = l := by
  induction l with
  | nil => rfl
  | cons a r ih => simp only [List.map_cons, strsOf, ih]

theorem convColref_strs (l : List Str) : convColref (.arr (l.map .str)) = .ok l := by
  have h : (l.map J.str).all J.isStr = true := by simp [J.isStr]
  simp only [convColref, h, if_true, strsOf_map]

/-! ## Foreign keys -/

theorem fk_roundtrip {d : List (Str × J)} {k : ForeignKey} (h : ForeignKey.fromdict d = .ok k) (od : Bool) :
    ∃ m, ForeignKey.asdict od k = .obj m ∧ ForeignKey.fromdict m = .ok k := by
  have hk : (k.resource.isSome && k.schemaReference.isSome) = false := by
    unfold ForeignKey.fromdict at h
    split at h
    · cases h
    · split at h
      · cases h
      · obtain ⟨r, -, h⟩ := Datatype.bind_ok h
        obtain ⟨s, -, h⟩ := Datatype.bind_ok h
        obtain ⟨c, -, h⟩ := Datatype.bind_ok h
        split at h
        · cases h
        · next hrs =>
          split at h
          · cases h
          · obtain ⟨c, -, h⟩ := Datatype.bind_ok h
            cases h
            simpa using hrs
    · cases h
  obtain ⟨cr, res, sr, rc⟩ := k
  refine ⟨_, rfl, ?_⟩
  cases res <;> cases sr <;> cases od <;> first
    | (cases hk; done)
    | (simp [ForeignKey.fromdict, attrItems, Dict.get, argOf, J.ofOptStr, convLink, convColref_strs, bind, Except.bind, pure, Except.pure,
        List.filter])

theorem mapObjs_mem {α : Type} {f : List (Str × J) → Res α} : ∀ {l : List J} {as : List α}, mapObjs f l = .ok as →
    ∀ a ∈ as, ∃ m, J.obj m ∈ l ∧ f m = .ok a
  | [], as, h, a, ha => by cases h; cases ha
  | j :: r, as, h, a, ha => by
    have key : ∀ as', mapObjs f r = .ok as' → a ∈ as' → ∃ m, J.obj m ∈ j :: r ∧ f m = .ok a := by
      intro as' h' ha'
      obtain ⟨m, hm, hf⟩ := mapObjs_mem h' a ha'
      exact ⟨m, List.mem_cons_of_mem _ hm, hf⟩
    cases j with
    | obj m =>
      simp only [mapObjs] at h
      split at h
      · cases h
      · next b hb =>
        obtain ⟨as', h', rfl⟩ := Except.map_eq_ok.1 h
        rcases List.mem_cons.1 ha with rfl | ha
        · exact ⟨m, List.mem_cons_self, hb⟩
        · exact key _ h' ha
    | _ => simp only [mapObjs] at h; exact key _ h ha

theorem fks_roundtrip (od : Bool) : ∀ {l : List ForeignKey}, (∀ k ∈ l, ∃ d, ForeignKey.fromdict d = .ok k) →
    mapObjs ForeignKey.fromdict (l.map (ForeignKey.asdict od)) = .ok l
  | [], _ => rfl
  | k :: r, h => by
    obtain ⟨d, hd⟩ := h k List.mem_cons_self
    obtain ⟨m, h1, h2⟩ := fk_roundtrip hd od
    simp only [List.map_cons, h1, mapObjs, h2, fks_roundtrip od (fun k hk => h k (List.mem_cons_of_mem _ hk))]
    rfl

/-! ## Columns -/

theorem number_cons {v : Bool} {names : List Str} {i : Nat} {c : Column} {r cs : List Column} (h : Schema.number v names i (c :: r) = .ok cs) :
    ∃ v' names' cs', cs = { c with number := i + 1 } :: cs' ∧ Schema.number v' names' (i + 1) r = .ok cs' ∧
      ∀ c' r' cs'', c'.name = c.name → c'.virtual = c.virtual → Schema.number v' names' (i + 1) r' = .ok cs'' →
        Schema.number v names i (c' :: r') = .ok ({ c' with number := i + 1 } :: cs'') := by
  unfold Schema.number at h
  split at h
  · cases h
  · next h1 =>
    split at h
    · next h2 =>
      obtain ⟨cs', h', rfl⟩ := Except.map_eq_ok.1 h
      refine ⟨_, _, _, rfl, h', ?_⟩
      intro c' r' cs'' hn hv hr
      unfold Schema.number
      rw [hv, hn, if_neg h1, if_pos h2, hr]
      rfl
    · next h2 =>
      split at h
      · next n hn =>
        split at h
        · cases h
        · next h3 =>
          obtain ⟨cs', h', rfl⟩ := Except.map_eq_ok.1 h
          refine ⟨_, _, _, rfl, h', ?_⟩
          intro c' r' cs'' hn' hv hr
          unfold Schema.number
          rw [hv, hn', if_neg h1, if_neg h2, hn]
          simp only
          rw [if_neg h3, hr]
          rfl
      · next hn =>
        obtain ⟨cs', h', rfl⟩ := Except.map_eq_ok.1 h
        refine ⟨_, _, _, rfl, h', ?_⟩
        intro c' r' cs'' hn' hv hr
        unfold Schema.number
        rw [hv, hn', if_neg h1, if_neg h2, hn, hr]
        rfl

theorem columns_roundtrip (od : Bool) : ∀ {cols cs : List Column} {v : Bool} {names : List Str} {i : Nat},
    (∀ c ∈ cols, ∃ d, DistinctKeys d ∧ Column.fromvalue ext x other d = .ok c) → Schema.number v names i cols = .ok cs →
    (∀ c ∈ cs, DescrWritable ext c.props) → ∃ js cols' cs', mapRes (Column.asdict ext od) cs = .ok js ∧
      mapObjs (fun m => Column.fromvalue ext x other (.obj m)) js = .ok cols' ∧ Schema.number v names i cols' = .ok cs' ∧
      All2 SameColumn cs cs' ∧ (js = [] → cs = []) ∧ js.any J.isList = false
  | [], cs, v, names, i, _, hn, _ => by
    cases hn
    exact ⟨[], [], [], rfl, rfl, rfl, .nil, fun _ => rfl, rfl⟩
  | c :: r, cs, v, names, i, hc, hn, hw => by
    obtain ⟨v', names', cs', rfl, hn', hre⟩ := number_cons hn
    obtain ⟨d, hd, hf⟩ := hc c List.mem_cons_self
    obtain ⟨m, c', h1, h2, h3⟩ := column_roundtrip hd hf (hw { c with number := i + 1 } List.mem_cons_self) od (i + 1)
    obtain ⟨js, cols', cs'', g1, g2, g3, g4, -, g6⟩ := columns_roundtrip od (fun c hc' => hc c (List.mem_cons_of_mem _ hc')) hn'
      (fun c hc' => hw c (List.mem_cons_of_mem _ hc'))
    refine ⟨.obj m :: js, c' :: cols', { c' with number := i + 1 } :: cs'', ?_, ?_, hre _ _ _ h3.name h3.virtual g3, .cons ?_ g4, by simp, by simpa [J.isList] using g6⟩
    · simp only [mapRes, h1, g1]; rfl
    · simp only [mapObjs, h2, g2]; rfl
    · exact ⟨h3.props, h3.name, h3.titles, h3.virtual, h3.suppressOutput, rfl⟩

theorem sameColumn_header {a b : Column} (h : SameColumn a b) : b.header = a.header := by
  unfold Column.header
  rw [h.name, sameTitles_first h.titles, h.number]

theorem get_ofPairs_map {α β : Type} (f : α → β) (l : List (Str × α)) (k : Str) :
    Dict.get k (Dict.ofPairs (l.map fun e => (e.1, f e.2))) = (Dict.get k (Dict.ofPairs l)).map f := by
  unfold Dict.ofPairs
  rw [Dict.get_update, Dict.get_update, ← List.map_reverse]
  simp only [Dict.get, Option.or_none]
  induction l.reverse with
  | nil => rfl
  | cons a r ih =>
    simp only [List.map_cons, Dict.get]
    split
    · rfl
    · exact ih

theorem columndict_name {s s' : Schema} (h : All2 SameColumn s.columns s'.columns) (k : Str) :
    (Dict.get k s'.columndict).map Column.name = (Dict.get k s.columndict).map Column.name := by
  unfold Schema.columndict
  rw [← get_ofPairs_map, ← get_ofPairs_map]
  congr 2
  simp only [List.map_map]
  generalize s.columns = l at h
  generalize s'.columns = l' at h
  induction h with
  | nil => rfl
  | cons ha _ ih => simp only [List.map_cons, Function.comp, sameColumn_header ha, ha.name, ih]

theorem checkKey_eq (s : Schema) : s.checkKey =
    if (s.primaryKey.getD []).any (fun r => ((Dict.get r s.columndict).map Column.name).any fun n => decide (nonEmpty n = none))
    then { s with primaryKey := none } else s := by
  have : (fun r : Str => ((Dict.get r s.columndict).map Column.name).any fun n => decide (nonEmpty n = none)) = fun r =>
      match Dict.get r s.columndict with
      | some c => decide (nonEmpty c.name = none)
      | none => false := by
    funext r
    cases Dict.get r s.columndict <;> rfl
  rw [this]
  rfl

theorem checkKey_idem (s : Schema) : s.checkKey.checkKey = s.checkKey := by
  rw [checkKey_eq s]
  split
  · rw [checkKey_eq]; rfl
  · next h => rw [checkKey_eq, if_neg h]

/-- The primary key of a schema which was checked refers to no column without name. -/
theorem checkKey_same {s s' : Schema} (h : All2 SameColumn s.columns s'.columns) (hk : s'.primaryKey.getD [] = s.primaryKey.getD [])
    (hs : s.checkKey = s) : s'.checkKey = s' := by
  rw [checkKey_eq] at hs ⊢
  rw [hk]
  simp only [columndict_name h]
  split
  · next hc =>
    rw [if_pos hc] at hs
    have : s.primaryKey = none := by rw [← hs]
    rw [this] at hc
    cases hc
  · rfl

/-! ## Schemas -/

def schemaNames : List String := ["columns", "foreignKeys", "primaryKey", "rowTitles"]

theorem checkKey_columns (s : Schema) : s.checkKey.columns = s.columns ∧ s.checkKey.foreignKeys = s.foreignKeys ∧ s.checkKey.props = s.props := by
  rw [checkKey_eq]; split <;> exact ⟨rfl, rfl, rfl⟩

theorem checkKey_rowTitles (s : Schema) (l : List J) : { s with rowTitles := l }.checkKey = { s.checkKey with rowTitles := l } := by
  rw [checkKey_eq, checkKey_eq]
  have : ({ s with rowTitles := l } : Schema).columndict = s.columndict := rfl
  rw [this]
  simp only
  split <;> rfl

theorem distinct_arr {l : List J} (h : DistinctKeys (.arr l)) : ∀ j ∈ l, DistinctKeys j := by
  cases h with | arr h => exact h

theorem schema_roundtrip {d : J} (hd : DistinctKeys d) {s : Schema} (h : Schema.fromvalue ext x other d = .ok s) (hw : DescrWritable ext s.props)
    (hwc : ∀ c ∈ s.columns, DescrWritable ext c.props) (od : Bool) :
    ∃ m s', s.asdict ext od = .ok (.obj m) ∧ Schema.fromvalue ext x other (.obj m) = .ok s' ∧ SameSchema s s' := by
  obtain ⟨d', hd', h⟩ : ∃ d', DistinctKeys d' ∧ fromParts x schemaFields "Schema" (Schema.ofParts ext x other) d' = .ok s := by
    unfold Schema.fromvalue at h
    split at h
    · cases h
    · exact ⟨_, hd, h⟩
    · exact ⟨_, .obj (by simp [Dict.keys]) (by simp), h⟩
  obtain ⟨p, hp, hf⟩ := fromParts_ok h
  have hown := own_distinct hd' hp
  unfold Schema.ofParts at hf
  obtain ⟨D, hD, hf⟩ := Datatype.bind_ok hf
  obtain ⟨cols, h1, hf⟩ := Datatype.bind_ok hf
  obtain ⟨fks, h2, hf⟩ := Datatype.bind_ok hf
  obtain ⟨pk, h3, hf⟩ := Datatype.bind_ok hf
  obtain ⟨s0, h4, hf⟩ := Datatype.bind_ok hf
  simp only [pure, Except.pure, Except.ok.injEq] at hf
  generalize convRowTitles (Dict.get "rowTitles".toList p.own) = rt at hf
  unfold Schema.construct at h4
  split at h4
  · cases h4
  next cs hcs =>
  simp only [Except.ok.injEq] at h4
  subst h4
  obtain ⟨k1, k2, k3⟩ := checkKey_columns { props := D, columns := cs, foreignKeys := fks, primaryKey := pk }
  have hck := checkKey_idem { props := D, columns := cs, foreignKeys := fks, primaryKey := pk }
  generalize Schema.checkKey { props := D, columns := cs, foreignKeys := fks, primaryKey := pk } = s1 at *
  simp only at k1 k2 k3
  subst hf
  simp only [k1, k3] at hw hwc
  -- the columns
  have hcol : ∀ c ∈ cols, ∃ d, DistinctKeys d ∧ Column.fromvalue ext x other d = .ok c := by
    intro c hc
    have hdc := argOf_distinct hown "columns"
    unfold convColumns at h1
    split at h1
    · next l hl =>
      rw [hl] at hdc
      split at h1
      · cases h1
      obtain ⟨m, hm, hf⟩ := mapObjs_mem h1 c hc
      exact ⟨_, distinct_arr hdc _ hm, hf⟩
    · cases h1; cases hc
  obtain ⟨js, cols', cs', g1, g2, g3, g4, g5, g6⟩ := columns_roundtrip od hcol hcs hwc
  have hfk : ∀ k ∈ fks, ∃ d, ForeignKey.fromdict d = .ok k := by
    intro k hk
    unfold convForeignKeys at h2
    split at h2
    · cases h2; cases hk
    · cases h2; cases hk
    · obtain ⟨m, -, hf⟩ := mapObjs_mem h2 k hk
      exact ⟨m, hf⟩
    · cases h2
  have hfk' := fks_roundtrip od hfk
  obtain ⟨L, hL1, hL2, hL3⟩ := descr_parts (descrFrom hd' hp hD) hw od (fields := schemaFields) (names := schemaNames) (by decide)
    (by decide +kernel)
  generalize hM : [("columns", J.arr js, J.arr []), ("foreignKeys", .arr (fks.map (ForeignKey.asdict od)), .arr []),
     ("primaryKey", .ofOptStrs s1.primaryKey, .null), ("rowTitles", .arr rt, .arr [])] = M
  obtain ⟨hnd, hP⟩ := hL3 M (by subst hM; rfl)
  obtain ⟨hP1, hP2, hP3⟩ := hP (Schema.ofParts ext x other)
  have arrArg : ∀ {n : String} {l : List J}, (n, J.arr l, J.arr []) ∈ L ++ M → n.toList ≠ "null".toList →
      Dict.get n.toList (keepItems (attrItems od (L ++ M))) = if l = [] then none else some (.arr l) := by
    intro n l hm hn
    rw [get_attr hnd hm]
    cases l with
    | nil =>
      simp only [hn, decide_false, Bool.false_or]
      cases od <;> rfl
    | cons a r => simp [keptValue]
  have memM : ∀ {e}, e ∈ M → e ∈ L ++ M := fun h => List.mem_append_right _ h
  have e1 : convColumns ext x other (argOf "columns" (keepItems (attrItems od (L ++ M)))) = .ok cols' := by
    unfold argOf
    rw [arrArg (l := js) (memM (by subst hM; simp)) (by decide)]
    split
    · next hj => subst hj; cases g2; rfl
    · show convColumns ext x other (.arr js) = _
      unfold convColumns
      simp only [g6, Bool.false_eq_true, if_false]; exact g2
  have e2 : convForeignKeys (argOf "foreignKeys" (keepItems (attrItems od (L ++ M)))) = .ok fks := by
    unfold argOf
    rw [arrArg (l := fks.map (ForeignKey.asdict od)) (memM (by subst hM; simp)) (by decide)]
    split
    · next hj => rw [List.map_eq_nil_iff] at hj; subst hj; rfl
    · exact hfk'
  obtain ⟨pk', e3, hpk⟩ : ∃ pk', convKey (argOf "primaryKey" (keepItems (attrItems od (L ++ M)))) = .ok pk' ∧
      (pk' = s1.primaryKey ∨ s1.primaryKey = some [] ∧ pk' = none) := by
    rw [arg_attr hnd (n := "primaryKey") (v := .ofOptStrs s1.primaryKey) (memM (by subst hM; simp)) (by decide)]
    cases s1.primaryKey with
    | none => exact ⟨none, rfl, .inl rfl⟩
    | some l =>
      cases l with
      | nil => exact ⟨none, rfl, .inr ⟨rfl, rfl⟩⟩
      | cons a r =>
        refine ⟨some (a :: r), ?_, .inl rfl⟩
        have : pruneJ (J.ofOptStrs (some (a :: r))) = .arr ((a :: r).map .str) := rfl
        rw [this]
        show (convColref _).map some = _
        rw [convColref_strs]
        rfl
  have e4 : convRowTitles (Dict.get "rowTitles".toList (keepItems (attrItems od (L ++ M)))) = rt := by
    rw [arrArg (n := "rowTitles") (l := rt) (memM (by subst hM; simp)) (by decide)]
    split
    · next hj => subst hj; rfl
    · rfl
  have hpk' : pk'.getD [] = s1.primaryKey.getD [] := by
    rcases hpk with rfl | ⟨hk, rfl⟩
    · rfl
    · rw [hk]; rfl
  have e5 : Schema.checkKey { props := pruneDescr D, columns := cs', foreignKeys := fks, primaryKey := pk' } =
      { props := pruneDescr D, columns := cs', foreignKeys := fks, primaryKey := pk' } :=
    checkKey_same (s := s1) (by rw [k1]; exact g4) hpk' hck
  refine ⟨asdictOf D.atProps D.common (attrItems od L ++ attrItems od M),
    { props := pruneDescr D, columns := cs', foreignKeys := fks, primaryKey := pk', rowTitles := rt }, ?_, ?_, ?_⟩
  · unfold Schema.asdict
    simp only [k1, k2, k3, hL1, g1, bind, Except.bind, pure, Except.pure, hM]
  · show fromParts x schemaFields "Schema" (Schema.ofParts ext x other) _ = _
    rw [hP1]
    unfold Schema.ofParts
    rw [hP2]
    simp only [bind, Except.bind]
    rw [e1, e2, e3]
    simp only [Schema.construct, g3, e5, e4]
    rfl
  · exact ⟨by rw [show ({ s1 with rowTitles := rt } : Schema).props = D from k3]; exact hP3,
      by rw [show ({ s1 with rowTitles := rt } : Schema).columns = cs from k1]; exact g4, k2.symm, hpk, rfl⟩

end
end Csvw
