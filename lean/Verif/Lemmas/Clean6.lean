import Verif.Lemmas.Clean5
/-!
# Warnings about schemas
-/

namespace Csvw
open Csvw.Spec

section
variable {ext : Ext} {x : MExt} {other : Base → Derived → J → Res Val}

/-- The columns and their descriptions. -/
structure Columns (cs : List (List (Str × J))) (cols : List Column) : Prop where
  length : cs.length = cols.length
  item : ∀ (i : Nat) c col, cs[i]? = some c → cols[i]? = some col → ColumnOf c col ∧ col.number = i + 1
  virtual : cols.Pairwise (fun c c' => c.virtual = true → c'.virtual = true)

theorem all2_at {α β : Type} {R : α → β → Prop} {as : List α} {bs : List β} (h : All2 R as bs) :
    as.length = bs.length ∧ ∀ (i : Nat) a b, as[i]? = some a → bs[i]? = some b → R a b := by
  induction h with
  | nil => simp
  | cons hab _ ih =>
    refine ⟨by simp [ih.1], fun i a b ha hb => ?_⟩
    cases i with
    | zero => simp at ha hb; subst ha hb; exact hab
    | succ i => exact ih.2 i a b (by simpa using ha) (by simpa using hb)

theorem ColumnOf.numbered {m : List (Str × J)} {c : Column} (h : ColumnOf m c) (n : Nat) : ColumnOf m { c with number := n } :=
  ⟨h.name, h.title, h.virtual⟩

theorem columns_construct {cs : List (List (Str × J))} {cols : List Column} (h : All2 (fun m c => ColumnOf m c) cs cols) {props : Descr}
    {fks : List ForeignKey} {pk : Option (List Str)} {s : Schema} (hs : Schema.construct props cols fks pk = .ok s) : Columns cs s.columns := by
  obtain ⟨h1, h2, -, data, virt, e, hd, hv⟩ := Props.C34_invariants props cols fks pk hs
  obtain ⟨hl, ha⟩ := all2_at h
  refine ⟨by rw [h1, hl]; simp, fun i c col hc hcol => ⟨?_, ?_⟩, ?_⟩
  · rw [h1, List.getElem?_mapIdx] at hcol
    obtain ⟨c', hc', rfl⟩ := Option.map_eq_some_iff.1 hcol
    exact (ha i c c' hc hc').numbered _
  · obtain ⟨hi, rfl⟩ := List.getElem?_eq_some_iff.1 hcol
    exact h2 i hi
  · rw [e, List.pairwise_append]
    refine ⟨?_, ?_, ?_⟩
    · exact List.Pairwise.imp_of_mem (R := fun _ _ => True) (fun ha _ _ h' => by rw [hd _ ha] at h'; cases h') (List.pairwise_of_forall fun _ _ => trivial)
    · exact List.Pairwise.imp_of_mem (R := fun _ _ => True) (fun _ hb _ _ => hv _ hb) (List.pairwise_of_forall fun _ _ => trivial)
    · intro a ha b hb _; exact hv _ hb

variable {cs : List (List (Str × J))} {cols : List Column}

theorem Columns.left (h : Columns cs cols) {i : Nat} {c : List (Str × J)} (hc : cs[i]? = some c) : ∃ col, cols[i]? = some col ∧ ColumnOf c col ∧ col.number = i + 1 := by
  obtain ⟨hi, -⟩ := List.getElem?_eq_some_iff.1 hc
  have := List.getElem?_eq_getElem (l := cols) (i := i) (by rw [← h.length]; exact hi)
  exact ⟨_, this, h.item i c _ hc this⟩

theorem Columns.right (h : Columns cs cols) {i : Nat} {col : Column} (hc : cols[i]? = some col) : ∃ c, cs[i]? = some c ∧ ColumnOf c col ∧ col.number = i + 1 := by
  obtain ⟨hi, -⟩ := List.getElem?_eq_some_iff.1 hc
  have := List.getElem?_eq_getElem (l := cs) (i := i) (by rw [h.length]; exact hi)
  exact ⟨_, this, h.item i _ col this hc⟩

theorem Columns.pairwise (h : Columns cs cols) {R : List (Str × J) → List (Str × J) → Prop} {S : Column → Column → Prop}
    (hRS : ∀ c c' col col', ColumnOf c col → ColumnOf c' col' → (R c c' ↔ S col col')) : cs.Pairwise R ↔ cols.Pairwise S := by
  rw [List.pairwise_iff_getElem, List.pairwise_iff_getElem]
  have key : ∀ i j (hi : i < cs.length) (hj : j < cs.length) (hi' : i < cols.length) (hj' : j < cols.length), R cs[i] cs[j] ↔ S cols[i] cols[j] := by
    intro i j hi hj hi' hj'
    exact hRS _ _ _ _ (h.item i _ _ (List.getElem?_eq_getElem hi) (List.getElem?_eq_getElem hi')).1
      (h.item j _ _ (List.getElem?_eq_getElem hj) (List.getElem?_eq_getElem hj')).1
  constructor
  · intro hp i j hi hj hij
    exact (key i j (by rw [h.length]; exact hi) (by rw [h.length]; exact hj) hi hj).1 (hp i j _ _ hij)
  · intro hp i j hi hj hij
    exact (key i j hi hj (by rw [← h.length]; exact hi) (by rw [← h.length]; exact hj)).2 (hp i j _ _ hij)

theorem Columns.names (h : Columns cs cols) : Warn.names false [] cols = false ↔
    (∀ c ∈ cs, ∀ n, Named c n → (∀ r, n ≠ '_' :: r) ∧ ∀ a ∈ n, ¬ Blank a) ∧
    cs.Pairwise fun c c' => ¬ Has c' "virtual" (.bool true) → ∀ h, Headed c "_col.None".toList h → ¬ Headed c' "_col.None".toList h := by
  rw [names_iff _ _ h.virtual, h.pairwise (S := fun c c' => c'.virtual = false → Warn.rawHeader c ≠ Warn.rawHeader c')]
  · refine and_congr ?_ ⟨fun a => a.2, fun a => ⟨by simp, a⟩⟩
    constructor
    · intro hb c hc
      obtain ⟨i, hi⟩ := List.getElem?_of_mem hc
      obtain ⟨col, h1, h2, -⟩ := h.left hi
      exact (badName_iff h2).1 (hb _ (List.mem_of_getElem? h1))
    · intro hb c hc
      obtain ⟨i, hi⟩ := List.getElem?_of_mem hc
      obtain ⟨col, h1, h2, -⟩ := h.right hi
      exact (badName_iff h2).2 (hb _ (List.mem_of_getElem? h1))
  · intro c c' col col' hc hc'
    rw [← hc'.virtual, Bool.not_eq_true]
    refine forall_congr' fun _ => ?_
    have e : ∀ {c col}, ColumnOf c col → ∀ s, Headed c "_col.None".toList s ↔ Warn.rawHeader col = s := fun h s => (header_iff h _ s).symm
    constructor
    · intro h' he
      exact h' _ ((e hc _).2 rfl) ((e hc' _).2 he.symm)
    · intro h' s h1 h2
      exact h' (((e hc _).1 h1).trans ((e hc' _).1 h2).symm)

theorem Columns.key {s : Schema} (h : Columns cs s.columns) {k : Option (List Str)} : Warn.key s k = false ↔
    ∀ r ∈ k.getD [], ∀ (i : Nat) c, cs[i]? = some c → Headed c ("_col.".toList ++ (toString (i + 1)).toList) r →
      (∀ (j : Nat) c', i < j → cs[j]? = some c' → ¬ Headed c' ("_col.".toList ++ (toString (j + 1)).toList) r) → ∃ n, Named c n := by
  have e : ∀ {c col} {i : Nat}, ColumnOf c col ∧ col.number = i + 1 → ∀ s, Headed c ("_col.".toList ++ (toString (i + 1)).toList) s ↔ col.header = s := by
    intro c col i hh s
    unfold Column.header colNumber natText
    rw [hh.2]
    exact (header_iff hh.1 _ s).symm
  have en : ∀ {c col}, ColumnOf c col → ((∃ n, Named c n) ↔ nonEmpty col.name ≠ none) := by
    intro c col hh
    rw [Option.ne_none_iff_exists']
    exact exists_congr fun n => (hh.name n).symm
  unfold Warn.key
  rw [List.any_eq_false]
  refine forall_congr' fun r => forall_congr' fun _ => ?_
  refine Iff.trans (b := ∀ c, Dict.get r s.columndict = some c → nonEmpty c.name ≠ none) ?_ ?_
  · cases Dict.get r s.columndict <;> simp
  constructor
  · intro hk i c hc hr hlast
    obtain ⟨col, h1, h2⟩ := h.left hc
    rw [en h2.1]
    refine hk col (columndict_iff.2 ⟨i, h1, (e h2 r).1 hr, fun j c' hj hc' he => ?_⟩)
    obtain ⟨c2, h3, h4⟩ := h.right hc'
    exact hlast j c2 hj h3 ((e h4 r).2 he)
  · intro hk col hcol
    obtain ⟨i, h1, h2, h3⟩ := columndict_iff.1 hcol
    obtain ⟨c, h4, h5⟩ := h.right h1
    rw [← en h5.1]
    refine hk i c h4 ((e h5 r).2 h2) fun j c' hj hc' hh => ?_
    obtain ⟨col', h6, h7⟩ := h.left hc'
    exact h3 j col' hj h6 ((e h7 r).1 hh)

theorem columns_of {j : J} (hj : DistinctKeys j) {cols : List Column} (h : convColumns ext x other j = .ok cols)
    {cs : List (List (Str × J))} (e : j = .arr (cs.map .obj)) (hc : ∀ c ∈ cs, ColumnClean ext (tagOf x) c) :
    All2 (fun m c => Column.fromvalue ext x other (.obj m) = .ok c) cs cols ∧ All2 ColumnOf cs cols := by
  subst e
  simp only [convColumns] at h
  split at h
  · cases h
  have h2 := mapObjs_objs h
  refine ⟨h2, ?_⟩
  have hk : ∀ c ∈ cs, DistinctKeys (.obj c) := fun c hm => hj.item (List.mem_map_of_mem hm)
  have key : ∀ {cs cols}, All2 (fun m c => Column.fromvalue ext x other (.obj m) = .ok c) cs cols → (∀ c ∈ cs, ColumnClean ext (tagOf x) c) →
      (∀ c ∈ cs, DistinctKeys (.obj c)) → All2 ColumnOf cs cols := by
    intro cs cols h
    induction h with
    | nil => intro _ _; exact .nil
    | cons hab _ ih =>
      intro hc hk
      exact .cons (columnOf (hk _ (by simp)) hab (hc _ (by simp))) (ih (fun c h => hc c (List.mem_cons_of_mem _ h)) fun c h => hk c (List.mem_cons_of_mem _ h))
  exact key h2 hc hk

theorem schemaObj_iff {m : List (Str × J)} (hj : DistinctKeys (.obj m)) {s : Schema} (h : Schema.fromvalue ext x other (.obj m) = .ok s) :
    Warn.schemaObj ext x other m = false ↔ SchemaClean ext (tagOf x) m := by
  have hn := hj.nodup
  have hfrom := h
  obtain ⟨p, hp, h, hpriv⟩ := fromParts_inv hn h
  unfold Schema.ofParts at h
  obtain ⟨d, hd, h⟩ := Datatype.bind_ok h
  obtain ⟨cols, hcols, h⟩ := Datatype.bind_ok h
  obtain ⟨fks, hfks, h⟩ := Datatype.bind_ok h
  obtain ⟨pk, hpk, h⟩ := Datatype.bind_ok h
  obtain ⟨s', hs', h⟩ := Datatype.bind_ok h
  simp only [pure, Except.pure, Except.ok.injEq] at h
  rw [own_arg hn hp (by decide) (by decide)] at hcols hfks hpk
  have hsc : s.columns = s'.columns := by rw [← h]
  have h1 : Warn.given "columns" (Warn.columns ext x) m = false ↔
      ∀ v, Has m "columns" v → ∃ cs : List (List (Str × J)), v = .arr (cs.map .obj) ∧ ∀ c ∈ cs, ColumnClean ext (tagOf x) c := by
    rw [given_iff hn]
    refine forall_congr' fun v => forall_congr' fun hv => ?_
    refine columns_iff (hj.has hv) (other := other) (cols := cols) ?_
    unfold argOf at hcols
    rwa [Dict.get_of_mem_nodup hn hv] at hcols
  have h2 : Warn.foreignKeys (argOf "foreignKeys" m) = false ↔
      ∀ v, Has m "foreignKeys" v → v = .null ∨ v = .obj [] ∨ ∃ fs : List (List (Str × J)), v = .arr (fs.map .obj) := by
    rw [arg_iff hn "foreignKeys" (f := Warn.foreignKeys) rfl]
    refine forall_congr' fun v => forall_congr' fun hv => ?_
    refine foreignKeys_iff (fks := fks) ?_
    unfold argOf at hfks
    rwa [Dict.get_of_mem_nodup hn hv] at hfks
  have hkey : ∀ r, r ∈ pk.getD [] ↔ ∃ v, Has m "primaryKey" v ∧ (v = .str r ∨ ∃ l, v = .arr l ∧ .str r ∈ l) := by
    intro r
    rw [convKey_iff hpk r]
    constructor
    · rintro (e | ⟨l, e, hl⟩)
      · exact ⟨_, (arg_eq_iff hn "primaryKey" (by simp)).1 e, .inl rfl⟩
      · exact ⟨_, (arg_eq_iff hn "primaryKey" (by simp)).1 e, .inr ⟨l, rfl, hl⟩⟩
    · rintro ⟨v, hv, hv'⟩
      have : argOf "primaryKey" m = v := by unfold argOf; rw [Dict.get_of_mem_nodup hn hv]; rfl
      rwa [this]
  unfold Warn.schemaObj
  rw [hfrom, hpk]
  simp only [Bool.or_eq_false_iff]
  rw [parts_iff schemaNames_fields.1 schemaNames_fields.2 hpriv, descr_iff' hj hp (by decide) hd, h1, h2]
  have main : (∀ v, Has m "columns" v → ∃ cs : List (List (Str × J)), v = .arr (cs.map .obj) ∧ ∀ c ∈ cs, ColumnClean ext (tagOf x) c) →
      ∃ cs, Columns cs s.columns ∧ (cs = [] ∨ Has m "columns" (.arr (cs.map .obj))) ∧ ∀ cs', Has m "columns" (.arr (cs'.map .obj)) → cs' = cs := by
    intro hc
    cases hg : Dict.get "columns".toList m with
    | none =>
      have : argOf "columns" m = .null := by unfold argOf; rw [hg]; rfl
      rw [this] at hcols
      cases hcols
      refine ⟨[], ?_, .inl rfl, fun cs' h' => ?_⟩
      · rw [hsc]; exact columns_construct .nil hs'
      · rw [Dict.get_of_mem_nodup hn h'] at hg; cases hg
    | some v =>
      have hv : Has m "columns" v := Dict.get_mem hg
      obtain ⟨cs, rfl, hcs⟩ := hc v hv
      refine ⟨cs, ?_, .inr hv, fun cs' h' => ?_⟩
      · rw [hsc]
        refine columns_construct (columns_of (hj.arg "columns") hcols ?_ hcs).2 hs'
        unfold argOf; rw [hg]; rfl
      · rw [Dict.get_of_mem_nodup hn h'] at hg
        simp only [Option.some.injEq, J.arr.injEq] at hg
        exact List.map_inj_right (fun _ _ h => by cases h; rfl) |>.1 hg
  constructor
  · rintro ⟨⟨⟨⟨a, b⟩, c⟩, e⟩, f, g⟩
    obtain ⟨cs, hcs, -, huniq⟩ := main c
    rw [hcs.names] at f
    rw [hcs.key] at g
    refine ⟨a, b, c, ?_, ?_, e, ?_⟩
    · intro cs' h'; rw [huniq cs' h']; exact f.1
    · intro cs' h'; rw [huniq cs' h']; exact f.2
    · intro cs' v r h' hv hr
      rw [huniq cs' h']
      exact g r ((hkey r).2 ⟨v, hv, hr⟩)
  · rintro ⟨a, b, c, f1, f2, e, g⟩
    obtain ⟨cs, hcs, he, -⟩ := main c
    rw [hcs.names, hcs.key]
    refine ⟨⟨⟨⟨a, b⟩, c⟩, e⟩, ?_, ?_⟩
    · rcases he with rfl | he
      · simp
      · exact ⟨f1 cs he, f2 cs he⟩
    · intro r hr
      obtain ⟨v, hv, hr⟩ := (hkey r).1 hr
      rcases he with rfl | he
      · simp
      · exact g cs v r he hv hr

end

end Csvw
