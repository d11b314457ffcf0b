import Verif.Lemmas.Rewarn2
import Verif.Lemmas.Frictionless4
/-!
# Warnings about written descriptions: schemas
-/

namespace Csvw
open Csvw.Spec

section
variable {ext : Ext} {x : MExt} {other : Base → Derived → J → Res Val} {lk : EncLookup}

theorem mapRes_mem {α β : Type} {f : α → Res β} : ∀ {l : List α} {bs : List β}, mapRes f l = .ok bs → ∀ b ∈ bs, ∃ a ∈ l, f a = .ok b
  | [], bs, h, b, hb => by cases h; cases hb
  | a :: l, bs, h, b, hb => by
    unfold mapRes at h
    split at h
    · cases h
    · next b0 hf =>
      obtain ⟨r, hr, rfl⟩ := Except.map_eq_ok.1 h
      rcases List.mem_cons.1 hb with rfl | hb
      · exact ⟨a, List.mem_cons_self, hf⟩
      · obtain ⟨a', h1, h2⟩ := mapRes_mem hr b hb
        exact ⟨a', List.mem_cons_of_mem _ h1, h2⟩

theorem all2_left_mem {α β : Type} {R : α → β → Prop} {l : List α} {l' : List β} (h : All2 R l l') : ∀ b ∈ l', ∃ a ∈ l, R a b := by
  induction h with
  | nil => intro b hb; cases hb
  | cons h1 _ ih =>
    intro b hb
    rcases List.mem_cons.1 hb with rfl | hb
    · exact ⟨_, List.mem_cons_self, h1⟩
    · obtain ⟨a, h2, h3⟩ := ih b hb
      exact ⟨a, List.mem_cons_of_mem _ h2, h3⟩

theorem columns_written {j : J} (hj : DistinctKeys j) {cols cs : List Column} (hc : convColumns ext x other j = .ok cols) {v : Bool} {names : List Str}
    {i : Nat} (hn : Schema.number v names i cols = .ok cs) (hw : ∀ c ∈ cs, DescrWritable ext c.props) (hfin : ∀ c ∈ cs, FiniteDescr c.props)
    (hs : j ≠ .null → Warn.columns ext x j = false) {od : Bool} (hund : od = false → x.tagOk "und".toList = true) {js : List J}
    (hjs : mapRes (Column.asdict ext od) cs = .ok js) : Warn.columns ext x (.arr js) = false := by
  simp only [Warn.columns, List.any_eq_false, Bool.not_eq_true]
  intro b hb
  obtain ⟨c, hcm, hcb⟩ := mapRes_mem hjs b hb
  obtain ⟨c0, hc0, n, rfl⟩ := all2_left_mem (Frictionless.number_all2 hn) c hcm
  unfold convColumns at hc
  split at hc
  · next l =>
    split at hc
    · cases hc
    obtain ⟨m, hm, hf⟩ := mapObjs_mem hc c0 hc0
    have hsm : Warn.column ext x m = false := by
      have := hs (by simp)
      simp only [Warn.columns, List.any_eq_false] at this
      simpa using this _ hm
    have hcb' := hcb
    unfold Column.asdict at hcb
    obtain ⟨its, -, hcb⟩ := Datatype.bind_ok hcb
    simp only [pure, Except.pure, Except.ok.injEq] at hcb
    subst hcb
    exact column_written (distinct_arr hj _ hm) hf (hw { c0 with number := n } hcm) (hfin { c0 with number := n } hcm) hsm hund hcb'
  · cases hc; cases hc0

theorem names_same {cs cs' : List Column} (h : All2 SameColumn cs cs') : ∀ {v : Bool} {seen : List Str}, Warn.names v seen cs' = Warn.names v seen cs := by
  induction h with
  | nil => intros; rfl
  | cons h1 _ ih =>
    intro v seen
    unfold Warn.names
    have e1 : ∀ {a b : Column}, SameColumn a b → Warn.rawHeader b = Warn.rawHeader a := fun h => by
      unfold Warn.rawHeader; rw [h.name, sameTitles_first h.titles]
    have e2 : ∀ {a b : Column}, SameColumn a b → Warn.badName b = Warn.badName a := fun h => by
      unfold Warn.badName; rw [h.name]
    rw [e1 h1, e2 h1, h1.virtual, ih, ih]

theorem warnKey_eq (s : Schema) (k : Option (List Str)) : Warn.key s k = (k.getD []).any fun r =>
    ((Dict.get r s.columndict).map Column.name).any fun n => decide (nonEmpty n = none) := by
  unfold Warn.key
  congr 1
  funext r
  cases Dict.get r s.columndict <;> rfl

theorem schema_written {d : J} (hd : DistinctKeys d) {s : Schema} (h : Schema.fromvalue ext x other d = .ok s) (hw : DescrWritable ext s.props)
    (hwc : ∀ c ∈ s.columns, DescrWritable ext c.props) (hfin : FiniteDescr s.props) (hfc : ∀ c ∈ s.columns, FiniteDescr c.props)
    (hs : Warn.schema ext x other d = false) {od : Bool} (hund : od = false → x.tagOk "und".toList = true) {m' : List (Str × J)}
    (hm' : s.asdict ext od = .ok (.obj m')) : Warn.schemaObj ext x other m' = false := by
  obtain ⟨m0, s', hm0, hs', hsame⟩ := schema_roundtrip hd h hw hwc od
  rw [hm'] at hm0
  simp only [Except.ok.injEq, J.obj.injEq] at hm0
  subst hm0
  obtain ⟨m, hd', h, hs1, hs2, hs3, hs4⟩ : ∃ m, DistinctKeys (.obj m) ∧ fromParts x schemaFields "Schema" (Schema.ofParts ext x other) (.obj m) = .ok s ∧
      Warn.parts x schemaFields true m = false ∧ Warn.descr ext x m = false ∧ Warn.given "columns" (Warn.columns ext x) m = false ∧
      (Warn.names false [] s.columns = false ∨ m = []) := by
    unfold Schema.fromvalue at h
    split at h
    · cases h
    · next m =>
      unfold Warn.schema Warn.schemaObj at hs
      simp only [Bool.or_eq_false_iff] at hs
      obtain ⟨⟨⟨⟨h1, h2⟩, h3⟩, h4⟩, h5⟩ := hs
      refine ⟨m, hd, h, h1, h2, h3, .inl ?_⟩
      have hf : Schema.fromvalue ext x other (.obj m) = .ok s := h
      rw [hf] at h5
      obtain ⟨p, hp, hf⟩ := fromParts_ok h
      unfold Schema.ofParts at hf
      obtain ⟨D, hD, hf⟩ := Datatype.bind_ok hf
      obtain ⟨cols, k1, hf⟩ := Datatype.bind_ok hf
      obtain ⟨fks, k2, hf⟩ := Datatype.bind_ok hf
      obtain ⟨pk, k3, hf⟩ := Datatype.bind_ok hf
      rw [own_arg (k := "primaryKey") hd.nodup hp (by decide) (fun _ => by decide +kernel)] at k3
      rw [k3] at h5
      simp only [Bool.or_eq_false_iff] at h5
      exact h5.1
    · exact ⟨[], .obj (by simp [Dict.keys]) (by simp), h, rfl, rfl, rfl, .inr rfl⟩
  obtain ⟨p, hp, hf, -⟩ := fromParts_inv hd'.nodup h
  unfold Schema.ofParts at hf
  obtain ⟨D, hD, hf⟩ := Datatype.bind_ok hf
  obtain ⟨cols, h1, hf⟩ := Datatype.bind_ok hf
  obtain ⟨fks, h2, hf⟩ := Datatype.bind_ok hf
  obtain ⟨pk, h3, hf⟩ := Datatype.bind_ok hf
  obtain ⟨s0, h4, hf⟩ := Datatype.bind_ok hf
  simp only [pure, Except.pure, Except.ok.injEq] at hf
  generalize convRowTitles (Dict.get "rowTitles".toList p.own) = rt at hf
  unfold Schema.construct at h4
  split at h4
  · cases h4
  next cs hcs =>
  simp only [Except.ok.injEq] at h4
  subst h4
  obtain ⟨k1, k2, k3⟩ := checkKey_columns { props := D, columns := cs, foreignKeys := fks, primaryKey := pk }
  have hck := checkKey_idem { props := D, columns := cs, foreignKeys := fks, primaryKey := pk }
  generalize Schema.checkKey { props := D, columns := cs, foreignKeys := fks, primaryKey := pk } = s1 at *
  simp only at k1 k2 k3
  subst hf
  simp only [k1, k3] at hw hwc hfin hfc hs4
  rw [own_arg (k := "columns") hd'.nodup hp (by decide) (fun _ => by decide +kernel)] at h1
  have hnames : Warn.names false [] cs = false := by
    rcases hs4 with h | rfl
    · exact h
    · cases h1; cases hcs; rfl
  have hgood := (descrFrom hd' hp hD).good
  have hcl : CleanParts x D.atProps D.common := by
    have := cleanParts_of hd'.nodup hp hs1
    obtain ⟨d0, -, rfl⟩ := Except.map_eq_ok.1 hD
    exact this
  have hm'0 := hm'
  unfold Schema.asdict at hm'
  obtain ⟨l, hl, hm'⟩ := Datatype.bind_ok hm'
  obtain ⟨js, hjs, hm'⟩ := Datatype.bind_ok hm'
  simp only [pure, Except.pure, Except.ok.injEq, J.obj.injEq] at hm'
  simp only [k1, k2, k3] at hl hjs hm'
  obtain ⟨L, rfl, hL, hdescr⟩ := descr_written hd' hp (by decide +kernel) hD hw hfin hs2 hund hl
  rw [← attrItems_append] at hm'
  generalize hM : ([_, _, _, _] : List (String × J × J)) = M at hm'
  have hMn : M.map (fun e => e.1.toList) = schemaNames.map String.toList := by subst hM; rfl
  have hLM : (L ++ M).map (fun e => e.1.toList) = (inheritedNames ++ schemaNames).map String.toList := by rw [List.map_append, List.map_append, hL, hMn]
  have hnd : ((L ++ M).map fun e => e.1.toList).Nodup := by rw [hLM]; decide +kernel
  have memM : ∀ {e}, e ∈ M → e ∈ L ++ M := fun h => List.mem_append_right _ h
  have hcols : Warn.columns ext x (.arr js) = false := by
    refine columns_written (hd'.arg "columns") h1 hcs hwc hfc ?_ hund hjs
    intro hne
    unfold Warn.given at hs3
    unfold argOf at hne ⊢
    split at hs3
    · next v hv => rw [hv]; exact hs3
    · next hv => rw [hv] at hne; exact absurd rfl hne
  unfold Warn.schemaObj
  rw [hs']
  have hkey : convKey (argOf "primaryKey" m') = .ok s1.primaryKey ∨ s1.primaryKey = some [] ∧ convKey (argOf "primaryKey" m') = .ok none := by
    subst hm'
    rw [arg_asdict hgood (by decide), arg_attr hnd (n := "primaryKey") (v := .ofOptStrs s1.primaryKey) (memM (by subst hM; simp)) (by decide)]
    cases s1.primaryKey with
    | none => exact .inl rfl
    | some l =>
      cases l with
      | nil => exact .inr ⟨rfl, rfl⟩
      | cons a r =>
        have : pruneJ (J.ofOptStrs (some (a :: r))) = .arr ((a :: r).map .str) := rfl
        rw [this]
        refine .inl ?_
        show (convColref _).map some = _
        rw [convColref_strs]
        rfl
  have hcs' : All2 SameColumn cs s'.columns := by
    have := hsame.columns
    rwa [show ({ s1 with rowTitles := rt } : Schema).columns = cs from k1] at this
  have hlast : ∀ k : Option (List Str), k.getD [] = s1.primaryKey.getD [] → (Warn.names false [] s'.columns || Warn.key s' k) = false := by
    intro k hk
    rw [names_same hcs', hnames, Bool.false_or, warnKey_eq, hk]
    simp only [columndict_name (s := s1) (s' := s') (by rw [k1]; exact hcs')]
    rw [checkKey_eq] at hck
    split at hck
    · next hc =>
      have : s1.primaryKey = none := by rw [← hck]
      rw [this] at hc
      cases hc
    · next hc => rw [Bool.not_eq_true] at hc; exact hc
  rw [Bool.or_eq_false_iff]
  refine ⟨?_, ?_⟩
  case refine_2 =>
    rcases hkey with h | ⟨h0, h⟩
    · rw [h]; exact hlast _ rfl
    · rw [h]; exact hlast _ (by rw [h0]; rfl)
  subst hm'
  rw [parts_written hgood hcl (items_goodKeys hLM (by decide +kernel)), hdescr M _ hnd fun k hk => get_asdict hgood hk,
    given_asdict hgood (by decide), given_attr hnd (n := "columns") (v := .arr js) (d := .arr []) (memM (by subst hM; simp)) (fun _ => hcols),
    arg_asdict hgood (by decide)]
  have hfk : Warn.foreignKeys (argOf "foreignKeys" (keepItems (attrItems od (L ++ M)))) = false := by
    unfold argOf
    rw [get_attr hnd (n := "foreignKeys") (v := .arr (fks.map (ForeignKey.asdict od))) (d := .arr []) (memM (by subst hM; simp))]
    split
    · rfl
    · simp only [Option.getD_some, Warn.foreignKeys, List.any_eq_false]
      intro b hb
      obtain ⟨k, -, rfl⟩ := List.mem_map.1 hb
      simp [ForeignKey.asdict, Warn.isObj]
  rw [hfk]
  rfl

end
end Csvw
