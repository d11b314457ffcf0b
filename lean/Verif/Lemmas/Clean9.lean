import Verif.Lemmas.Clean8
import Verif.Spec.CleanKept
/-!
# What is kept of descriptions without problems
-/

namespace Csvw
open Csvw.Spec

section
variable {ext : Ext} {x : MExt} {other : Base → Derived → J → Res Val} {lk : EncLookup}

theorem commonMap_cons (k : Str) (v : J) (r : List (Str × J)) : Warn.common x (.obj ((k, v) :: r)) = false ↔
    (if k = "@id".toList then !v.isStr else if k = "@language".toList then !langKept x v || Warn.common x v else Warn.common x v) = false ∧
      Warn.common x (.obj r) = false := by
  rw [Warn.common, Warn.commonMap, Warn.common, Bool.or_eq_false_iff]

/-- Common properties without problems are not changed. -/
theorem cleaned_eq {v v' : J} (h : Cleaned (fun s => x.tagOk s = true) v v') : Warn.common x v = false → v' = v := by
  induction h with
  | null | bool | int | flt | str | nil | empty => intro _; rfl
  | cons _ _ ih1 ih2 =>
    intro hc
    simp only [Warn.common, Warn.commonList, Bool.or_eq_false_iff] at hc ih2
    have := ih2 hc.2
    rw [J.arr.injEq] at this
    rw [ih1 hc.1, this]
  | idStr _ ih =>
    intro hc
    rw [commonMap_cons] at hc
    have := ih hc.2
    rw [J.obj.injEq] at this
    rw [this]
  | idOther hs _ ih =>
    intro hc
    rw [commonMap_cons, if_pos rfl, Bool.not_eq_false', isStr_iff] at hc
    obtain ⟨s, hs'⟩ := hc.1
    exact absurd hs' (hs s)
  | langStr _ _ ih =>
    intro hc
    rw [commonMap_cons] at hc
    have := ih hc.2
    rw [J.obj.injEq] at this
    rw [this]
  | langOther hs _ ih =>
    intro hc
    rw [commonMap_cons, if_neg (by decide), if_pos rfl, Bool.or_eq_false_iff, Bool.not_eq_false', langKept_iff] at hc
    obtain ⟨s, hs', ht⟩ := hc.1.1
    exact absurd ht (hs s hs')
  | item h1 h2 _ _ ih1 ih2 =>
    intro hc
    rw [commonMap_cons, if_neg h1, if_neg h2] at hc
    have := ih2 hc.2
    rw [J.obj.injEq] at this
    rw [this, ih1 hc.1]

theorem convList_listed {ok : J → Bool} : ∀ l : List J, Warn.items ok l = false → convList ok l = l
  | [], _ => by simp [convList]
  | .arr l :: r, h => by
    simp only [Warn.items, Warn.item, Bool.or_eq_false_iff] at h
    simp only [convList]
    rw [convList_listed l h.1, convList_listed r h.2]
  | .null :: r, h => by
    simp only [Warn.items, Warn.item, Bool.or_eq_false_iff, Bool.not_eq_false'] at h
    simp only [convList]; rw [if_pos h.1, convList_listed r h.2]
  | .bool b :: r, h => by
    simp only [Warn.items, Warn.item, Bool.or_eq_false_iff, Bool.not_eq_false'] at h
    simp only [convList]; rw [if_pos h.1, convList_listed r h.2]
  | .int b :: r, h => by
    simp only [Warn.items, Warn.item, Bool.or_eq_false_iff, Bool.not_eq_false'] at h
    simp only [convList]; rw [if_pos h.1, convList_listed r h.2]
  | .flt b :: r, h => by
    simp only [Warn.items, Warn.item, Bool.or_eq_false_iff, Bool.not_eq_false'] at h
    simp only [convList]; rw [if_pos h.1, convList_listed r h.2]
  | .str b :: r, h => by
    simp only [Warn.items, Warn.item, Bool.or_eq_false_iff, Bool.not_eq_false'] at h
    simp only [convList]; rw [if_pos h.1, convList_listed r h.2]
  | .obj b :: r, h => by
    simp only [Warn.items, Warn.item, Bool.or_eq_false_iff, Bool.not_eq_false'] at h
    simp only [convList]; rw [if_pos h.1, convList_listed r h.2]

theorem converter_silent {ok : J → Bool} {dflt : J} {an : Bool} {j : J} (h : Warn.conv ok an j = false) : (converter ok dflt an j).1 = j := by
  cases j with
  | arr l => simp only [Warn.conv] at h; simp only [converter]; rw [convList_listed l h]
  | null =>
    simp only [Warn.conv] at h
    cases an <;> simp at h <;> simp [converter, h]
  | _ => simp only [Warn.conv, Bool.not_eq_false'] at h; simp [converter, h]

theorem all_isStr_map (l : List Str) : (l.map J.str).all J.isStr = true := by
  rw [all_isStr_iff]; exact ⟨l, rfl⟩

theorem descr_kept {fields : List Str} {tn : String} {m : List (Str × J)} (hj : DistinctKeys (.obj m)) {p : Parts}
    (hp : partitionProperties x fields tn.toList true (.obj m) = .ok (some p)) (hf : ∀ k ∈ descriptionFields, k ∈ fields) {d : Descr}
    (h : Descr.ofParts ext x other p = .ok d) (ha : AnyClean (tagOf x) m) (hc : InheritedClean ext (tagOf x) m) : DescrKept ext x other m d := by
  have hn := hj.nodup
  have hw := (descr_iff' hj hp (hf _ (by decide)) h).2 hc
  unfold Descr.ofParts at h
  obtain ⟨d', h', rfl⟩ := Except.map_eq_ok.1 h
  clear h
  unfold Descr.construct at h'
  obtain ⟨dt, hdt, h⟩ := Datatype.bind_ok h'
  simp only [pure, Except.pure, Except.ok.injEq] at h
  have arg : ∀ k : String, k.toList ∈ descriptionFields → argOf k p.own = argOf k m ∧ Dict.get k.toList p.own = Dict.get k.toList m := by
    intro k hk
    have ho : OwnProperty k.toList := by
      have : ∀ k ∈ descriptionFields, OwnProperty k := by decide +kernel
      exact this _ hk
    exact ⟨own_arg hn hp ho fun _ => hf _ hk, own_get hn hp ho fun _ => hf _ hk⟩
  rw [(arg "datatype" (by decide)).1] at hdt
  rw [(arg "aboutUrl" (by decide)).1, (arg "propertyUrl" (by decide)).1, (arg "valueUrl" (by decide)).1, (arg "default" (by decide)).2,
    (arg "lang" (by decide)).2, (arg "null" (by decide)).2, (arg "ordered" (by decide)).1, (arg "required" (by decide)).1,
    (arg "separator" (by decide)).1, (arg "textDirection" (by decide)).1] at h
  have at_ : ∀ {k : String} {v : J}, Has m k v → argOf k m = v := by
    intro k v hv
    unfold argOf; rw [Dict.get_of_mem_nodup hn hv]; rfl
  have get : ∀ {k : String} {v : J}, Has m k v → Dict.get k.toList m = some v := fun hv => Dict.get_of_mem_nodup hn hv
  subst h
  unfold Warn.descr at hw
  simp only [Bool.or_eq_false_iff] at hw
  obtain ⟨⟨⟨⟨⟨⟨⟨⟨⟨-, -⟩, -⟩, -⟩, -⟩, hor⟩, -⟩, hsep⟩, htd⟩, -⟩ := hw
  obtain ⟨-, -, hat, hcommon⟩ := Props.C52_partition x fields tn.toList true m p hn hp
  refine ⟨?_, ?_, ?_, ?_, ?_, ?_, ?_, ?_, ⟨?_, ?_⟩, ?_, ?_, ?_, ?_⟩
  · intro k v hm hk
    have hmem : (k, v) ∈ m.filter (fun e => decide (CommonProperty e.1)) := List.mem_filter.2 ⟨hm, by simpa using hk⟩
    have : ∀ {l l'}, All2 (fun e e' : Str × J => e'.1 = e.1 ∧ Cleaned (fun s => x.tagOk s = true) e.2 e'.2) l l' → (k, v) ∈ l → (k, v) ∈ l' := by
      intro l l' h2
      induction h2 with
      | nil => intro h; cases h
      | cons hab _ ih =>
        intro h
        rcases List.mem_cons.1 h with rfl | h
        · have := cleaned_eq hab.2 ((common_iff x v).2 (ha.common k v hm hk))
          exact List.mem_cons.2 (.inl (by rw [Prod.ext_iff]; exact ⟨hab.1.symm, this.symm⟩))
        · exact List.mem_cons_of_mem _ (ih h)
    exact this hcommon hmem
  · intro k v hm
    simp only
    rw [hat]
    refine List.mem_map.2 ⟨('@' :: k, v), List.mem_filter.2 ⟨hm, by simp [AtProperty]⟩, ?_⟩
    simp only [List.drop_succ_cons, List.drop_zero, Prod.mk.injEq, true_and]
    unfold Props.atValue
    split
    · next he =>
      rw [he] at hm
      obtain ⟨s, rfl⟩ := ha.id v hm
      rfl
    · rfl
  · intro s hs; simp only; rw [at_ hs]; rfl
  · intro s hs; simp only; rw [at_ hs]; rfl
  · intro s hs; simp only; rw [at_ hs]; rfl
  · intro v hv hnf
    rw [at_ hv] at hdt
    unfold convDatatype at hdt
    rw [if_pos (by rw [← Bool.not_eq_false, truthy_iff]; exact hnf)] at hdt
    obtain ⟨d', h1, h2⟩ := Except.map_eq_ok.1 hdt
    exact ⟨d', h1, h2.symm⟩
  · intro s hs; simp only; rw [get hs]; rfl
  · intro v hv
    obtain ⟨s, rfl, ht⟩ := hc.lang v hv
    simp only
    rw [get hv]
    simp only [Option.map_some, Option.getD_some, convLang]
    rw [if_pos ht]
  · intro s hs; simp only; rw [get hs]; rfl
  · intro l hl; simp only; rw [get hl]
    simp only [Option.map_some, Option.getD_some, convNull]
    rw [if_pos (all_isStr_map l), strsOf_map]
  · intro v hv; simp only; rw [converter_silent hor, at_ hv]
  · intro v hv; exact at_ hv
  · intro v hv; simp only; rw [converter_silent hsep, at_ hv]
  · intro v hv; simp only; rw [converter_silent htd, at_ hv]

theorem column_kept {m : List (Str × J)} (hj : DistinctKeys (.obj m)) {c : Column} (h : Column.fromvalue ext x other (.obj m) = .ok c)
    (hc : ColumnClean ext (tagOf x) m) : ColumnKept ext x other m c := by
  have hn := hj.nodup
  obtain ⟨p, hp, h, -⟩ := fromParts_inv hn h
  unfold Column.ofParts at h
  obtain ⟨d, hd, h⟩ := Datatype.bind_ok h
  obtain ⟨name, hname, h⟩ := Datatype.bind_ok h
  obtain ⟨so, hso, h⟩ := Datatype.bind_ok h
  obtain ⟨vi, hvi, h⟩ := Datatype.bind_ok h
  rw [own_arg hn hp (by decide) (by decide)] at hname hso hvi
  simp only [pure, Except.pure, Except.ok.injEq] at h
  rw [own_arg hn hp (by decide) (by decide)] at h
  have at_ : ∀ {k : String} {v : J}, Has m k v → argOf k m = v := by
    intro k v hv
    unfold argOf; rw [Dict.get_of_mem_nodup hn hv]; rfl
  subst h
  refine ⟨descr_kept hj hp (by decide +kernel) hd hc.props.any hc.inherited, ?_, ?_, ?_, ?_, ?_, ?_⟩
  · intro s hs; rw [at_ hs] at hname; cases hname; rfl
  · intro s hs; rw [at_ hs] at hvi; cases hvi; rfl
  · intro s hs; rw [at_ hs] at hso; cases hso; rfl
  · intro s hs; simp only; rw [at_ hs]; rfl
  · intro l hl; simp only; rw [at_ hl]
    simp only [convTitles, NatLang.construct]
    rw [if_pos (all_isStr_map l), strsOf_map]
  · intro o ho
    simp only; rw [at_ ho]
    have ht := hc.titles _ ho
    have ht' : ∀ k t, (k, t) ∈ o → tagOf x k ∧ (IsText t ∨ IsTexts t) := by
      simpa [TitlesClean, IsTextOrNull, IsText, IsTexts] using ht
    have hon := (hj.has ho).nodup
    have hk : (Dict.keys (o.map fun p => (some p.1, titlesOf p.2))).Nodup := by
      unfold Dict.keys at hon ⊢
      rw [List.map_map]
      rw [show (Prod.fst ∘ fun p : Str × J => (some p.1, titlesOf p.2)) = some ∘ Prod.fst from rfl, ← List.map_map]
      exact List.Pairwise.map _ (fun a b h h' => h (Option.some.inj h')) hon
    refine ⟨o.map fun p => (some p.1, titlesOf p.2), ?_, ?_, ?_⟩
    · simp only [convTitles, NatLang.construct]
      rw [if_pos (List.all_eq_true.2 fun e he => (ht' e.1 e.2 he).1), Dict.ofPairs_of_nodup hk]
    · intro k t hm
      exact List.mem_map.2 ⟨_, hm, rfl⟩
    · intro k l hm
      refine List.mem_map.2 ⟨_, hm, ?_⟩
      simp only [titlesOf]
      rw [strsOf_map]

theorem columnKept_number {m : List (Str × J)} {c : Column} (h : ColumnKept ext x other m c) (n : Nat) :
    ColumnKept ext x other m { c with number := n } :=
  ⟨h.props, h.name, h.virtual, h.suppressOutput, h.title, h.titles, h.titlesIn⟩

theorem all2_of {α β : Type} {R : α → β → Prop} : ∀ {as : List α} {bs : List β}, as.length = bs.length →
    (∀ (i : Nat) a b, as[i]? = some a → bs[i]? = some b → R a b) → All2 R as bs
  | [], [], _, _ => .nil
  | [], _ :: _, h, _ => by cases h
  | _ :: _, [], h, _ => by cases h
  | a :: as, b :: bs, hl, h => .cons (h 0 a b rfl rfl) (all2_of (by simpa using hl) fun i a' b' h1 h2 => h (i + 1) a' b' (by simpa using h1) (by simpa using h2))

theorem construct_key {props : Descr} {cols : List Column} {fks : List ForeignKey} {pk : Option (List Str)} {s : Schema}
    (h : Schema.construct props cols fks pk = .ok s) :
    s.props = props ∧ s.foreignKeys = fks ∧ (Warn.key s pk = false → s.primaryKey = pk) := by
  unfold Schema.construct at h
  split at h
  · cases h
  next cs hcs =>
  simp only [Except.ok.injEq] at h
  subst h
  unfold Schema.checkKey
  split
  · next hk => exact ⟨rfl, rfl, fun h => by
      unfold Warn.key at h
      simp only [Schema.columndict] at h hk
      exact absurd (hk.symm.trans h) (by simp)⟩
  · exact ⟨rfl, rfl, fun _ => rfl⟩

theorem schema_kept {m : List (Str × J)} (hj : DistinctKeys (.obj m)) {s : Schema} (h : Schema.fromvalue ext x other (.obj m) = .ok s)
    (hc : SchemaClean ext (tagOf x) m) : SchemaKept ext x other m s := by
  have hn := hj.nodup
  have hw := (schemaObj_iff hj h).2 hc
  have hfrom := h
  obtain ⟨p, hp, h, hpriv⟩ := fromParts_inv hn h
  unfold Schema.ofParts at h
  obtain ⟨d, hd, h⟩ := Datatype.bind_ok h
  obtain ⟨cols, hcols, h⟩ := Datatype.bind_ok h
  obtain ⟨fks, hfks, h⟩ := Datatype.bind_ok h
  obtain ⟨pk, hpk, h⟩ := Datatype.bind_ok h
  obtain ⟨s', hs', h⟩ := Datatype.bind_ok h
  simp only [pure, Except.pure, Except.ok.injEq] at h
  rw [own_arg hn hp (by decide) (by decide)] at hcols hfks hpk
  rw [own_get hn hp (by decide) (by decide)] at h
  have at_ : ∀ {k : String} {v : J}, Has m k v → argOf k m = v := by
    intro k v hv
    unfold argOf; rw [Dict.get_of_mem_nodup hn hv]; rfl
  unfold Warn.schemaObj at hw
  rw [hfrom, hpk] at hw
  simp only [Bool.or_eq_false_iff] at hw
  have hk := hw.2.2
  obtain ⟨h1, h2, h3⟩ := construct_key hs'
  have hk' : Warn.key s' pk = false := by
    rw [← h] at hk
    exact hk
  have hpk' := h3 hk'
  have hinv := (Props.C34_invariants d cols fks pk hs').1
  subst h
  refine ⟨?_, ?_, ?_, ⟨?_, ?_⟩, ?_⟩
  · simp only; rw [h1]
    exact descr_kept hj hp (by decide +kernel) hd hc.props.any hc.inherited
  · intro cs hcs
    obtain ⟨cs', he, hclean⟩ := hc.columns _ hcs
    rw [J.arr.injEq, List.map_inj_right (fun _ _ h => by cases h; rfl)] at he
    subst he
    have hd2 := hj.has hcs
    have h2 := all2_at (columns_of (hj.arg "columns") hcols (at_ hcs) hclean).1
    simp only
    rw [hinv]
    refine all2_of (by simp [h2.1]) fun i c col hc' hcol => ?_
    rw [List.getElem?_mapIdx] at hcol
    obtain ⟨c', hc2, rfl⟩ := Option.map_eq_some_iff.1 hcol
    have hm := List.mem_of_getElem? hc'
    exact columnKept_number (column_kept (hd2.item (List.mem_map_of_mem hm)) (h2.2 i c c' hc' hc2) (hclean c hm)) _
  · intro fs hfs
    rw [at_ hfs] at hfks
    simp only; rw [h2]
    exact mapObjs_objs hfks
  · intro r hr
    rw [at_ hr] at hpk
    simp only; rw [hpk']
    cases hpk; rfl
  · intro l hl
    rw [at_ hl] at hpk
    simp only; rw [hpk']
    simp only [convKey, convColref] at hpk
    rw [if_pos (all_isStr_map l), strsOf_map] at hpk
    cases hpk; rfl
  · intro l hl
    simp only
    rw [Dict.get_of_mem_nodup hn hl]; rfl

theorem dialect_kept (hlk : lk "utf-8".toList = .ok ()) {m : List (Str × J)} (hj : DistinctKeys (.obj m)) {d : Option Dialect}
    (h : convDialect lk x (.obj m) = .ok d) (hc : DialectClean lk (tagOf x) m) : ∃ d', d = some d' ∧ DialectKept m d' := by
  have hn := hj.nodup
  simp only [convDialect] at h
  obtain ⟨kw, hkw, h⟩ := Datatype.bind_ok h
  obtain ⟨⟨d', w⟩, hd, h⟩ := Datatype.bind_ok h
  simp only [pure, Except.pure, Except.ok.injEq] at h
  refine ⟨d', h.symm, ?_⟩
  unfold dialectProps at hkw
  split at hkw
  · cases hkw
  · cases hkw
  next p hp =>
  simp only [Except.ok.injEq] at hkw
  have hown : ∀ k : String, k.toList ∈ Dialect.propNames → Dict.get k.toList p.own = Dict.get k.toList m := by
    intro k hk
    refine own_get hn hp ?_ (by simp)
    have : ∀ k ∈ Dialect.propNames, OwnProperty k := by decide +kernel
    exact this _ hk
  have hrc : argOf "headerRowCount" p.own = argOf "headerRowCount" m := by
    unfold argOf; rw [hown _ (by decide)]
  rw [hrc] at hkw
  have hget : ∀ k : String, k.toList ∈ Dialect.propNames → k.toList ≠ "header".toList → Dict.get k.toList kw = Dict.get k.toList m := by
    intro k hk hh
    rw [← hkw]
    split
    · rw [Dict.get_set_ne (Ne.symm hh), hown k hk]
    · exact hown k hk
  have hcp : argOf "commentPrefix" kw = argOf "commentPrefix" m := by
    unfold argOf; rw [hget _ (by decide) (by decide)]
  unfold Dialect.constructMeta at hd
  rw [hcp] at hd
  have ok := Props.C14_dialect_valid lk hlk _ _ _ hd
  have key : ∀ (k : String) {valid norm dflt value v}, k.toList ∈ Dialect.propNames → k.toList ≠ "header".toList → k.toList ≠ "commentPrefix".toList →
      Props.Kept valid norm dflt (Dict.get k.toList (Dict.set "commentPrefix".toList
        (converter J.isStr J.null true (argOf "commentPrefix" m)).fst kw)) value (k.toList ∈ w) → Has m k v → valid v → value = norm v := by
    intro k valid norm dflt value v h1 h2 h3 h4 h5 h6
    rw [Dict.get_set_ne (Ne.symm h3), hget k h1 h2, Dict.get_of_mem_nodup hn h5] at h4
    exact (h4.kept v rfl h6).1
  have sub : ∀ {k : String} {v : J}, Has m k v → argOf k m = v := by
    intro k v hv
    unfold argOf; rw [Dict.get_of_mem_nodup hn hv]; rfl
  refine ⟨?_, ?_, ?_, ?_, ?_, ?_, ?_, ?_, ?_, ?_, ?_, ?_, ?_⟩
  · intro s hs
    have := key "encoding" (by decide) (by decide) (by decide) ok.encoding hs (hc.encoding _ hs)
    cases this; rfl
  · intro l hl
    have := key "lineTerminators" (by decide) (by decide) (by decide) ok.lineTerminators hl ⟨l, rfl⟩
    cases this; rfl
  · intro v hv hna
    refine key "quoteChar" (by decide) (by decide) (by decide) (ok.quoteChar ?_) hv ?_
    · intro l hl
      rw [Dict.get_set_ne (by decide), hget "quoteChar" (by decide) (by decide), Dict.get_of_mem_nodup hn hv] at hl
      cases hl
      exact hna l rfl
    · rcases hc.quoteChar v hv with h | h
      · exact .inl h
      · exact .inr ((listed_noArr hna).1 h)
  · intro b hb
    have := key "doubleQuote" (by decide) (by decide) (by decide) ok.doubleQuote hb ⟨b, rfl⟩
    cases this; rfl
  · intro n hv
    have := key "skipRows" (by decide) (by decide) (by decide) ok.skipRows hv ⟨n, rfl⟩
    simp at this; omega
  · intro s hs
    have h1 := ok.commentPrefix
    rw [Dict.get_set_self, sub hs] at h1
    have := (h1.kept (.str s) rfl (.inr ⟨s, rfl⟩)).1
    cases hd' : d'.commentPrefix with
    | none => rw [hd'] at this; cases this
    | some s' => rw [hd'] at this; cases this; rfl
  · intro b hb
    have h1 := ok.header
    rw [Dict.get_set_ne (by decide), ← hkw] at h1
    by_cases ht : (argOf "headerRowCount" m).truthy = true
    · rw [if_pos ht, Dict.get_set_self] at h1
      right
      refine ⟨?_, ?_⟩
      · have := (h1.kept _ rfl ⟨true, rfl⟩).1
        cases hd' : d'.header <;> rw [hd'] at this <;> first | rfl | cases this
      · cases hg : Dict.get "headerRowCount".toList m with
        | none => unfold argOf at ht; rw [hg] at ht; cases ht
        | some c =>
          refine ⟨c, Dict.get_mem hg, ?_⟩
          unfold argOf at ht
          rw [hg] at ht
          rw [← truthy_iff, Bool.not_eq_false]
          exact ht
    · rw [if_neg ht, hown "header" (by decide), Dict.get_of_mem_nodup hn hb] at h1
      have := (h1.kept _ rfl ⟨b, rfl⟩).1
      left
      cases this; rfl
  · intro n hv
    have := key "headerRowCount" (by decide) (by decide) (by decide) ok.headerRowCount hv ⟨n, rfl⟩
    simp at this; omega
  · intro s hs
    have := key "delimiter" (by decide) (by decide) (by decide) ok.delimiter hs ⟨s, rfl⟩
    cases this; rfl
  · intro n hv
    have := key "skipColumns" (by decide) (by decide) (by decide) ok.skipColumns hv ⟨n, rfl⟩
    simp at this; omega
  · intro b hb
    have := key "skipBlankRows" (by decide) (by decide) (by decide) ok.skipBlankRows hb ⟨b, rfl⟩
    cases this; rfl
  · intro b hb
    have := key "skipInitialSpace" (by decide) (by decide) (by decide) ok.skipInitialSpace hb ⟨b, rfl⟩
    cases this; rfl
  · intro s hs
    have hv : Props.IsTrim (.str s) := by
      rcases hc.trim _ hs with ⟨b, h⟩ | ⟨t, ht, h⟩
      · cases h
      · exact .inr (.inr (List.mem_map.2 ⟨t, ht, h.symm⟩))
    have := key "trim" (by decide) (by decide) (by decide) ok.trim hs hv
    simpa [Props.normTrim] using this

theorem cleanContext_eq : ∀ {l l' : List J}, cleanContext x l = .ok l' →
    (∀ o, .obj o ∈ l → ∀ v, Has o "@language" v → IsTag (tagOf x) v) → l' = l
  | [], l', h, _ => by cases h; rfl
  | j :: r, l', h, hc => by
    have hr : ∀ o, .obj o ∈ r → ∀ v, Has o "@language" v → IsTag (tagOf x) v := fun o ho => hc o (List.mem_cons_of_mem _ ho)
    have fin : ∀ {j : J}, (cleanContext x r).map (j :: ·) = .ok l' → l' = j :: r := by
      intro j h
      obtain ⟨r', h', rfl⟩ := Except.map_eq_ok.1 h
      rw [cleanContext_eq h' hr]
    cases j with
    | obj m =>
      simp only [cleanContext] at h
      split at h
      · cases h
      split at h
      · exact fin h
      · next s hs =>
        obtain ⟨s', h1, h2⟩ := hc m (by simp) _ (Dict.get_mem hs)
        cases h1
        rw [if_pos h2] at h
        exact fin h
      · cases h
    | str s =>
      simp only [cleanContext] at h
      split at h
      · exact fin h
      · cases h
    | _ => exact fin h

theorem postInit_kept {a a' : List (Str × J)} (hn : (Dict.keys a).Nodup) (h : postInit x a = .ok a')
    (hc : ∀ l, Dict.get "context".toList a = some (.arr l) → ∀ o, .obj o ∈ l → ∀ v, Has o "@language" v → IsTag (tagOf x) v) :
    ∀ k v, (k, v) ∈ a → (k, v) ∈ a' := by
  unfold postInit at h
  split at h
  · cases h
  split at h
  · next l hl =>
    obtain ⟨l', h1, rfl⟩ := Except.map_eq_ok.1 h
    rw [cleanContext_eq h1 (hc l hl)]
    intro k v hm
    have hg := Dict.get_of_mem_nodup hn hm
    apply Dict.get_mem
    by_cases hk : k = "context".toList
    · subst hk
      rw [hl] at hg
      cases hg
      exact Dict.get_set_self ..
    · rw [Dict.get_set_ne (Ne.symm hk), hg]
  · cases h
    exact fun k v h => h

end

end Csvw
