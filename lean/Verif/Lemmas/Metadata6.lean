import Verif.Lemmas.Metadata5
/-!
# Lemmas about `asdict` and `fromvalue`: tables and table groups
-/

namespace Csvw
open Spec Datatypes

section
variable {ext : Ext} {x : MExt} {other : Base → Derived → J → Res Val} {lk : EncLookup}

/-! ## `@context` -/

theorem get_erase {κ α : Type} [DecidableEq κ] (k : κ) (m : List (κ × α)) : Dict.get k (Dict.erase k m) = none := by
  rw [Dict.get_eq_none_iff]
  simp [Dict.keys, Dict.erase]

theorem cleanContext_idem : ∀ {l l' : List J}, cleanContext x l = .ok l' → cleanContext x l' = .ok l' ∧ (l' = [] → l = [])
  | [], l', h => by cases h; exact ⟨rfl, fun _ => rfl⟩
  | j :: r, l', h => by
    have step : ∀ {j' : J}, (cleanContext x r).map (j' :: ·) = .ok l' →
        (∀ r', cleanContext x r' = .ok r' → cleanContext x (j' :: r') = .ok (j' :: r')) →
        cleanContext x l' = .ok l' ∧ (l' = [] → j :: r = []) := by
      intro j' h hj
      obtain ⟨r', hr, rfl⟩ := Except.map_eq_ok.1 h
      exact ⟨hj r' (cleanContext_idem hr).1, by simp⟩
    cases j with
    | obj m =>
      simp only [cleanContext] at h
      split at h
      · cases h
      next hk =>
      split at h
      · next hg =>
        refine step h fun r' hr => ?_
        simp only [cleanContext]
        rw [if_neg hk, hg, hr]
        rfl
      · next s hg =>
        split at h
        · next ht =>
          refine step h fun r' hr => ?_
          simp only [cleanContext]
          rw [if_neg hk, hg]
          simp only
          rw [if_pos ht, hr]
          rfl
        · next ht =>
          refine step h fun r' hr => ?_
          simp only [cleanContext]
          have hg' : Dict.get "@language".toList (Dict.erase "@language".toList m) = none := by
            exact get_erase _ _
          rw [if_neg, hg', hr]
          · rfl
          · intro hh
            obtain ⟨e, he, hp⟩ := List.any_eq_true.1 hh
            exact hk (List.any_eq_true.2 ⟨e, (List.mem_filter.1 he).1, hp⟩)
      · cases h
    | str s =>
      simp only [cleanContext] at h
      split at h
      · next hs =>
        refine step h fun r' hr => ?_
        simp only [cleanContext]
        rw [if_pos hs, hr]
        rfl
      · cases h
    | _ =>
      simp only [cleanContext] at h
      refine step h fun r' hr => ?_
      simp only [cleanContext, hr]
      rfl

theorem postInit_good {tn : Str} {a a' c : List (Str × J)} (h : postInit x a = .ok a') (hg : GoodParts x tn a c) :
    GoodParts x tn a' c ∧ postInit x (canon a') = .ok (canon a') := by
  unfold postInit at h
  split at h
  · cases h
  next hid =>
  have good_id : Dict.get "id".toList (canon a) ≠ some .null := by
    rw [get_canon hg.atNodup]
    intro hh
    exact hid (Option.filter_eq_some_iff.1 hh).1
  split at h
  · next l hl =>
    obtain ⟨l', hc, rfl⟩ := Except.map_eq_ok.1 h
    obtain ⟨hc1, hc2⟩ := cleanContext_idem hc
    have mem : ∀ e ∈ Dict.set "context".toList (.arr l') a, e ∈ a ∨ e.1 = "context".toList := by
      intro e he
      obtain ⟨k, v⟩ := e
      have hn := Dict.nodup_keys_set (k := "context".toList) (v := J.arr l') hg.atNodup
      have := Dict.get_of_mem_nodup hn he
      by_cases hk : k = "context".toList
      · exact .inr hk
      · rw [Dict.get_set_ne (Ne.symm hk)] at this
        exact .inl (Dict.get_mem this)
    have hg' : GoodParts x tn (Dict.set "context".toList (.arr l') a) c := by
      refine ⟨Dict.nodup_keys_set hg.atNodup, ?_, ?_, hg.commonNodup, hg.commonKeys, hg.commonVals⟩
      · intro e he hk
        rcases mem e he with h | h
        · exact hg.id e h hk
        · rw [hk] at h; exact absurd h (by decide)
      · intro e he hk
        rcases mem e he with h | h
        · exact hg.type e h hk
        · rw [hk] at h; exact absurd h (by decide)
    refine ⟨hg', ?_⟩
    unfold postInit
    have e1 : Dict.get "id".toList (canon (Dict.set "context".toList (.arr l') a)) ≠ some .null := by
      rw [get_canon hg'.atNodup, Dict.get_set_ne (by decide), ← get_canon hg.atNodup]
      exact good_id
    have e2 : Dict.get "context".toList (canon (Dict.set "context".toList (.arr l') a)) = if l' = [] then none else some (.arr l') := by
      rw [get_canon hg'.atNodup, Dict.get_set_self]
      cases l' with
      | nil => rfl
      | cons a r => rfl
    rw [if_neg e1, e2]
    split
    · next l'' hl'' =>
      split at hl''
      · cases hl''
      · next hne =>
        simp only [Option.some.injEq, J.arr.injEq] at hl''
        subst hl''
        rw [if_neg hne] at e2
        rw [hc1]
        show Except.ok (Dict.set _ _ _) = _
        rw [Dict.set_same e2]
    · rfl
  · next hctx =>
    cases h
    refine ⟨hg, ?_⟩
    unfold postInit
    rw [if_neg good_id, get_canon hg.atNodup]
    split
    · next l hl => exact absurd (Option.filter_eq_some_iff.1 hl).1 (hctx l)
    · rfl

/-! ## `TableLike` -/

def likeNames : List String := ["dialect", "notes", "tableDirection", "tableSchema", "transformations", "url"]

theorem direction_ok {o : Option J} {s : Str} (h : convDirection o = .ok s) : convDirection (some (.str s)) = .ok s := by
  cases o with
  | none => cases h; rfl
  | some j =>
    have : s = "rtl".toList ∨ s = "ltr".toList ∨ s = "auto".toList := by
      unfold convDirection at h
      cases j with
      | arr l => simp only [converter] at h; cases h
      | str t =>
        simp only [converter] at h
        simp only [Bool.false_and, Bool.false_eq_true, if_false] at h
        split at h
        · next s' hs =>
          simp only [Except.ok.injEq] at h
          subst h
          split at hs
          · next hk =>
            simp only [J.str.injEq] at hs
            subst hs
            simpa [or_assoc] using hk
          · simp only [J.str.injEq] at hs
            exact .inr (.inr hs.symm)
        · cases h
      | _ =>
        simp only [converter, reduceCtorEq, decide_false, Bool.or_self, Bool.and_false, Bool.false_eq_true, if_false, Bool.false_and,
          Except.ok.injEq] at h
        exact .inr (.inr h.symm)
    rcases this with rfl | rfl | rfl <;> rfl

theorem transformations_ok {o : Option J} {v : J} (h : convTransformations x o = .ok v) : convTransformations x (some v) = .ok v := by
  cases o with
  | none => cases h; rfl
  | some j =>
    cases j with
    | arr l =>
      have h' := h
      simp only [convTransformations] at h
      obtain ⟨u, -, rfl⟩ := Except.map_eq_ok.1 h
      exact h'
    | obj m => cases h; rfl
    | str s => cases h; rfl
    | _ => cases h

theorem like_roundtrip (hlk : lk "utf-8".toList = .ok ()) {tn : String} {fields : List Str} {names : List String}
    (hnames : (inheritedNames ++ (likeNames ++ names)).Nodup)
    (hall : ∀ k ∈ (inheritedNames ++ (likeNames ++ names)).map String.toList, OwnProperty k ∧ k ∈ fields ∧ k ∉ partNames ∧ k ∉ privateFields)
    {d : J} (hd : DistinctKeys d) {p : Parts} (hp : partitionProperties x fields tn.toList true d = .ok (some p)) {t : TableLike}
    (ht : TableLike.ofParts ext x other lk p = .ok t) (hw : LikeWritable ext t) (od : Bool) :
    ∃ L K t', t.props.items ext od = .ok (attrItems od L) ∧ t.items ext = .ok K ∧ SameLike t t' ∧
      ∀ M : List (String × J × J), M.map (fun e => e.1.toList) = names.map String.toList →
        ((L ++ (K ++ M)).map fun e => e.1.toList).Nodup ∧
        (∀ {α : Type} (f : Parts → Res α),
          fromParts x fields tn f (.obj (asdictOf t.props.atProps t.props.common (attrItems od L ++ attrItems od (K ++ M)))) =
            f ⟨canon t.props.common, canon t.props.atProps, keepItems (attrItems od (L ++ (K ++ M))), []⟩) ∧
        TableLike.ofParts ext x other lk ⟨canon t.props.common, canon t.props.atProps, keepItems (attrItems od (L ++ (K ++ M))), []⟩ = .ok t' := by
  have hown := own_distinct hd hp
  unfold TableLike.ofParts at ht
  obtain ⟨D, hD, ht⟩ := Datatype.bind_ok ht
  obtain ⟨dia, h1, ht⟩ := Datatype.bind_ok ht
  obtain ⟨dir, h2, ht⟩ := Datatype.bind_ok ht
  obtain ⟨sch, h3, ht⟩ := Datatype.bind_ok ht
  obtain ⟨trs, h4, ht⟩ := Datatype.bind_ok ht
  obtain ⟨url, h5, ht⟩ := Datatype.bind_ok ht
  obtain ⟨a', h6, ht⟩ := Datatype.bind_ok ht
  simp only [pure, Except.pure, Except.ok.injEq] at ht
  subst ht
  generalize (Dict.get "notes".toList p.own).getD (.arr []) = notes at *
  obtain ⟨hgood, hpost⟩ := postInit_good h6 (descrFrom hd hp hD).good
  have hfrom : DescrFrom ext x other tn.toList { D with atProps := a' } := by
    obtain ⟨m, d0, b1, b2, b3⟩ := (descrFrom hd hp hD).built
    refine ⟨hgood, m, d0, b1, b2, ?_⟩
    rw [b3]
  have hdir : convDirection (some (.str dir)) = .ok dir := direction_ok h2
  obtain ⟨L, hL1, hL2, hL3⟩ := descr_parts hfrom hw.props od (fields := fields) (names := likeNames ++ names) hnames hall
  obtain ⟨sm, sch', s1, s2, s3⟩ := schema_roundtrip (argOf_distinct hown "tableSchema") h3 hw.schema hw.columns true
  obtain ⟨dia', d1, d2⟩ := dialect_roundtrip hlk h1 hw.quoteChar
  refine ⟨L, [("dialect", dialectJson dia, .null), ("notes", notes, .arr []),
    ("tableDirection", .str dir, .str "auto".toList), ("tableSchema", .obj sm, .null),
    ("transformations", trs, .arr []), ("url", .ofOptStr url, .null)],
    { props := pruneDescr { D with atProps := a' }, dialect := dia', notes := if keptValue notes then notes else .arr [],
      tableDirection := dir, schema := sch', transformations := if keptValue trs then trs else .arr [], url }, hL1, ?_, ?_, ?_⟩
  · unfold TableLike.items
    simp only [s1, bind, Except.bind, pure, Except.pure]
  · have lv : ∀ v : J, SameListValue v (if keptValue v then v else .arr []) := by
      intro v
      split
      · exact .inl rfl
      · next hk => rw [keptValue_iff, Classical.not_not] at hk; exact .inr ⟨hk, rfl⟩
    obtain ⟨-, hP⟩ := hL3 ([("dialect", J.null, J.null), ("notes", .null, .null), ("tableDirection", .null, .null), ("tableSchema", .null, .null),
      ("transformations", .null, .null), ("url", .null, .null)] ++ names.map fun n => (n, .null, .null)) (by
        simp only [List.map_append, List.map_map]; rfl)
    exact ⟨(hP (fun _ => (.ok () : Res Unit))).2.2, d2, lv _, rfl, s3, lv _, rfl⟩
  · intro M hM
    generalize hK : [("dialect", dialectJson dia, J.null), ("notes", notes, .arr []),
      ("tableDirection", .str dir, .str "auto".toList), ("tableSchema", .obj sm, .null),
      ("transformations", trs, .arr []), ("url", .ofOptStr url, .null)] = K
    obtain ⟨hnd, hP⟩ := hL3 (K ++ M) (by rw [List.map_append, List.map_append, hM]; subst hK; rfl)
    refine ⟨hnd, fun f => (hP f).1, ?_⟩
    obtain ⟨-, hP2, -⟩ := hP (fun _ => (.ok () : Res Unit))
    have memK : ∀ {e}, e ∈ K → e ∈ L ++ (K ++ M) := fun h => List.mem_append_right _ (List.mem_append_left _ h)
    have listArg : ∀ {n : String} {v : J}, (n, v, J.arr []) ∈ K → n.toList ≠ "null".toList →
        (Dict.get n.toList (keepItems (attrItems od (L ++ (K ++ M))))) = if keptValue v then some v else none := by
      intro n v hm hn
      rw [get_attr hnd (memK hm)]
      simp only [hn, decide_false, Bool.false_or]
      by_cases hv : v = .arr []
      · subst hv; cases od <;> rfl
      · simp only [hv, decide_false, Bool.and_false, Bool.false_or]
        cases keptValue v <;> rfl
    have e1 : convDialect lk x (argOf "dialect" (keepItems (attrItems od (L ++ (K ++ M))))) = .ok dia' := by
      rw [arg_attr hnd (n := "dialect") (v := dialectJson dia) (memK (by subst hK; simp)) (by decide)]
      exact d1
    have e2 : convDirection (Dict.get "tableDirection".toList (keepItems (attrItems od (L ++ (K ++ M))))) = .ok dir := by
      rw [get_attr hnd (n := "tableDirection") (v := .str dir) (d := .str "auto".toList) (memK (by subst hK; simp))]
      have hk : keptValue (.str dir) = true := rfl
      rw [hk]
      by_cases hda : dir = "auto".toList
      · subst hda; cases od <;> rfl
      · simp only [J.str.injEq, hda, decide_false, Bool.and_false, Bool.or_true, Bool.not_true, Bool.or_self, Bool.false_eq_true, if_false]
        exact hdir
    have e3 : Schema.fromvalue ext x other (argOf "tableSchema" (keepItems (attrItems od (L ++ (K ++ M))))) = .ok sch' := by
      rw [arg_attr hnd (n := "tableSchema") (v := .obj sm) (memK (by subst hK; simp)) (by decide)]
      cases sm with
      | nil => exact s2
      | cons a r => exact s2
    have e4 : convTransformations x (Dict.get "transformations".toList (keepItems (attrItems od (L ++ (K ++ M))))) =
        .ok (if keptValue trs then trs else .arr []) := by
      rw [listArg (v := trs) (n := "transformations") (by subst hK; simp) (by decide)]
      split
      · exact transformations_ok h4
      · rfl
    have e5 : (Dict.get "notes".toList (keepItems (attrItems od (L ++ (K ++ M))))).getD (.arr []) = if keptValue notes then notes else .arr [] := by
      rw [listArg (v := notes) (n := "notes") (by subst hK; simp) (by decide)]
      split <;> rfl
    have e6 : convLink (argOf "url" (keepItems (attrItems od (L ++ (K ++ M))))) = .ok url := by
      rw [arg_attr hnd (n := "url") (v := .ofOptStr url) (memK (by subst hK; simp)) (by decide)]
      cases url <;> rfl
    have e7 : postInit x (pruneDescr { D with atProps := a' }).atProps = .ok (canon a') := hpost
    unfold TableLike.ofParts
    rw [hP2]
    simp only [bind, Except.bind, e1, e2, e3, e4, e5, e6, e7]
    rfl

/-! ## Tables -/

theorem table_roundtrip (hlk : lk "utf-8".toList = .ok ()) {d : J} (hd : DistinctKeys d) {t : TableD}
    (h : TableD.fromvalue ext x other lk d = .ok t) (hw : LikeWritable ext t.like) (od : Bool) :
    ∃ m t', t.asdict ext od = .ok (.obj m) ∧ TableD.fromvalue ext x other lk (.obj m) = .ok t' ∧ SameTable t t' := by
  obtain ⟨p, hp, hf⟩ := fromParts_ok h
  unfold TableD.ofParts at hf
  obtain ⟨like, hl, hf⟩ := Datatype.bind_ok hf
  split at hf
  · cases hf
  next hurl =>
  simp only [pure, Except.pure, Except.ok.injEq] at hf
  subst hf
  generalize (Dict.get "suppressOutput".toList p.own).getD (.bool false) = so at *
  obtain ⟨L, K, like', i1, i2, i3, i4⟩ := like_roundtrip hlk (names := ["suppressOutput"]) (fields := tableFields) (by decide) (by decide +kernel) hd hp hl
    hw od
  generalize hM : [("suppressOutput", so, if so.zero then so else .bool false)] = M
  obtain ⟨hnd, hP1, hP2⟩ := i4 M (by subst hM; rfl)
  have hget := get_attr (od := od) hnd (n := "suppressOutput") (v := so) (d := if so.zero then so else .bool false)
    (List.mem_append_right _ (List.mem_append_right _ (by subst hM; simp)))
  refine ⟨asdictOf like.props.atProps like.props.common (attrItems od L ++ attrItems od (K ++ M)),
    { like := like', suppressOutput := (Dict.get "suppressOutput".toList (keepItems (attrItems od (L ++ (K ++ M))))).getD (.bool false) }, ?_, ?_, i3, ?_⟩
  · unfold TableD.asdict
    simp only [i1, i2, bind, Except.bind, pure, Except.pure, hM]
  · unfold TableD.fromvalue
    rw [hP1]
    unfold TableD.ofParts
    rw [hP2]
    simp only [bind, Except.bind]
    rw [if_neg (by rw [i3.url]; exact hurl)]
    rfl
  · simp only
    have hdf : so = (if so.zero then so else .bool false) → so.zero = true ∨ so = .bool false := by
      intro h
      by_cases hz : so.zero = true
      · exact .inl hz
      · rw [if_neg hz] at h; exact .inr h
    rw [hget]
    generalize (if so.zero then so else .bool false) = df at hdf
    by_cases hk : keptValue so = true
    · rw [hk]
      by_cases hs : so = df
      · cases od with
        | true =>
          simp only [hs, decide_true, Bool.and_self, Bool.true_or, if_true, Option.getD_none]
          rw [← hs]
          rcases hdf hs with hz | hz
          · exact .inr ⟨.inl hz, trivial⟩
          · exact .inl hz.symm
        | false => left; simp
      · left; simp [hs]
    · right
      refine ⟨.inr ?_, ?_⟩
      · rw [keptValue_iff, Classical.not_not] at hk; exact hk
      · simp only [Bool.not_eq_true] at hk
        rw [hk]
        simp only [show ("suppressOutput".toList = "null".toList) = False from by simp, decide_false, Bool.or_self, Bool.not_false, Bool.or_true, if_true,
          Option.getD_none]

/-! ## Table groups -/

theorem tables_roundtrip (hlk : lk "utf-8".toList = .ok ()) (od : Bool) : ∀ {ts : List TableD},
    (∀ t ∈ ts, LikeWritable ext t.like ∧ ∃ d, DistinctKeys d ∧ TableD.fromvalue ext x other lk d = .ok t) →
    ∃ js ts', mapRes (TableD.asdict ext od) ts = .ok js ∧ mapObjs (fun m => TableD.fromvalue ext x other lk (.obj m)) js = .ok ts' ∧
      All2 SameTable ts ts'
  | [], _ => ⟨[], [], rfl, rfl, .nil⟩
  | t :: r, h => by
    obtain ⟨hw, d, hd, hf⟩ := h t List.mem_cons_self
    obtain ⟨m, t', h1, h2, h3⟩ := table_roundtrip hlk hd hf hw od
    obtain ⟨js, ts', g1, g2, g3⟩ := tables_roundtrip hlk od (fun t ht => h t (List.mem_cons_of_mem _ ht))
    refine ⟨.obj m :: js, t' :: ts', ?_, ?_, .cons h3 g3⟩
    · simp only [mapRes, h1, g1]; rfl
    · simp only [mapObjs, h2, g2]; rfl

theorem group_roundtrip (hlk : lk "utf-8".toList = .ok ()) {d : J} (hd : DistinctKeys d) {g : GroupD}
    (h : GroupD.fromvalue ext x other lk d = .ok g) (hw : LikeWritable ext g.like) (hwt : ∀ t ∈ g.tables, LikeWritable ext t.like) (od : Bool) :
    ∃ m g', g.asdict ext od = .ok (.obj m) ∧ GroupD.fromvalue ext x other lk (.obj m) = .ok g' ∧ SameGroup g g' := by
  obtain ⟨p, hp, hf⟩ := fromParts_ok h
  unfold GroupD.ofParts at hf
  obtain ⟨like, hl, hf⟩ := Datatype.bind_ok hf
  obtain ⟨ts, htb, hf⟩ := Datatype.bind_ok hf
  simp only [pure, Except.pure, Except.ok.injEq] at hf
  subst hf
  have hts : ∀ t ∈ ts, LikeWritable ext t.like ∧ ∃ d, DistinctKeys d ∧ TableD.fromvalue ext x other lk d = .ok t := by
    intro t ht
    refine ⟨hwt t ht, ?_⟩
    cases hg : Dict.get "tables".toList p.own with
    | none => rw [hg] at htb; cases htb; cases ht
    | some j =>
      rw [hg] at htb
      have hdj := own_distinct hd hp _ _ (Dict.get_mem hg)
      cases j with
      | arr l =>
        obtain ⟨m, hm, hf⟩ := mapObjs_mem htb t ht
        exact ⟨_, distinct_arr hdj _ hm, hf⟩
      | obj m => cases htb; cases ht
      | str s => cases htb; cases ht
      | _ => cases htb
  obtain ⟨js, ts', g1, g2, g3⟩ := tables_roundtrip hlk od hts
  obtain ⟨L, K, like', i1, i2, i3, i4⟩ := like_roundtrip hlk (names := ["tables"]) (fields := groupFields) (by decide) (by decide +kernel) hd hp hl
    hw od
  generalize hM : [("tables", J.arr js, J.arr [])] = M
  obtain ⟨hnd, hP1, hP2⟩ := i4 M (by subst hM; rfl)
  have hget := get_attr (od := od) hnd (n := "tables") (v := .arr js) (d := .arr [])
    (List.mem_append_right _ (List.mem_append_right _ (by subst hM; simp)))
  have hconv : convTables ext x other lk (Dict.get "tables".toList (keepItems (attrItems od (L ++ (K ++ M))))) = .ok ts' := by
    rw [hget]
    cases js with
    | nil => cases g2; cases od <;> rfl
    | cons a r => cases od <;> exact g2
  refine ⟨asdictOf like.props.atProps like.props.common (attrItems od L ++ attrItems od (K ++ M)), { like := like', tables := ts' }, ?_, ?_, i3, g3⟩
  · unfold GroupD.asdict
    simp only [i1, i2, g1, bind, Except.bind, pure, Except.pure, hM]
  · unfold GroupD.fromvalue
    rw [hP1]
    unfold GroupD.ofParts
    rw [hP2]
    simp only [bind, Except.bind]
    rw [hconv]
    rfl

end
end Csvw
