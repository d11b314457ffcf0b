import Verif.Lemmas.Rewarn3
/-!
# Warnings about written descriptions: tables and table groups
-/

namespace Csvw
open Csvw.Spec

section
variable {ext : Ext} {x : MExt} {other : Base → Derived → J → Res Val} {lk : EncLookup}

theorem dialect_silent {d : Dialect} (hc : Props.Constructible lk d) (hh : HeaderInv d) : Warn.dialect lk x (.obj d.asdictMeta) = false := by
  obtain ⟨kw, h1, h2, h3⟩ := dialect_props_written (x := x) hc hh
  unfold Warn.dialect
  simp only [h1, h2]
  have hp : Warn.parts x descriptionFields false d.asdictMeta = false := by
    unfold Warn.parts
    rw [List.any_eq_false]
    intro e he
    have hk : ∀ k ∈ Dialect.propNames, Spec.OwnProperty k := by decide +kernel
    have h := hk _ (asdictMeta_mem he)
    rw [if_neg (fun h' => h.1 (atPrefix.1 h')), if_neg (by simpa using h.2)]
    simp
  have hcp : Warn.conv J.isStr true (argOf "commentPrefix" kw) = false := by
    unfold argOf
    rw [h3 _ (by decide), asdictMeta_getD (d := d) (n := "commentPrefix".toList) (v := J.ofOptStr d.commentPrefix) (dflt := .null) rfl rfl]
    cases d.commentPrefix <;> rfl
  have hq : Warn.given "quoteChar" (Warn.conv J.isStr true) kw = false := by
    unfold Warn.given
    rw [h3 _ (by decide)]
    split
    · next v hv =>
      have := asdictMeta_getD (d := d) (n := "quoteChar".toList) (v := d.quoteChar) (dflt := .str "\"".toList) rfl rfl
      rw [hv] at this
      simp only [Option.getD_some] at this
      rw [this]
      rcases hc.2 with h | ⟨s, h⟩ <;> rw [h] <;> rfl
    · rfl
  rw [hp, hcp, hq]
  rfl

theorem context_silent : ∀ {l l' : List J}, cleanContext x l = .ok l' → Warn.context x (.arr l') = false
  | [], l', h => by cases h; rfl
  | j :: r, l', h => by
    have step : ∀ {j' : J}, (cleanContext x r).map (j' :: ·) = .ok l' → Warn.context x (.arr [j']) = false → Warn.context x (.arr l') = false := by
      intro j' h hj
      obtain ⟨r', hr, rfl⟩ := Except.map_eq_ok.1 h
      have := context_silent hr
      unfold Warn.context at this hj ⊢
      simp only [List.any_cons, List.any_nil, Bool.or_false] at hj ⊢
      rw [Bool.or_eq_false_iff]
      exact ⟨hj, this⟩
    cases j with
    | obj m =>
      simp only [cleanContext] at h
      split at h
      · cases h
      split at h
      · next hg => refine step h ?_; show (Warn.given _ _ _ || false) = false; unfold Warn.given; rw [hg]; rfl
      · next s hg =>
        split at h
        · next ht => refine step h ?_; show (Warn.given _ _ _ || false) = false; unfold Warn.given; rw [hg]; simp only [langKept, ht]; rfl
        · refine step h ?_
          show (Warn.given _ _ _ || false) = false
          unfold Warn.given
          rw [get_erase]; rfl
      · cases h
    | str s =>
      simp only [cleanContext] at h
      split at h
      · exact step h rfl
      · cases h
    | _ =>
      simp only [cleanContext] at h
      exact step h rfl

theorem postInit_context {a a' : List (Str × J)} (h : postInit x a = .ok a') {v : J} (hv : Dict.get "context".toList a' = some v) :
    Warn.context x v = false := by
  unfold postInit at h
  split at h
  · cases h
  split at h
  · next l hl =>
    obtain ⟨l', hc, rfl⟩ := Except.map_eq_ok.1 h
    rw [Dict.get_set_self] at hv
    cases hv
    exact context_silent hc
  · next hn =>
    cases h
    cases v with
    | arr l => exact absurd hv (hn l)
    | _ => rfl

theorem postInit_clean {a a' c : List (Str × J)} (h : postInit x a = .ok a') (hn : (Dict.keys a).Nodup) (hc : CleanParts x a c) : CleanParts x a' c := by
  unfold postInit at h
  split at h
  · cases h
  split at h
  · obtain ⟨l', -, rfl⟩ := Except.map_eq_ok.1 h
    refine ⟨hc.common, fun v hv => ?_⟩
    have := Dict.get_of_mem_nodup (Dict.nodup_keys_set hn) hv
    rw [Dict.get_set_ne (by decide)] at this
    exact hc.id v (Dict.get_mem this)
  · cases h; exact hc

theorem at_of_asdict {tn : Str} {a c own : List (Str × J)} (hg : GoodParts x tn a c) (ho : ∀ e ∈ own, OwnProperty e.1) {k : Str} {v : J}
    (h : Dict.get ('@' :: k) (asdictOf a c own) = some v) : Dict.get k a = some v := by
  have hm := Dict.get_mem h
  rw [asdictOf_eq hg] at hm
  rcases List.mem_append.1 hm with hm | hm
  · obtain ⟨e, he, heq⟩ := List.mem_map.1 hm
    simp only [Prod.mk.injEq, List.cons.injEq, true_and] at heq
    have := mem_canon he
    rw [← heq.1, ← heq.2]
    exact Dict.get_of_mem_nodup hg.atNodup this
  rcases List.mem_append.1 hm with hm | hm
  · exact absurd ⟨k, rfl⟩ (hg.commonKeys _ (mem_canon hm)).1
  · exact absurd ⟨k, rfl⟩ (ho _ (List.mem_filter.1 hm).1).1

theorem direction_cases {o : Option J} {s : Str} (h : convDirection o = .ok s) : Warn.isDirection (.str s) = true := by
  have h := direction_ok h
  unfold convDirection at h
  simp only [converter, Bool.false_and, Bool.false_eq_true, if_false] at h
  split at h
  · next s' hs =>
    simp only [Except.ok.injEq] at h
    subst h
    split at hs
    · next hk => simpa [Warn.isDirection] using hk
    · simp only [J.str.injEq] at hs
      rw [← hs]; decide
  · cases h

theorem like_written (hlk : lk "utf-8".toList = .ok ()) {tn : String} {fields : List Str} {names : List String}
    (hnames : ((inheritedNames ++ (likeNames ++ names)).map String.toList).Nodup)
    (hall : ∀ n ∈ inheritedNames ++ (likeNames ++ names), OwnProperty n.toList ∧ n.toList ∈ fields)
    {m : List (Str × J)} (hd : DistinctKeys (.obj m)) {p : Parts} (hp : partitionProperties x fields tn.toList true (.obj m) = .ok (some p)) {t : TableLike}
    (ht : TableLike.ofParts ext x other lk p = .ok t) (hw : LikeWritable ext t) (hfin : FiniteLike t)
    (hs0 : Warn.parts x fields true m = false) (hs : Warn.like ext x other lk m = false) {od : Bool} (hund : od = false → x.tagOk "und".toList = true)
    {l : List (Str × J)} (hl : t.props.items ext od = .ok l) {K : List (String × J × J)} (hK : t.items ext = .ok K) {M : List (String × J × J)}
    (hM : M.map (fun e => e.1.toList) = names.map String.toList) :
    Warn.parts x fields true (asdictOf t.props.atProps t.props.common (l ++ attrItems od (K ++ M))) = false ∧
    Warn.like ext x other lk (asdictOf t.props.atProps t.props.common (l ++ attrItems od (K ++ M))) = false ∧
    ∃ L : List (String × J × J), ((L ++ (K ++ M)).map fun e => e.1.toList).Nodup ∧ ∀ {n : String} (f : J → Bool), OwnProperty n.toList →
      Warn.given n f (asdictOf t.props.atProps t.props.common (l ++ attrItems od (K ++ M))) = Warn.given n f (keepItems (attrItems od (L ++ (K ++ M)))) := by
  unfold TableLike.ofParts at ht
  obtain ⟨D, hD, ht⟩ := Datatype.bind_ok ht
  obtain ⟨dia, h1, ht⟩ := Datatype.bind_ok ht
  obtain ⟨dir, h2, ht⟩ := Datatype.bind_ok ht
  obtain ⟨sch, h3, ht⟩ := Datatype.bind_ok ht
  obtain ⟨trs, h4, ht⟩ := Datatype.bind_ok ht
  obtain ⟨url, h5, ht⟩ := Datatype.bind_ok ht
  obtain ⟨a', h6, ht⟩ := Datatype.bind_ok ht
  simp only [pure, Except.pure, Except.ok.injEq] at ht
  subst ht
  generalize (Dict.get "notes".toList p.own).getD (.arr []) = notes at *
  have hg0 := (descrFrom hd hp hD).good
  obtain ⟨hgood, -⟩ := postInit_good h6 hg0
  have hcl : CleanParts x a' D.common := by
    have := cleanParts_of hd.nodup hp hs0
    obtain ⟨d0, -, rfl⟩ := Except.map_eq_ok.1 hD
    exact postInit_clean h6 hg0.atNodup this
  unfold Warn.like at hs
  simp only [Bool.or_eq_false_iff] at hs
  obtain ⟨⟨⟨⟨⟨s1, -⟩, -⟩, s4⟩, s5⟩, -⟩ := hs
  have hl' : D.items ext od = .ok l := hl
  obtain ⟨L, rfl, hL, hdescr⟩ := descr_written hd hp (fun n hn => (hall n (List.mem_append_left _ hn)).2) hD
    (show DescrWritable ext D from ⟨hw.props.aboutUrl, hw.props.propertyUrl, hw.props.valueUrl, hw.props.datatype⟩) hfin.props s1 hund hl'
  unfold TableLike.items at hK
  obtain ⟨sj, hsj, hK⟩ := Datatype.bind_ok hK
  simp only [pure, Except.pure, Except.ok.injEq] at hK
  have hKn : K.map (fun e => e.1.toList) = likeNames.map String.toList := by subst hK; rfl
  rw [← attrItems_append]
  have hLM : (L ++ (K ++ M)).map (fun e => e.1.toList) = (inheritedNames ++ (likeNames ++ names)).map String.toList := by
    rw [List.map_append, List.map_append, List.map_append, List.map_append, hL, hKn, hM]
  have hnd : ((L ++ (K ++ M)).map fun e => e.1.toList).Nodup := by rw [hLM]; exact hnames
  have memK : ∀ {e}, e ∈ K → e ∈ L ++ (K ++ M) := fun h => List.mem_append_right _ (List.mem_append_left _ h)
  have hkeys := items_goodKeys (od := od) hLM hall
  have own : ∀ {n : String}, n ∈ likeNames → OwnProperty n.toList := fun h => (hall _ (List.mem_append_right _ (List.mem_append_left _ h))).1
  refine ⟨parts_written hgood hcl hkeys, ?_, L, hnd, fun f hn => given_asdict hgood hn f⟩
  have w1 := hdescr (K ++ M) (asdictOf a' D.common (attrItems od (L ++ (K ++ M)))) hnd fun k hk => get_asdict hgood hk
  have w2 : Warn.dialect lk x (argOf "dialect" (asdictOf a' D.common (attrItems od (L ++ (K ++ M))))) = false := by
    rw [arg_asdict hgood (own (by decide)), arg_attr hnd (n := "dialect") (v := dialectJson dia) (memK (by rw [← hK]; simp)) (by decide)]
    cases dia with
    | none => rfl
    | some d =>
      obtain ⟨k1, k2⟩ := dialect_inv hlk h1 (hw.quoteChar d rfl)
      unfold pruneJ
      split
      · exact dialect_silent k1 k2
      · rfl
  have w3 : Warn.given "tableDirection" (Warn.conv Warn.isDirection false) (asdictOf a' D.common (attrItems od (L ++ (K ++ M)))) = false := by
    rw [given_asdict hgood (own (by decide))]
    refine given_attr hnd (n := "tableDirection") (v := .str dir) (d := .str "auto".toList) (memK (by rw [← hK]; simp)) (fun _ => ?_)
    simp only [Warn.conv, direction_cases h2, Bool.not_true]
  have w4 : Warn.schema ext x other (argOf "tableSchema" (asdictOf a' D.common (attrItems od (L ++ (K ++ M))))) = false := by
    rw [arg_asdict hgood (own (by decide)), arg_attr hnd (n := "tableSchema") (v := sj) (memK (by rw [← hK]; simp)) (by decide)]
    obtain ⟨sm, rfl⟩ : ∃ sm, sj = .obj sm := by
      unfold Schema.asdict at hsj
      obtain ⟨i1, -, hsj⟩ := Datatype.bind_ok hsj
      obtain ⟨i2, -, hsj⟩ := Datatype.bind_ok hsj
      cases hsj
      exact ⟨_, rfl⟩
    rw [own_arg (k := "tableSchema") hd.nodup hp (own (by decide)) (fun _ => (hall _ (by simp [likeNames])).2)] at h3
    unfold pruneJ
    split
    · exact schema_written (hd.arg "tableSchema") h3 hw.schema hw.columns hfin.schema hfin.columns s4 (fun h => by cases h) hsj
    · rfl
  have w5 : Warn.given "transformations" (Warn.transformations x) (asdictOf a' D.common (attrItems od (L ++ (K ++ M)))) = false := by
    rw [given_asdict hgood (own (by decide))]
    refine given_attr hnd (n := "transformations") (v := trs) (d := .arr []) (memK (by rw [← hK]; simp)) (fun _ => ?_)
    rw [own_get hd.nodup hp (own (by decide)) (fun _ => (hall _ (by simp [likeNames])).2)] at h4
    unfold Warn.given at s5
    cases hg : Dict.get "transformations".toList m with
    | none => rw [hg] at h4; cases h4; rfl
    | some v =>
      rw [hg] at h4 s5
      simp only at s5
      unfold convTransformations at h4
      split at h4
      · next hx => cases hx
      · next l hx =>
        cases hx
        obtain ⟨_, -, rfl⟩ := Except.map_eq_ok.1 h4
        exact s5
      · next l hx => cases hx; cases s5
      · next l hx => cases hx; cases s5
      · cases h4
  have w6 : Warn.context x (argOf "@context" (asdictOf a' D.common (attrItems od (L ++ (K ++ M))))) = false := by
    unfold argOf
    cases hg : Dict.get "@context".toList (asdictOf a' D.common (attrItems od (L ++ (K ++ M)))) with
    | none => rfl
    | some v => exact postInit_context h6 (at_of_asdict hgood (fun e he => (hkeys e he).1) hg)
  unfold Warn.like
  rw [w1, w2, w3, w4, w5, w6]
  rfl

/-! ## Tables and groups -/

theorem table_written (hlk : lk "utf-8".toList = .ok ()) {m : List (Str × J)} (hd : DistinctKeys (.obj m)) {t : TableD}
    (h : TableD.fromvalue ext x other lk (.obj m) = .ok t) (hw : LikeWritable ext t.like) (hfin : FiniteLike t.like)
    (hs : Warn.table ext x other lk m = false) {od : Bool} (hund : od = false → x.tagOk "und".toList = true) {j : J} (hj : t.asdict ext od = .ok j) :
    ∃ m', j = .obj m' ∧ Warn.table ext x other lk m' = false := by
  obtain ⟨p, hp, hf⟩ := fromParts_ok h
  unfold TableD.ofParts at hf
  obtain ⟨like, hl, hf⟩ := Datatype.bind_ok hf
  split at hf
  · cases hf
  simp only [pure, Except.pure, Except.ok.injEq] at hf
  subst hf
  unfold Warn.table at hs
  rw [Bool.or_eq_false_iff] at hs
  unfold TableD.asdict at hj
  obtain ⟨l, i1, hj⟩ := Datatype.bind_ok hj
  obtain ⟨K, i2, hj⟩ := Datatype.bind_ok hj
  simp only [pure, Except.pure, Except.ok.injEq] at hj
  obtain ⟨w1, w2, -⟩ := like_written hlk (tn := "Table") (names := ["suppressOutput"]) (by decide +kernel) (by decide +kernel) hd hp hl hw hfin hs.1 hs.2 hund i1 i2
    (M := [("suppressOutput", _, _)]) rfl
  refine ⟨_, hj.symm, ?_⟩
  unfold Warn.table
  rw [w1, w2]
  rfl

theorem group_written (hlk : lk "utf-8".toList = .ok ()) {m : List (Str × J)} (hd : DistinctKeys (.obj m)) {g : GroupD}
    (h : GroupD.fromvalue ext x other lk (.obj m) = .ok g) (hw : LikeWritable ext g.like) (hwt : ∀ t ∈ g.tables, LikeWritable ext t.like)
    (hfin : FiniteLike g.like) (hft : ∀ t ∈ g.tables, FiniteLike t.like)
    (hs : Warn.group ext x other lk m = false) {od : Bool} (hund : od = false → x.tagOk "und".toList = true) {m' : List (Str × J)}
    (hm' : g.asdict ext od = .ok (.obj m')) : Warn.group ext x other lk m' = false := by
  obtain ⟨p, hp, hf⟩ := fromParts_ok h
  unfold GroupD.ofParts at hf
  obtain ⟨like, hl, hf⟩ := Datatype.bind_ok hf
  obtain ⟨ts, htb, hf⟩ := Datatype.bind_ok hf
  simp only [pure, Except.pure, Except.ok.injEq] at hf
  subst hf
  unfold Warn.group at hs
  simp only [Bool.or_eq_false_iff] at hs
  obtain ⟨⟨s1, s2⟩, s3⟩ := hs
  unfold GroupD.asdict at hm'
  obtain ⟨l, i1, hm'⟩ := Datatype.bind_ok hm'
  obtain ⟨K, i2, hm'⟩ := Datatype.bind_ok hm'
  obtain ⟨js, i3, hm'⟩ := Datatype.bind_ok hm'
  simp only [pure, Except.pure, Except.ok.injEq, J.obj.injEq] at hm'
  obtain ⟨w1, w2, L, hnd, w3⟩ := like_written hlk (tn := "TableGroup") (names := ["tables"]) (by decide +kernel) (by decide +kernel) hd hp hl hw hfin s1 s2 hund i1 i2
    (M := [("tables", .arr js, .arr [])]) rfl
  subst hm'
  unfold Warn.group
  rw [w1, w2, w3 _ (by decide)]
  refine (given_attr hnd (n := "tables") (v := .arr js) (d := .arr []) (by simp) fun _ => ?_)
  simp only [Warn.tables, List.any_eq_false, Bool.not_eq_true]
  intro j hj
  obtain ⟨t, ht, htj⟩ := mapRes_mem i3 j hj
  rw [own_get hd.nodup hp (by decide) (fun _ => by decide +kernel)] at htb
  unfold Warn.given at s3
  cases hg : Dict.get "tables".toList m with
  | none => rw [hg] at htb; cases htb; cases ht
  | some v =>
    rw [hg] at htb s3
    cases v with
    | arr lj =>
      obtain ⟨tm, htm, hf⟩ := mapObjs_mem htb t ht
      simp only [Warn.tables, List.any_eq_false] at s3
      have hdv : DistinctKeys (.arr lj) := by have := hd.arg "tables"; unfold argOf at this; rwa [hg] at this
      obtain ⟨m', rfl, hw'⟩ := table_written hlk (distinct_arr hdv _ htm) hf (hwt t ht) (hft t ht) (by simpa using s3 _ htm) hund htj
      exact hw'
    | obj o => cases htb; cases ht
    | str o => cases htb; cases ht
    | _ => cases htb

end
end Csvw
