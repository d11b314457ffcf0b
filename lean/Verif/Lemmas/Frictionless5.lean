import Verif.Lemmas.Frictionless4
/-!
# Lemmas about the conversion of frictionless data packages: tables and table groups
-/

namespace Csvw.Frictionless
open Spec Datatypes Csvw.Spec.Frictionless

variable {ext : Ext} {x : MExt} {other : Base → Derived → J → Res Val} {lk : EncLookup}

/-! ## Resources -/

theorem pathOf_cons {j : J} {rs : List J} {n p : J} (h : PathOf rs n p) : PathOf (j :: rs) n p := by
  obtain ⟨b, r, a, rfl, h⟩ := h
  exact ⟨j :: b, r, a, rfl, h⟩

theorem resourceMap_spec : ∀ {resources : List J} {rs : List (List (Str × J))} {rm : List (J × J)}, withPath resources = .ok rs →
    resourceMap rs = .ok rm → ∀ n, (∀ p, Dict.get n rm.reverse = some p → PathOf resources n p) ∧
      (Dict.get n rm.reverse = none → ∀ r, .obj r ∈ resources → prop "name" r = some n → prop "path" r = none)
  | [], rs, rm, h1, h2, n => by
    cases h1; cases h2; simp
  | j :: resources, rs, rm, h1, h2, n => by
    simp only [withPath] at h1
    split at h1
    · cases h1
    next m hm =>
    obtain rfl := asObj_ok hm
    obtain ⟨rs', hrs, rfl⟩ := Except.map_eq_ok.1 h1
    by_cases hp : Dict.has "path".toList m = true
    · rw [if_pos hp] at h2
      simp only [resourceMap] at h2
      obtain ⟨rest, hrest, h2⟩ := Datatype.bind_ok h2
      obtain ⟨ih1, ih2⟩ := resourceMap_spec hrs hrest n
      have hpath : prop "path" m = some (argOf "path" m) := by
        unfold prop argOf
        rw [has_eq] at hp
        obtain ⟨v, hv⟩ := Option.isSome_iff_exists.1 hp
        rw [hv]; rfl
      split at h2
      · next hn =>
        cases h2
        refine ⟨fun p hp => pathOf_cons (ih1 p hp), fun h r hr hnr => ?_⟩
        rcases List.mem_cons.1 hr with hr | hr
        · cases hr
          rw [show prop "name" m = none from hn] at hnr
          cases hnr
        · exact ih2 h r hr hnr
      · next n0 hn =>
        split at h2
        · cases h2
          rw [List.reverse_cons, Dict.get_append]
          cases hg : Dict.get n rest.reverse with
          | some p =>
            refine ⟨?_, fun h => by cases h⟩
            intro p' hp'
            cases hp'
            exact pathOf_cons (ih1 _ hg)
          | none =>
            simp only [Option.none_or]
            by_cases he : n0 = n
            · subst he
              have : Dict.get n0 [(n0, argOf "path" m)] = some (argOf "path" m) := by simp [Dict.get]
              rw [this]
              refine ⟨?_, fun h => by cases h⟩
              intro p hp
              cases hp
              exact ⟨[], m, resources, rfl, hn, hpath, fun r hr hnr => ih2 hg r hr hnr⟩
            · rw [get_cons_ne he]
              simp only [Dict.get_nil, reduceCtorEq, false_implies, implies_true, true_and]
              intro _ r hr hnr
              rcases List.mem_cons.1 hr with hr | hr
              · cases hr
                rw [show prop "name" m = some n0 from hn] at hnr
                simp only [Option.some.injEq] at hnr
                exact absurd hnr he
              · exact ih2 hg r hr hnr
        · cases h2
    · rw [if_neg hp] at h2
      obtain ⟨ih1, ih2⟩ := resourceMap_spec hrs h2 n
      refine ⟨fun p hp => pathOf_cons (ih1 p hp), fun h r hr hnr => ?_⟩
      rcases List.mem_cons.1 hr with hr | hr
      · cases hr
        unfold prop
        rw [has_eq] at hp
        cases hg : Dict.get "path".toList m with
        | none => rfl
        | some v => rw [hg] at hp; simp at hp
      · exact ih2 h r hr hnr

theorem mapOf {resources : List J} {rs : List (List (Str × J))} {rm : List (J × J)} (h1 : withPath resources = .ok rs)
    (h2 : resourceMap rs = .ok rm) : MapOf resources (Dict.ofPairs rm) := by
  intro n p hp
  unfold Dict.ofPairs at hp
  rw [Dict.get_update] at hp
  simp only [Dict.get_nil, Option.or_none] at hp
  exact (resourceMap_spec h1 h2 n).1 p hp

/-! ## Tables -/

theorem table_facts (hlk : lk "utf-8".toList = .ok ()) {resources : List J} {rsc : List (Str × J)} {rm : List (J × J)} (hrm : MapOf resources rm)
    (htab : Tabular rsc) {b : J} (h : convertResource rm rsc = .ok b) {t : TableD} (ht : TableD.fromvalue ext x other lk b = .ok t) :
    ResourceTable ext other lk resources rsc t ∧ Bare t.like.props ∧ Bare t.like.schema.props ∧
      ∀ schema fields, prop "schema" rsc = some (.obj schema) → prop "fields" schema = some (.arr fields) →
        All2 (fun j c => ∃ f, j = .obj f ∧ FieldColumn ext other f c ∧ BareCol f c.props) fields t.like.schema.columns := by
  unfold convertResource at h
  obtain ⟨sj, hsj, h⟩ := Datatype.bind_ok h
  obtain ⟨dj, hdj, h⟩ := Datatype.bind_ok h
  cases h
  unfold TableD.fromvalue at ht
  obtain ⟨p, hp, ht⟩ := fromParts_ok ht
  have hn : (Dict.keys [("url".toList, argOf "path" rsc), ("tableSchema".toList, sj), ("dialect".toList, dj)]).Nodup := by
    have : Dict.keys [("url".toList, argOf "path" rsc), ("tableSchema".toList, sj), ("dialect".toList, dj)] =
      ["url".toList, "tableSchema".toList, "dialect".toList] := rfl
    rw [this]; decide
  have ga : ∀ k : String, OwnProperty k.toList → k.toList ∈ tableFields →
      argOf k p.own = argOf k [("url".toList, argOf "path" rsc), ("tableSchema".toList, sj), ("dialect".toList, dj)] :=
    fun k h1 h2 => own_arg hn hp h1 (fun _ => h2)
  unfold TableD.ofParts at ht
  obtain ⟨like, hlike, ht⟩ := Datatype.bind_ok ht
  split at ht
  · cases ht
  next hurl =>
  cases ht
  unfold TableLike.ofParts at hlike
  obtain ⟨d, hd, hlike⟩ := Datatype.bind_ok hlike
  obtain ⟨dialect, hdialect, hlike⟩ := Datatype.bind_ok hlike
  obtain ⟨dir, hdir, hlike⟩ := Datatype.bind_ok hlike
  obtain ⟨s, hs, hlike⟩ := Datatype.bind_ok hlike
  obtain ⟨tr, htr, hlike⟩ := Datatype.bind_ok hlike
  obtain ⟨url, hu, hlike⟩ := Datatype.bind_ok hlike
  obtain ⟨ap, hap, hlike⟩ := Datatype.bind_ok hlike
  cases hlike
  rw [ga "dialect" (by decide) (by decide)] at hdialect
  rw [ga "tableSchema" (by decide) (by decide)] at hs
  rw [ga "url" (by decide) (by decide)] at hu
  have hdialect : convDialect lk x dj = .ok dialect := hdialect
  have hs : Schema.fromvalue ext x other sj = .ok s := hs
  have hu : convLink (argOf "path" rsc) = .ok url := hu
  simp only at hurl
  obtain ⟨schema, hsch, sf⟩ := schema_facts hrm hsj hs
  obtain ⟨q, hq1, hq2⟩ := htab.2.1
  have hschema : prop "schema" rsc = some (.obj schema) := by
    have : argOf "schema" rsc = q := by unfold argOf; rw [show Dict.get "schema".toList rsc = some q from hq1]; rfl
    rw [hq1, ← this, hsch]
  have uniq : ∀ schema', prop "schema" rsc = some (.obj schema') → schema' = schema := by
    intro schema' h
    rw [hschema] at h
    cases h; rfl
  have hbare := bare_of hd fun k hk => by
    have hno : OwnProperty k.toList ∧ k.toList ∈ tableFields ∧ k.toList ∉ ["url".toList, "tableSchema".toList, "dialect".toList] := by
      revert k
      decide
    rw [ga k hno.1 hno.2.1]
    unfold argOf
    rw [(Dict.get_eq_none_iff _ _).2 fun hm => hno.2.2 hm]
    rfl
  unfold Descr.ofParts at hd
  obtain ⟨d0, hd0, rfl⟩ := Except.map_eq_ok.1 hd
  unfold Descr.construct at hd0
  obtain ⟨dtv, hdtv, hd0⟩ := Datatype.bind_ok hd0
  cases hd0
  obtain ⟨fields, hf, hall⟩ := sf.columns
  refine ⟨⟨?_, ⟨schema, fields, hschema, hf, ?_⟩, ?_, ?_, ?_, ?_, ?_⟩, ⟨hbare.required, hbare.aboutUrl, hbare.valueUrl, hbare.propertyUrl, hbare.datatype⟩, sf.bare, ?_⟩
  · cases hpth : argOf "path" rsc with
    | str q => rw [hpth] at hu; cases hu; exact ⟨q, arg_prop.1 hpth, rfl⟩
    | null => rw [hpth] at hu; cases hu; exact absurd rfl hurl
    | _ => rw [hpth] at hu; cases hu
  · refine All2_imp ?_ hall
    rintro j c ⟨f, h1, h2, -⟩
    exact ⟨f, h1, h2⟩
  · intro schema' j l h1 h2 h3 h4
    obtain rfl := uniq _ h1
    exact sf.primaryKey j l h2 h3 h4
  · intro schema' l h1 h2
    obtain rfl := uniq _ h1
    exact sf.null l h2
  · intro schema' h1 h2
    obtain rfl := uniq _ h1
    exact sf.noForeignKeys h2
  · intro schema' l h1 h2
    obtain rfl := uniq _ h1
    exact sf.foreignKeys l h2
  · exact dialect_same hlk hdj hdialect
  · intro schema' fields' h1 h2
    obtain rfl := uniq _ h1
    rw [hf] at h2
    cases h2
    exact hall

/-! ## The table group -/

theorem isTabular_iff {rsc : List (Str × J)} (hp : Dict.has "path".toList rsc = true) : isTabular rsc = true ↔ Tabular rsc := by
  unfold isTabular Tabular
  simp only [Bool.and_eq_true, decide_eq_true_eq, arg_prop]
  have h1 : prop "path" rsc ≠ none := by
    rw [has_eq] at hp
    intro h
    rw [show Dict.get "path".toList rsc = none from h] at hp
    cases hp
  have h2 : (argOf "schema" rsc).truthy = true ↔ ∃ j, prop "schema" rsc = some j ∧ j.truthy = true := by
    unfold argOf prop
    cases Dict.get "schema".toList rsc <;> simp [J.truthy]
  rw [h2]
  constructor
  · rintro ⟨⟨a, b⟩, c⟩; exact ⟨h1, a, b, c⟩
  · rintro ⟨-, a, b, c⟩; exact ⟨⟨a, b⟩, c⟩

theorem convertResources_all2 {rm : List (J × J)} : ∀ {resources : List J} {rs : List (List (Str × J))} {ts : List J}, withPath resources = .ok rs →
    convertResources rm rs = .ok ts → All2 (fun r b => Tabular r ∧ convertResource rm r = .ok b) (tabular resources) ts
  | [], rs, ts, h1, h2 => by cases h1; cases h2; exact .nil
  | j :: resources, rs, ts, h1, h2 => by
    simp only [withPath] at h1
    split at h1
    · cases h1
    next m hm =>
    obtain rfl := asObj_ok hm
    obtain ⟨rs', hrs, rfl⟩ := Except.map_eq_ok.1 h1
    have hcons : tabular (J.obj m :: resources) = if Tabular m then m :: tabular resources else tabular resources := by
      unfold tabular
      rw [List.filterMap_cons]
      by_cases ht : Tabular m
      · simp only [if_pos ht]
      · simp only [if_neg ht]
    rw [hcons]
    by_cases hp : Dict.has "path".toList m = true
    · rw [if_pos hp] at h2
      simp only [convertResources] at h2
      split at h2
      · next ht =>
        obtain ⟨t, h3, h2⟩ := Datatype.bind_ok h2
        obtain ⟨ts', h4, h2⟩ := Datatype.bind_ok h2
        cases h2
        rw [if_pos ((isTabular_iff hp).1 ht)]
        exact .cons ⟨(isTabular_iff hp).1 ht, h3⟩ (convertResources_all2 hrs h4)
      · next ht =>
        rw [if_neg (fun h => ht ((isTabular_iff hp).2 h))]
        exact convertResources_all2 hrs h2
    · rw [if_neg hp] at h2
      rw [if_neg]
      · exact convertResources_all2 hrs h2
      · intro ht
        apply hp
        rw [has_eq]
        exact Option.isSome_iff_ne_none.2 ht.1

theorem meta_keys {dumps : J → Str} {pkg : List (Str × J)} : (Dict.keys (packageMeta dumps pkg)).Nodup ∧
    ∀ k ∈ Dict.keys (packageMeta dumps pkg), k = "@context".toList ∨ CommonProperty k := by
  have set : ∀ {k : Str} {v : J} {md : List (Str × J)}, CommonProperty k →
      ((Dict.keys md).Nodup ∧ ∀ k ∈ Dict.keys md, k = "@context".toList ∨ CommonProperty k) →
      (Dict.keys (Dict.set k v md)).Nodup ∧ ∀ k' ∈ Dict.keys (Dict.set k v md), k' = "@context".toList ∨ CommonProperty k' := by
    intro k v md hk ⟨h1, h2⟩
    refine ⟨Dict.nodup_keys_set h1, ?_⟩
    intro k' hk'
    rcases (Dict.mem_keys_set _ _ _ _).1 hk' with h | h
    · exact .inr (h ▸ hk)
    · exact h2 k' h
  have fold : ∀ (ps : List (String × String)) (md : List (Str × J)), (∀ q ∈ ps, CommonProperty q.2.toList) →
      ((Dict.keys md).Nodup ∧ ∀ k ∈ Dict.keys md, k = "@context".toList ∨ CommonProperty k) →
      (Dict.keys (ps.foldl (copyMeta pkg) md)).Nodup ∧ ∀ k ∈ Dict.keys (ps.foldl (copyMeta pkg) md), k = "@context".toList ∨ CommonProperty k := by
    intro ps
    induction ps with
    | nil => intro md _ h; exact h
    | cons q ps ih =>
      intro md hq h
      refine ih _ (fun q hm => hq q (List.mem_cons_of_mem _ hm)) ?_
      unfold copyMeta
      split
      · exact set (hq q List.mem_cons_self) h
      · exact h
  have h0 := fold packageProps [("@context".toList, .str "http://www.w3.org/ns/csvw".toList), ("dc:replaces".toList, .str (dumps (.obj pkg)))]
    (by decide) ⟨by
      have : Dict.keys [("@context".toList, J.str "http://www.w3.org/ns/csvw".toList), ("dc:replaces".toList, .str (dumps (.obj pkg)))] =
        ["@context".toList, "dc:replaces".toList] := rfl
      rw [this]; decide, by
      intro k hk
      have : Dict.keys [("@context".toList, J.str "http://www.w3.org/ns/csvw".toList), ("dc:replaces".toList, .str (dumps (.obj pkg)))] =
        ["@context".toList, "dc:replaces".toList] := rfl
      rw [this] at hk
      rcases List.mem_cons.1 hk with h | h
      · exact .inl h
      · rw [List.mem_singleton] at h; right; rw [h]; decide⟩
  unfold packageMeta nameMeta
  split
  · exact h0
  · split
    · exact set (by decide) h0
    · split
      · exact set (by decide) h0
      · exact h0

theorem resources_of {pkg : List (Str × J)} {rs : List (List (Str × J))} (h : resourcesOf pkg = .ok rs) : withPath (resources pkg) = .ok rs := by
  unfold resourcesOf at h
  unfold resources prop
  split at h
  · next hr => rw [hr]; cases h; rfl
  · next j hr =>
    rw [hr]
    obtain ⟨l, hl, h⟩ := Datatype.bind_ok h
    obtain rfl := asArr_ok hl
    exact h

theorem group_facts (hlk : lk "utf-8".toList = .ok ()) {dumps : J → Str} {pkg : J} {g : GroupD}
    (h : toTablegroup ext x other lk dumps pkg = .ok g) : ∃ m, pkg = .obj m ∧
    All2 (fun rsc t => Tabular rsc ∧ ResourceTable ext other lk (resources m) rsc t ∧ Bare t.like.props ∧ Bare t.like.schema.props ∧
      ∀ schema fields, prop "schema" rsc = some (.obj schema) → prop "fields" schema = some (.arr fields) →
        All2 (fun j c => ∃ f, j = .obj f ∧ FieldColumn ext other f c ∧ BareCol f c.props) fields t.like.schema.columns)
      (tabular (resources m)) g.tables ∧
    (Bare g.like.props ∧ g.like.dialect = none ∧ g.like.schema = {}) ∧ ∀ k v, Dict.get k (packageMeta dumps m) = some v → CommonProperty k →
      ∃ v', Dict.get k g.like.props.common = some v' ∧ validCommon x v = .ok v' := by
  unfold toTablegroup at h
  obtain ⟨m, hm, h'⟩ := Datatype.bind_ok h
  obtain rfl := asObj_ok hm
  refine ⟨m, rfl, ?_⟩
  obtain ⟨md, hmd, hg⟩ := Datatype.bind_ok h'
  clear h h'
  unfold convertPackage at hmd
  obtain ⟨rs, hrs, hmd⟩ := Datatype.bind_ok hmd
  obtain ⟨rm, hrm, hmd⟩ := Datatype.bind_ok hmd
  obtain ⟨ts, hts, hmd⟩ := Datatype.bind_ok hmd
  cases hmd
  have hw := resources_of hrs
  have hmap := mapOf hw hrm
  unfold GroupD.fromvalue at hg
  obtain ⟨p, hp, hg⟩ := fromParts_ok hg
  obtain ⟨hk1, hk2⟩ := meta_keys (dumps := dumps) (pkg := m)
  have hnt : ∀ k, k ∈ Dict.keys (if ts = [] then [] else [("tables".toList, J.arr ts)]) → k = "tables".toList := by
    intro k hk
    split at hk
    · cases hk
    · simpa [Dict.keys] using hk
  have hnot : ∀ k, OwnProperty k → k ∉ Dict.keys (packageMeta dumps m) := by
    intro k hk hm
    rcases hk2 k hm with h | h
    · rw [h] at hk; revert hk; decide
    · exact hk.2 h.2
  have hn : (Dict.keys (packageMeta dumps m ++ (if ts = [] then [] else [("tables".toList, J.arr ts)]))).Nodup := by
    unfold Dict.keys at hk1 hnt hnot ⊢
    rw [List.map_append, List.nodup_append]
    refine ⟨hk1, ?_, ?_⟩
    · split <;> simp
    · intro a ha b hb hab
      subst hab
      exact hnot _ (hnt a hb ▸ by decide) ha
  have htab : Dict.get "tables".toList p.own = if ts = [] then none else some (.arr ts) := by
    rw [own_get hn hp (by decide) (by decide), Dict.get_append, (Dict.get_eq_none_iff _ _).2 (hnot _ (by decide))]
    split <;> rfl
  have hreq : ∀ k ∈ ["required", "aboutUrl", "valueUrl", "propertyUrl", "datatype", "dialect", "tableSchema"], argOf k p.own = .null := by
    intro k hk
    have hno : OwnProperty k.toList ∧ k.toList ∈ groupFields ∧ k.toList ≠ "tables".toList := by
      revert k
      decide
    unfold argOf
    rw [own_get hn hp hno.1 (fun _ => hno.2.1), Dict.get_append, (Dict.get_eq_none_iff _ _).2 (hnot _ hno.1)]
    split
    · rfl
    · rw [get_cons_ne (Ne.symm hno.2.2)]
      rfl
  unfold GroupD.ofParts at hg
  obtain ⟨like, hlike, hg⟩ := Datatype.bind_ok hg
  obtain ⟨tables, htables, hg⟩ := Datatype.bind_ok hg
  cases hg
  rw [htab] at htables
  have a1 := convertResources_all2 hw hts
  unfold TableLike.ofParts at hlike
  obtain ⟨d, hd, hlike⟩ := Datatype.bind_ok hlike
  obtain ⟨dialect, hdialect, hlike⟩ := Datatype.bind_ok hlike
  obtain ⟨dir, hdir, hlike⟩ := Datatype.bind_ok hlike
  obtain ⟨s, hs, hlike⟩ := Datatype.bind_ok hlike
  obtain ⟨tr, htr, hlike⟩ := Datatype.bind_ok hlike
  obtain ⟨url, hu, hlike⟩ := Datatype.bind_ok hlike
  obtain ⟨ap, hap, hlike⟩ := Datatype.bind_ok hlike
  cases hlike
  have hbare := bare_of hd fun k hk => hreq k (by revert k; decide)
  unfold Descr.ofParts at hd
  obtain ⟨d0, hd0, rfl⟩ := Except.map_eq_ok.1 hd
  unfold Descr.construct at hd0
  obtain ⟨dtv, hdtv, hd0⟩ := Datatype.bind_ok hd0
  cases hd0
  rw [hreq "dialect" (by decide)] at hdialect
  cases hdialect
  rw [hreq "tableSchema" (by decide)] at hs
  cases hs
  refine ⟨?_, ⟨⟨hbare.required, hbare.aboutUrl, hbare.valueUrl, hbare.propertyUrl, hbare.datatype⟩, rfl, rfl⟩, ?_⟩
  · have a2 : All2 (fun j t => TableD.fromvalue ext x other lk j = .ok t) ts tables := by
      cases ts with
      | nil => cases htables; exact .nil
      | cons b r =>
        rw [if_neg (by simp)] at htables
        refine All2_imp ?_ (mapObjs_all2 (l := b :: r) (as := tables) (f := fun m => TableD.fromvalue ext x other lk (.obj m)) ?_ htables)
        · rintro j t ⟨m, rfl, h⟩; exact h
        · intro j hj
          obtain ⟨a, -, -, ha⟩ := All2_mem_right a1 j hj
          unfold convertResource at ha
          obtain ⟨_, _, ha⟩ := Datatype.bind_ok ha
          obtain ⟨_, _, ha⟩ := Datatype.bind_ok ha
          cases ha
          exact ⟨_, rfl⟩
    refine All2_imp ?_ (All2_trans a1 a2)
    rintro rsc t ⟨b, ⟨h1, h2⟩, h3⟩
    exact ⟨h1, table_facts hlk hmap h1 h2 h3⟩
  · intro k v hv hk
    exact common_get hn hp hk (by rw [Dict.get_append, hv]; rfl)

end Csvw.Frictionless
