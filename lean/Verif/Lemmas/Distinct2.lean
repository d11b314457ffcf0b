import Verif.Lemmas.Distinct
import Verif.Lemmas.Frictionless4
/-!
# The keys of written descriptions are distinct: the descriptions
-/

namespace Csvw
open Csvw.Spec Datatypes

section
variable {ext : Ext} {x : MExt} {other : Base → Derived → J → Res Val} {lk : EncLookup}

theorem distinctVals_append {a b : List (Str × J)} (ha : DistinctVals a) (hb : DistinctVals b) : DistinctVals (a ++ b) := by
  intro k v hm
  rcases List.mem_append.1 hm with h | h
  · exact ha _ _ h
  · exact hb _ _ h

/-! ## Datatypes -/

theorem datatype_kept {j : J} (hd : DistinctKeys j) {dt : Datatype} (h : Datatype.fromvalue ext x other j = .ok dt) :
    GoodParts x "Datatype".toList dt.atProps dt.common ∧ DistinctVals dt.atProps ∧ DistinctVals dt.common ∧ DistinctKeys dt.format := by
  obtain ⟨-, -, hg⟩ := fromvalue_built hd h
  refine ⟨hg, ?_⟩
  have key : ∀ {m : List (Str × J)}, DistinctKeys (.obj m) → Datatype.fromvalue ext x other (.obj m) = .ok dt →
      DistinctVals dt.atProps ∧ DistinctVals dt.common ∧ DistinctKeys dt.format := by
    intro m hd h
    unfold Datatype.fromvalue at h
    obtain ⟨o, ho, h⟩ := Datatype.bind_ok h
    cases o with
    | none => cases h
    | some p =>
      have hd' := distinct_setdefault (k := "base".toList) (.str "string".toList) hd
      obtain ⟨g1, g2⟩ := parts_distinct hd' ho
      have hown := own_distinct hd' ho
      simp only at h
      obtain ⟨l1, -, h⟩ := Datatype.bind_ok h
      obtain ⟨l2, -, h⟩ := Datatype.bind_ok h
      obtain ⟨l3, -, h⟩ := Datatype.bind_ok h
      have hb := Datatype.built_of_construct h
      obtain ⟨d, -, ⟨bad, -, hf⟩, -⟩ := hb.descr
      rw [hb.atProps, hb.common, hf]
      refine ⟨g1, g2, ?_⟩
      split
      · exact .null
      · exact argOf_distinct hown _
  cases j with
  | str s =>
    rw [Datatype.fromvalue_str] at h
    refine key (.obj (by simp) ?_) h
    intro k v hm
    simp only [List.mem_singleton, Prod.mk.injEq] at hm
    rw [hm.2]; exact .str _
  | obj m => exact key hd h
  | _ => cases h

theorem boundItem_distinct {dt : Datatype} {n : String} {v : Option Val} {l : List (Str × J)} (h : boundItem ext dt n v = .ok l) :
    (l = [] ∨ ∃ s, l = [(n.toList, .str s)]) := by
  unfold boundItem at h
  split at h
  · cases h; exact .inl rfl
  · split at h
    · cases h; exact .inl rfl
    · obtain ⟨s, -, rfl⟩ := Except.map_eq_ok.1 h
      exact .inr ⟨s, rfl⟩

theorem datatype_distinct {j : J} (hd : DistinctKeys j) {dt : Datatype} (h : Datatype.fromvalue ext x other j = .ok dt) {w : J}
    (hw : dt.asdict ext = .ok w) : DistinctKeys w := by
  obtain ⟨hg, ha, hc, hf⟩ := datatype_kept hd h
  unfold Datatype.asdict at hw
  obtain ⟨b1, i1, hw⟩ := Datatype.bind_ok hw
  obtain ⟨b2, i2, hw⟩ := Datatype.bind_ok hw
  obtain ⟨b3, i3, hw⟩ := Datatype.bind_ok hw
  obtain ⟨b4, i4, hw⟩ := Datatype.bind_ok hw
  obtain ⟨b5, i5, hw⟩ := Datatype.bind_ok hw
  obtain ⟨b6, i6, hw⟩ := Datatype.bind_ok hw
  simp only at hw
  have bd : ∀ {n v l}, boundItem ext dt n v = .ok l → (Dict.keys l).Sublist [n.toList] ∧ DistinctVals l := by
    intro n v l hb
    rcases boundItem_distinct hb with rfl | ⟨s, rfl⟩
    · exact ⟨List.nil_sublist _, fun k v hm => (by cases hm)⟩
    · refine ⟨List.Sublist.refl _, fun k v hm => ?_⟩
      simp only [List.mem_singleton, Prod.mk.injEq] at hm
      rw [hm.2]; exact .str _
  have hoi : ∀ o, DistinctKeys (J.ofOptInt o) := by
    intro o
    cases o
    · exact .null
    · exact .int _
  have hsub : ∀ A : List (String × J × J), (Dict.keys (attrItems true A ++ (b1 ++ (b2 ++ (b3 ++ (b4 ++ (b5 ++ b6))))))).Sublist
      ((A.map fun e => e.1.toList) ++ (["minimum".toList] ++ (["maximum".toList] ++ (["minInclusive".toList] ++ (["maxInclusive".toList] ++
        (["minExclusive".toList] ++ ["maxExclusive".toList])))))) := by
    intro A
    simp only [Dict.keys, List.map_append]
    refine List.Sublist.append ?_ (List.Sublist.append (bd i1).1 (List.Sublist.append (bd i2).1 (List.Sublist.append (bd i3).1
      (List.Sublist.append (bd i4).1 (List.Sublist.append (bd i5).1 (bd i6).1)))))
    unfold attrItems
    rw [List.map_map]
    exact List.Sublist.map _ List.filter_sublist
  have hv : ∀ A : List (String × J × J), (∀ e ∈ A, DistinctKeys e.2.1) →
      DistinctVals (attrItems true A ++ (b1 ++ (b2 ++ (b3 ++ (b4 ++ (b5 ++ b6)))))) := fun A hA =>
    distinctVals_append (distinct_attrItems hA) (distinctVals_append (bd i1).2 (distinctVals_append (bd i2).2 (distinctVals_append (bd i3).2
      (distinctVals_append (bd i4).2 (distinctVals_append (bd i5).2 (bd i6).2)))))
  have hall := distinct_asdict (own := attrItems true
    [("base", .str dt.base.name.toList, .null), ("format", dt.format, .null), ("length", .ofOptInt dt.length, .null),
     ("minLength", .ofOptInt dt.minLength, .null), ("maxLength", .ofOptInt dt.maxLength, .null)] ++ (b1 ++ (b2 ++ (b3 ++ (b4 ++ (b5 ++ b6)))))) hg ha hc
    (List.Nodup.sublist (hsub _) (by simp only [List.map_cons, List.map_nil]; decide +kernel))
    (by
      intro e he
      have := (hsub _).subset (List.mem_map_of_mem (f := Prod.fst) he)
      revert this
      generalize e.1 = k
      have : ∀ k ∈ (["base", "format", "length", "minLength", "maxLength", "minimum", "maximum", "minInclusive", "maxInclusive", "minExclusive",
        "maxExclusive"].map String.toList), OwnProperty k := by decide +kernel
      exact this k)
    (hv _ (by
      intro e he
      simp only [List.mem_cons, List.not_mem_nil, or_false] at he
      rcases he with rfl | rfl | rfl | rfl | rfl
      · exact .str _
      · exact hf
      · exact hoi _
      · exact hoi _
      · exact hoi _))
  split at hw
  · next k v he =>
    rw [he] at hall
    have hvv : DistinctKeys v := by
      cases hall with
      | obj _ h => exact h k v (List.mem_singleton_self _)
    split at hw
    · cases hw; exact hvv
    · cases hw; exact hall
  · cases hw; exact hall

/-! ## Inherited properties -/

theorem tmpl_distinct {j w : J} (h : tmplJson (convTmpl j) = .ok w) : DistinctKeys w := by
  rcases convTmpl_cases j with h' | ⟨s, h'⟩ | h' <;> rw [h'] at h <;> cases h
  · exact .null
  · exact .str _

theorem descr_distinct {fields : List Str} {tn : Str} {d : J} (hd : DistinctKeys d) {p : Parts}
    (hp : partitionProperties x fields tn true d = .ok (some p)) {D : Descr} (hD : Descr.ofParts ext x other p = .ok D) :
    GoodParts x tn D.atProps D.common ∧ DistinctVals D.atProps ∧ DistinctVals D.common ∧
    ∀ {od l}, D.items ext od = .ok l → ∃ L : List (String × J × J), l = attrItems od L ∧
      L.map (fun e => e.1.toList) = inheritedNames.map String.toList ∧ ∀ e ∈ L, DistinctKeys e.2.1 := by
  have hown := own_distinct hd hp
  obtain ⟨g1, g2⟩ := parts_distinct hd hp
  obtain ⟨gg, -⟩ := goodParts hd hp
  unfold Descr.ofParts at hD
  obtain ⟨d0, hd0, rfl⟩ := Except.map_eq_ok.1 hD
  refine ⟨gg, g1, g2, ?_⟩
  intro od l hl
  unfold Descr.construct at hd0
  obtain ⟨v, hv, hd0⟩ := Datatype.bind_ok hd0
  simp only [pure, Except.pure, Except.ok.injEq] at hd0
  subst hd0
  unfold Descr.items at hl
  obtain ⟨ja, ha, hl⟩ := Datatype.bind_ok hl
  obtain ⟨jd, hdt, hl⟩ := Datatype.bind_ok hl
  obtain ⟨jp, hpu, hl⟩ := Datatype.bind_ok hl
  obtain ⟨jv, hvu, hl⟩ := Datatype.bind_ok hl
  simp only [pure, Except.pure, Except.ok.injEq] at hl
  refine ⟨_, hl.symm, rfl, ?_⟩
  intro e he
  have arg := fun n => argOf_distinct hown n
  simp only [List.mem_cons, List.not_mem_nil, or_false] at he
  rcases he with rfl | rfl | rfl | rfl | rfl | rfl | rfl | rfl | rfl | rfl | rfl
  · exact tmpl_distinct ha
  · simp only
    unfold convDatatype at hv
    split at hv
    · obtain ⟨dt, hf, rfl⟩ := Except.map_eq_ok.1 hv
      exact datatype_distinct (arg _) hf hdt
    · cases hv; cases hdt; exact arg _
  · exact .str _
  · simp only
    cases Dict.get "lang".toList p.own with
    | none => exact .str _
    | some j => obtain ⟨s, hs, -⟩ := convLang_str (x := x) j; simp only [Option.map_some, Option.getD_some, hs]; exact .str _
  · exact distinct_strs _
  · exact distinct_converter (.bool _) (arg _)
  · exact tmpl_distinct hpu
  · exact arg _
  · exact distinct_converter .null (arg _)
  · exact distinct_converter .null (arg _)
  · exact tmpl_distinct hvu

/-- Writing a description with the inherited properties and others. -/
theorem written_distinct {tn : Str} {D : Descr} {a : List (Str × J)} {od : Bool} {L M : List (String × J × J)} {names : List String}
    (hg : GoodParts x tn a D.common) (ha : DistinctVals a) (hc : DistinctVals D.common)
    (hL : L.map (fun e => e.1.toList) = inheritedNames.map String.toList) (hLd : ∀ e ∈ L, DistinctKeys e.2.1)
    (hM : M.map (fun e => e.1.toList) = names.map String.toList) (hMd : ∀ e ∈ M, DistinctKeys e.2.1)
    (hnd : ((inheritedNames ++ names).map String.toList).Nodup) (ho : ∀ k ∈ (inheritedNames ++ names).map String.toList, OwnProperty k) :
    DistinctKeys (.obj (asdictOf a D.common (attrItems od L ++ attrItems od M))) := by
  rw [← attrItems_append]
  have hLM : (L ++ M).map (fun e => e.1.toList) = (inheritedNames ++ names).map String.toList := by
    rw [List.map_append, hL, hM, List.map_append]
  refine distinct_asdict hg ha hc (attrItems_nodup (by rw [hLM]; exact hnd)) ?_ (distinct_attrItems ?_)
  · intro e he
    have := attrItems_keys he
    rw [hLM] at this
    exact ho _ this
  · intro e he
    rcases List.mem_append.1 he with h | h
    · exact hLd e h
    · exact hMd e h

/-! ## Columns -/

theorem unlist_distinct (l : List Str) : DistinctKeys (unlist l) := by
  unfold unlist
  split
  · exact .str _
  · exact distinct_strs _

theorem ofPairs_all {κ α : Type} [DecidableEq κ] {P : α → Prop} {l : List (κ × α)} (h : ∀ e ∈ l, P e.2) : ∀ e ∈ Dict.ofPairs l, P e.2 := by
  intro e he
  have hg := Dict.get_of_mem_nodup (Dict.nodup_keys_ofPairs l) (show (e.1, e.2) ∈ Dict.ofPairs l from he)
  unfold Dict.ofPairs at hg
  have : ∀ (l d : List (κ × α)), (∀ e ∈ l, P e.2) → (∀ k v, Dict.get k d = some v → P v) → ∀ k v, Dict.get k (Dict.update d l) = some v → P v := by
    intro l
    induction l with
    | nil => intro d _ hd; exact hd
    | cons a r ih =>
      intro d hl hd
      have : Dict.update d (a :: r) = Dict.update (Dict.set a.1 a.2 d) r := by cases a; rfl
      rw [this]
      refine ih _ (fun e he => hl e (List.mem_cons_of_mem _ he)) ?_
      intro k v hk
      by_cases h : a.1 = k
      · subst h
        rw [Dict.get_set_self] at hk
        cases hk
        exact hl a (List.mem_cons_self ..)
      · rw [Dict.get_set_ne h] at hk
        exact hd k v hk
  exact this l [] h (fun k v hk => by simp [Dict.get] at hk) _ _ hg

theorem natlang_distinct (n : NatLang) : DistinctKeys n.asdict := by
  unfold NatLang.asdict
  split
  · exact unlist_distinct _
  · refine .obj (Dict.nodup_keys_ofPairs _) fun k v hm => ?_
    refine ofPairs_all (P := DistinctKeys) ?_ (k, v) hm
    intro e he
    obtain ⟨f, -, rfl⟩ := List.mem_map.1 he
    exact unlist_distinct _

theorem column_distinct {d : J} (hd : DistinctKeys d) {c : Column} (h : Column.fromvalue ext x other d = .ok c) {n : Nat} {od : Bool} {w : J}
    (hw : ({ c with number := n } : Column).asdict ext od = .ok w) : DistinctKeys w := by
  obtain ⟨p, hp, hf⟩ := fromParts_ok h
  unfold Column.ofParts at hf
  obtain ⟨D, hD, hf⟩ := Datatype.bind_ok hf
  obtain ⟨name, -, hf⟩ := Datatype.bind_ok hf
  obtain ⟨so, -, hf⟩ := Datatype.bind_ok hf
  obtain ⟨vi, -, hf⟩ := Datatype.bind_ok hf
  simp only [pure, Except.pure, Except.ok.injEq] at hf
  subst hf
  obtain ⟨g, ga, gc, gi⟩ := descr_distinct hd hp hD
  unfold Column.asdict at hw
  obtain ⟨l, hl, hw⟩ := Datatype.bind_ok hw
  simp only [pure, Except.pure, Except.ok.injEq] at hw
  subst hw
  obtain ⟨L, rfl, hL, hLd⟩ := gi hl
  refine written_distinct (names := ["name", "suppressOutput", "titles", "virtual"]) g ga gc hL hLd rfl ?_ (by decide +kernel) (by decide +kernel)
  intro e he
  simp only [List.mem_cons, List.not_mem_nil, or_false] at he
  rcases he with rfl | rfl | rfl | rfl
  · exact distinct_ofOptStr _
  · exact .bool _
  · simp only
    cases convTitles x (argOf "titles" p.own) with
    | none => exact .null
    | some t => exact natlang_distinct t
  · exact .bool _

/-! ## Schemas -/

theorem attrs_distinct {od : Bool} {A : List (String × J × J)} (hn : (A.map fun e => e.1.toList).Nodup) (hv : ∀ e ∈ A, DistinctKeys e.2.1) :
    DistinctKeys (.obj (attrItems od A)) := .obj (attrItems_nodup hn) (distinct_attrItems hv)

theorem fk_distinct (od : Bool) (k : ForeignKey) : DistinctKeys (k.asdict od) := by
  have h2 : DistinctKeys (.obj (attrItems od
      [("resource", .ofOptStr k.resource, .null), ("schemaReference", .ofOptStr k.schemaReference, .null),
       ("columnReference", .arr (k.refColumns.map .str), .null)])) := by
    refine attrs_distinct (by simp only [List.map_cons, List.map_nil]; decide +kernel) ?_
    intro e he
    simp only [List.mem_cons, List.not_mem_nil, or_false] at he
    rcases he with rfl | rfl | rfl
    · exact distinct_ofOptStr _
    · exact distinct_ofOptStr _
    · exact distinct_strs _
  unfold ForeignKey.asdict
  have hsub : (Dict.keys (attrItems od [("columnReference", .arr (k.columnReference.map .str), .null)])).Sublist ["columnReference".toList] := by
    unfold attrItems Dict.keys
    rw [List.filter_cons]
    split
    · simp only [List.filter_nil, List.map_cons, List.map_nil]; exact List.Sublist.refl _
    · exact List.nil_sublist _
  refine .obj ?_ ?_
  · rw [List.map_append]
    refine List.Nodup.sublist (List.Sublist.append hsub (List.Sublist.refl _)) ?_
    simp only [List.map_cons, List.map_nil, List.singleton_append]
    decide +kernel
  · refine distinctVals_append (distinct_attrItems ?_) ?_
    · intro e he
      simp only [List.mem_cons, List.not_mem_nil, or_false] at he
      subst he
      exact distinct_strs _
    · intro k' v hm
      simp only [List.mem_singleton, Prod.mk.injEq] at hm
      rw [hm.2]
      exact h2

theorem ofOptStrs_distinct (o : Option (List Str)) : DistinctKeys (J.ofOptStrs o) := by
  cases o
  · exact .null
  · exact distinct_strs _

theorem schema_distinct {d : J} (hd : DistinctKeys d) {s : Schema} (h : Schema.fromvalue ext x other d = .ok s) {od : Bool} {w : J}
    (hw : s.asdict ext od = .ok w) : DistinctKeys w := by
  obtain ⟨d', hd', h⟩ : ∃ d', DistinctKeys d' ∧ fromParts x schemaFields "Schema" (Schema.ofParts ext x other) d' = .ok s := by
    unfold Schema.fromvalue at h
    split at h
    · cases h
    · exact ⟨_, hd, h⟩
    · exact ⟨_, .obj (by simp [Dict.keys]) (by simp), h⟩
  obtain ⟨p, hp, hf⟩ := fromParts_ok h
  have hown := own_distinct hd' hp
  unfold Schema.ofParts at hf
  obtain ⟨D, hD, hf⟩ := Datatype.bind_ok hf
  obtain ⟨cols, h1, hf⟩ := Datatype.bind_ok hf
  obtain ⟨fks, h2, hf⟩ := Datatype.bind_ok hf
  obtain ⟨pk, h3, hf⟩ := Datatype.bind_ok hf
  obtain ⟨s0, h4, hf⟩ := Datatype.bind_ok hf
  simp only [pure, Except.pure, Except.ok.injEq] at hf
  unfold Schema.construct at h4
  split at h4
  · cases h4
  next cs hcs =>
  simp only [Except.ok.injEq] at h4
  subst h4
  obtain ⟨k1, k2, k3⟩ := checkKey_columns { props := D, columns := cs, foreignKeys := fks, primaryKey := pk }
  generalize Schema.checkKey { props := D, columns := cs, foreignKeys := fks, primaryKey := pk } = s1 at *
  simp only at k1 k2 k3
  subst hf
  obtain ⟨g, ga, gc, gi⟩ := descr_distinct hd' hp hD
  unfold Schema.asdict at hw
  obtain ⟨l, hl, hw⟩ := Datatype.bind_ok hw
  obtain ⟨js, hjs, hw⟩ := Datatype.bind_ok hw
  simp only [pure, Except.pure, Except.ok.injEq] at hw
  subst hw
  simp only [k3] at hl
  simp only [k1] at hjs
  obtain ⟨L, rfl, hL, hLd⟩ := gi hl
  simp only [k3]
  refine written_distinct (names := ["columns", "foreignKeys", "primaryKey", "rowTitles"]) g ga gc hL hLd rfl ?_ (by decide +kernel) (by decide +kernel)
  intro e he
  simp only [List.mem_cons, List.not_mem_nil, or_false] at he
  rcases he with rfl | rfl | rfl | rfl
  · refine .arr fun j hj => ?_
    obtain ⟨c', hc', hcj⟩ := mapRes_mem hjs j hj
    obtain ⟨c, hc, n, rfl⟩ := All2_mem_right (Frictionless.number_all2 hcs) c' hc'
    have hdc := argOf_distinct hown "columns"
    unfold convColumns at h1
    split at h1
    · next l hl =>
      rw [hl] at hdc
      split at h1
      · cases h1
      obtain ⟨m, hm, hf⟩ := mapObjs_mem h1 c hc
      exact column_distinct (distinct_arr hdc _ hm) hf hcj
    · cases h1; cases hc
  · refine .arr fun j hj => ?_
    obtain ⟨k, -, rfl⟩ := List.mem_map.1 hj
    exact fk_distinct od k
  · exact ofOptStrs_distinct _
  · refine .arr ?_
    cases hr : Dict.get "rowTitles".toList p.own with
    | none => intro v hv; cases hv
    | some j =>
      have hj := hown _ _ (Dict.get_mem hr)
      cases j with
      | arr l => exact distinct_arr hj
      | _ => intro v hv; simp only [convRowTitles, List.mem_singleton] at hv; subst hv; exact hj

/-! ## Tables and table groups -/

theorem construct_distinct {kw : List (Str × J)} (hk : DistinctVals kw) {d : Dialect} {w : List Str} (h : Dialect.construct lk kw = .ok (d, w)) :
    (∀ v ∈ d.lineTerminators, DistinctKeys v) ∧ DistinctKeys d.quoteChar := by
  have arg : ∀ (n : Str) (dflt : J), DistinctKeys dflt → DistinctKeys ((Dict.get n kw).getD dflt) := by
    intro n dflt hd
    cases hg : Dict.get n kw with
    | none => exact hd
    | some v => exact hk _ _ (Dict.get_mem hg)
  unfold Dialect.construct at h
  simp only at h
  split at h
  · cases h
  obtain ⟨⟨e, w1⟩, -, h⟩ := Datatype.bind_ok h
  simp only at h
  obtain ⟨_, -, h⟩ := Datatype.bind_ok h
  obtain ⟨_, -, h⟩ := Datatype.bind_ok h
  obtain ⟨_, -, h⟩ := Datatype.bind_ok h
  obtain ⟨_, -, h⟩ := Datatype.bind_ok h
  obtain ⟨_, -, h⟩ := Datatype.bind_ok h
  obtain ⟨_, -, h⟩ := Datatype.bind_ok h
  obtain ⟨_, -, h⟩ := Datatype.bind_ok h
  obtain ⟨_, -, h⟩ := Datatype.bind_ok h
  obtain ⟨_, -, h⟩ := Datatype.bind_ok h
  obtain ⟨_, -, h⟩ := Datatype.bind_ok h
  obtain ⟨_, -, h⟩ := Datatype.bind_ok h
  simp only [pure, Except.pure, Except.ok.injEq, Prod.mk.injEq] at h
  obtain ⟨rfl, -⟩ := h
  refine ⟨?_, distinct_converter (.str _) (arg _ _ (.str _))⟩
  simp only
  have hl := arg "lineTerminators".toList (.arr [.str "\r\n".toList, .str "\n".toList]) (distinct_strs ["\r\n".toList, "\n".toList])
  generalize (Dict.get "lineTerminators".toList kw).getD (.arr [.str "\r\n".toList, .str "\n".toList]) = j at hl
  unfold convertLineTerminators
  split
  · exact distinct_arr hl
  · exact distinct_arr (distinct_strs ["\r\n".toList, "\n".toList])

theorem distinctVals_set {k : Str} {v : J} {m : List (Str × J)} (hn : (Dict.keys m).Nodup) (hv : DistinctKeys v) (h : DistinctVals m) :
    DistinctVals (Dict.set k v m) := by
  intro k' v' hm
  have hg := Dict.get_of_mem_nodup (Dict.nodup_keys_set hn) hm
  by_cases hk : k' = k
  · rw [hk, Dict.get_set_self] at hg
    cases hg
    exact hv
  · rw [Dict.get_set_ne (Ne.symm hk)] at hg
    exact h _ _ (Dict.get_mem hg)

theorem dialect_distinct {j : J} (hj : DistinctKeys j) {o : Option Dialect} (h : convDialect lk x j = .ok o) : DistinctKeys (dialectJson o) := by
  cases o with
  | none => exact .null
  | some d =>
    have fin : ∀ {kw : List (Str × J)} {w : List Str}, (Dict.keys kw).Nodup → DistinctVals kw → Dialect.constructMeta lk kw = .ok (d, w) →
        DistinctKeys (dialectJson (some d)) := by
      intro kw w hn hk h
      unfold Dialect.constructMeta at h
      obtain ⟨h1, h2⟩ := construct_distinct (distinctVals_set hn
        (distinct_converter .null (argOf_distinct hk _)) hk) h
      refine .obj (asdictMeta_nodup d) fun k v hm => ?_
      have hm := (List.mem_filter.1 hm).1
      have : ∀ e ∈ d.fields, DistinctKeys e.2 := by
        intro e he
        unfold Dialect.fields at he
        simp only [List.mem_cons, List.not_mem_nil, or_false] at he
        rcases he with rfl | rfl | rfl | rfl | rfl | rfl | rfl | rfl | rfl | rfl | rfl | rfl | rfl
        all_goals first
          | exact .str _
          | exact .bool _
          | exact .int _
          | exact distinct_ofOptStr _
          | exact .arr h1
          | exact h2
      exact this _ hm
    cases j with
    | obj m =>
      unfold convDialect at h
      obtain ⟨kw, h1, h⟩ := Datatype.bind_ok h
      obtain ⟨⟨d', w⟩, h2, h⟩ := Datatype.bind_ok h
      cases h
      unfold dialectProps at h1
      split at h1
      · cases h1
      · cases h1
      · next p hp =>
        cases hj with
        | obj hn hv =>
          obtain ⟨q1, -⟩ := Props.C52_partition x descriptionFields "Dialect".toList false m p hn hp
          have hown : DistinctVals p.own := by
            intro k v hm
            rw [q1] at hm
            exact hv k v (List.mem_filter.1 hm).1
          have hnd : (Dict.keys p.own).Nodup := by
            rw [q1]
            exact List.Nodup.sublist (List.Sublist.map Prod.fst List.filter_sublist) hn
          cases h1
          split at h2
          · exact fin (Dict.nodup_keys_set hnd) (distinctVals_set hnd (.bool _) hown) h2
          · exact fin hnd hown h2
    | null => cases h
    | str s => cases h
    | _ =>
      obtain ⟨⟨d', w⟩, h1, h2⟩ := Except.map_eq_ok.1 (show (Dialect.constructMeta lk []).map (fun r => some r.1) = .ok (some d) from h)
      cases h2
      exact fin (by simp [Dict.keys]) (fun k v hm => (by cases hm)) h1

theorem cleanContext_distinct : ∀ {l l' : List J}, (∀ v ∈ l, DistinctKeys v) → cleanContext x l = .ok l' → ∀ v ∈ l', DistinctKeys v
  | [], l', _, h => by cases h; simp
  | j :: r, l', hd, h => by
    have step : ∀ {j' : J}, (cleanContext x r).map (j' :: ·) = .ok l' → DistinctKeys j' → ∀ v ∈ l', DistinctKeys v := by
      intro j' h hj
      obtain ⟨r', hr, rfl⟩ := Except.map_eq_ok.1 h
      intro v hv
      rcases List.mem_cons.1 hv with rfl | hv
      · exact hj
      · exact cleanContext_distinct (fun v hv => hd v (List.mem_cons_of_mem _ hv)) hr v hv
    have hj := hd j (List.mem_cons_self ..)
    cases j with
    | obj m =>
      simp only [cleanContext] at h
      split at h
      · cases h
      split at h
      · exact step h hj
      · split at h
        · exact step h hj
        · refine step h ?_
          cases hj with
          | obj h1 h2 =>
            refine .obj (List.Nodup.sublist (List.Sublist.map Prod.fst List.filter_sublist) h1) fun k v hm => ?_
            exact h2 k v (List.mem_filter.1 hm).1
      · cases h
    | str s =>
      simp only [cleanContext] at h
      split at h
      · exact step h hj
      · cases h
    | _ =>
      simp only [cleanContext] at h
      exact step h hj

theorem postInit_distinct {a a' : List (Str × J)} (hn : (Dict.keys a).Nodup) (hd : DistinctVals a) (h : postInit x a = .ok a') : DistinctVals a' := by
  unfold postInit at h
  split at h
  · cases h
  split at h
  · next l hl =>
    obtain ⟨l', hc, rfl⟩ := Except.map_eq_ok.1 h
    intro k v hm
    have hg := Dict.get_of_mem_nodup (Dict.nodup_keys_set hn) hm
    by_cases hk : k = "context".toList
    · rw [hk, Dict.get_set_self] at hg
      cases hg
      exact .arr (cleanContext_distinct (distinct_arr (hd _ _ (Dict.get_mem hl))) hc)
    · rw [Dict.get_set_ne (Ne.symm hk)] at hg
      exact hd _ _ (Dict.get_mem hg)
  · cases h; exact hd

theorem transformations_distinct {o : Option J} (ho : ∀ j, o = some j → DistinctKeys j) {v : J} (h : convTransformations x o = .ok v) : DistinctKeys v := by
  unfold convTransformations at h
  split at h
  · cases h; exact .arr (by simp)
  · obtain ⟨_, -, rfl⟩ := Except.map_eq_ok.1 h; exact ho _ rfl
  · cases h; exact ho _ rfl
  · cases h; exact .str _
  · cases h

theorem like_distinct {fields : List Str} {tn : Str} {d : J} (hd : DistinctKeys d) {p : Parts}
    (hp : partitionProperties x fields tn true d = .ok (some p)) {t : TableLike} (ht : TableLike.ofParts ext x other lk p = .ok t)
    {od : Bool} {l : List (Str × J)} (hl : t.props.items ext od = .ok l) {K : List (String × J × J)} (hK : t.items ext = .ok K)
    {names : List String} {M : List (String × J × J)} (hM : M.map (fun e => e.1.toList) = names.map String.toList)
    (hMd : ∀ e ∈ M, DistinctKeys e.2.1) (hnd : ((inheritedNames ++ (likeNames ++ names)).map String.toList).Nodup)
    (ho : ∀ k ∈ (inheritedNames ++ (likeNames ++ names)).map String.toList, OwnProperty k) :
    DistinctKeys (.obj (asdictOf t.props.atProps t.props.common (l ++ attrItems od (K ++ M)))) := by
  have hown := own_distinct hd hp
  unfold TableLike.ofParts at ht
  obtain ⟨D, hD, ht⟩ := Datatype.bind_ok ht
  obtain ⟨dia, h1, ht⟩ := Datatype.bind_ok ht
  obtain ⟨dir, h2, ht⟩ := Datatype.bind_ok ht
  obtain ⟨sch, h3, ht⟩ := Datatype.bind_ok ht
  obtain ⟨trs, h4, ht⟩ := Datatype.bind_ok ht
  obtain ⟨url, h5, ht⟩ := Datatype.bind_ok ht
  obtain ⟨a', h6, ht⟩ := Datatype.bind_ok ht
  simp only [pure, Except.pure, Except.ok.injEq] at ht
  subst ht
  obtain ⟨g, ga, gc, gi⟩ := descr_distinct hd hp hD
  have hl' : D.items ext od = .ok l := hl
  obtain ⟨L, rfl, hL, hLd⟩ := gi hl'
  unfold TableLike.items at hK
  obtain ⟨js, hjs, hK⟩ := Datatype.bind_ok hK
  simp only [pure, Except.pure, Except.ok.injEq] at hK
  refine written_distinct (D := D) (postInit_good h6 g).1 (postInit_distinct g.atNodup ga h6) gc hL hLd (names := likeNames ++ names) ?_ ?_ hnd ho
  · rw [List.map_append, hM, ← hK, List.map_append]; rfl
  · intro e he
    rcases List.mem_append.1 he with he | he
    · subst hK
      simp only [List.mem_cons, List.not_mem_nil, or_false] at he
      rcases he with rfl | rfl | rfl | rfl | rfl | rfl
      · exact dialect_distinct (argOf_distinct hown _) h1
      · simp only
        cases hn : Dict.get "notes".toList p.own with
        | none => exact .arr (by simp)
        | some v => exact hown _ _ (Dict.get_mem hn)
      · exact .str _
      · exact schema_distinct (argOf_distinct hown _) h3 hjs
      · exact transformations_distinct (fun j hj => hown _ _ (Dict.get_mem hj)) h4
      · exact distinct_ofOptStr _
    · exact hMd e he

theorem table_distinct {d : J} (hd : DistinctKeys d) {t : TableD}
    (h : TableD.fromvalue ext x other lk d = .ok t) {od : Bool} {w : J} (hw : t.asdict ext od = .ok w) : DistinctKeys w := by
  obtain ⟨p, hp, hf⟩ := fromParts_ok h
  have hown := own_distinct hd hp
  unfold TableD.ofParts at hf
  obtain ⟨like, hl, hf⟩ := Datatype.bind_ok hf
  split at hf
  · cases hf
  simp only [pure, Except.pure, Except.ok.injEq] at hf
  subst hf
  unfold TableD.asdict at hw
  obtain ⟨l, i1, hw⟩ := Datatype.bind_ok hw
  obtain ⟨K, i2, hw⟩ := Datatype.bind_ok hw
  simp only [pure, Except.pure, Except.ok.injEq] at hw
  subst hw
  refine like_distinct hd hp hl i1 i2 (names := ["suppressOutput"]) rfl ?_ (by decide +kernel) (by decide +kernel)
  intro e he
  simp only [List.mem_singleton] at he
  subst he
  simp only
  cases hn : Dict.get "suppressOutput".toList p.own with
  | none => exact .bool _
  | some v => exact hown _ _ (Dict.get_mem hn)

theorem group_distinct {d : J} (hd : DistinctKeys d) {g : GroupD}
    (h : GroupD.fromvalue ext x other lk d = .ok g) {od : Bool} {w : J} (hw : g.asdict ext od = .ok w) : DistinctKeys w := by
  obtain ⟨p, hp, hf⟩ := fromParts_ok h
  have hown := own_distinct hd hp
  unfold GroupD.ofParts at hf
  obtain ⟨like, hl, hf⟩ := Datatype.bind_ok hf
  obtain ⟨ts, htb, hf⟩ := Datatype.bind_ok hf
  simp only [pure, Except.pure, Except.ok.injEq] at hf
  subst hf
  unfold GroupD.asdict at hw
  obtain ⟨l, i1, hw⟩ := Datatype.bind_ok hw
  obtain ⟨K, i2, hw⟩ := Datatype.bind_ok hw
  obtain ⟨js, i3, hw⟩ := Datatype.bind_ok hw
  simp only [pure, Except.pure, Except.ok.injEq] at hw
  subst hw
  refine like_distinct hd hp hl i1 i2 (names := ["tables"]) rfl ?_ (by decide +kernel) (by decide +kernel)
  intro e he
  simp only [List.mem_singleton] at he
  subst he
  refine .arr fun j hj => ?_
  obtain ⟨t, ht, htj⟩ := mapRes_mem i3 j hj
  cases hg : Dict.get "tables".toList p.own with
  | none => rw [hg] at htb; cases htb; cases ht
  | some v =>
    rw [hg] at htb
    have hdv := hown _ _ (Dict.get_mem hg)
    cases v with
    | arr lj =>
      obtain ⟨tm, htm, hf⟩ := mapObjs_mem htb t ht
      exact table_distinct (distinct_arr hdv _ htm) hf htj
    | obj o => cases htb; cases ht
    | str o => cases htb; cases ht
    | _ => cases htb

end
end Csvw
