import Verif.Lemmas.Frictionless
/-!
# Lemmas about the conversion of frictionless data packages: columns
-/

namespace Csvw.Frictionless
open Spec Datatypes Csvw.Spec.Frictionless

variable {ext : Ext} {x : MExt} {other : Base → Derived → J → Res Val} {lk : EncLookup}

theorem setdefault_has {k : Str} {v w : J} {m : List (Str × J)} (h : Dict.get k m = some w) : Dict.setdefault k v m = m := by
  unfold Dict.setdefault
  rw [if_pos (by rw [has_eq, h]; rfl)]

theorem get_cons_ne {κ α : Type} [DecidableEq κ] {k k' : κ} {v : α} {m : List (κ × α)} (h : k' ≠ k) : Dict.get k ((k', v) :: m) = Dict.get k m := by
  simp only [Dict.get]; rw [if_neg h]

theorem constraintsOf_get {f cs : List (Str × J)} (h : constraintsOf f = .ok cs) (k : String) : Dict.get k.toList cs = constraint k f := by
  unfold constraintsOf at h
  unfold constraint prop
  split at h
  · next hc => cases h; rw [hc]; rfl
  · next j hc =>
    rw [hc]
    cases j with
    | obj m => cases h; rfl
    | _ => cases h

theorem getD_arg (k : String) (m : List (Str × J)) : argOf k m = (Dict.get k.toList m).getD .null := rfl

theorem datatype_constrained {f cs dt0 : List (Str × J)} (h0 : TypeFacts f dt0) (hc : constraintsOf f = .ok cs) {dt : Datatype}
    (h : Datatype.fromvalue ext x other (.obj (constraintNames.foldl (constrain cs) dt0)) = .ok dt) :
    ∃ s, Datatype.construct ext other s = .ok dt ∧ Constrained f s := by
  have hn := constraints_nodup (cs := cs) h0.nodup
  have hbase : Dict.get "base".toList (constraintNames.foldl (constrain cs) dt0) =
      some (.str (baseOf (prop "type" f) (prop "format" f)).toList) := by
    rw [constraints_get (by decide), if_neg (by decide), h0.base]
  have hnone : ∀ k, k ≠ "base".toList → k ≠ "format".toList → k ≠ "dc:format".toList → Dict.get k dt0 = none := by
    intro k h1 h2 h3
    rw [Dict.get_eq_none_iff]
    intro hk
    rcases h0.keys k hk with h | h | h
    · exact h1 h
    · exact h2 h
    · exact h3 h
  have hcon : ∀ k : String, k.toList ∈ constraintNames.map String.toList → k.toList ≠ "base".toList → k.toList ≠ "format".toList →
      k.toList ≠ "dc:format".toList → Dict.get k.toList (constraintNames.foldl (constrain cs) dt0) = constraint k f := by
    intro k h1 h2 h3 h4
    rw [constraints_get h3, if_pos h1, hnone _ h2 h3 h4, Option.or_none, constraintsOf_get hc]
  have habs : ∀ k : String, k.toList ∉ constraintNames.map String.toList → k.toList ≠ "base".toList → k.toList ≠ "format".toList →
      k.toList ≠ "dc:format".toList → Dict.get k.toList (constraintNames.foldl (constrain cs) dt0) = none := by
    intro k h1 h2 h3 h4
    rw [constraints_get h3, if_neg h1, hnone _ h2 h3 h4]
  have hform : baseOf (prop "type" f) (prop "format" f) = "string" →
      Dict.get "format".toList (constraintNames.foldl (constrain cs) dt0) = constraint "pattern" f := by
    intro hb
    rw [constraints_format, h0.format hb, constraintsOf_get hc]; rfl
  have hform2 := constraints_format (cs := cs) (dt := dt0)
  rw [constraintsOf_get hc] at hform2
  unfold Datatype.fromvalue at h
  simp only at h
  rw [setdefault_has hbase] at h
  generalize constraintNames.foldl (constrain cs) dt0 = m at hn hbase hcon habs hform hform2 h
  obtain ⟨o, hp, h⟩ := Datatype.bind_ok h
  cases o with
  | none => cases h
  | some p =>
    simp only at h
    obtain ⟨length, hl, h⟩ := Datatype.bind_ok h
    obtain ⟨minLength, hmin, h⟩ := Datatype.bind_ok h
    obtain ⟨maxLength, hmax, h⟩ := Datatype.bind_ok h
    rw [own_arg hn hp (by decide) (by decide)] at hl hmin hmax
    refine ⟨_, h, ?_⟩
    have ga : ∀ k : String, OwnProperty k.toList → k.toList ∈ datatypeFields → argOf k p.own = (Dict.get k.toList m).getD .null := by
      intro k h1 h2
      rw [own_arg hn hp h1 (fun _ => h2)]; rfl
    rw [getD_arg, hcon "minLength" (by decide) (by decide) (by decide) (by decide)] at hmin
    rw [getD_arg, hcon "maxLength" (by decide) (by decide) (by decide) (by decide)] at hmax
    rw [getD_arg, habs "length" (by decide) (by decide) (by decide) (by decide)] at hl
    constructor
    · simp only [ga "base" (by decide) (by decide), hbase]; rfl
    · intro n hn; rw [hn] at hmin; cases hmin; rfl
    · intro n hn; rw [hn] at hmax; cases hmax; rfl
    · intro hn; rw [hn] at hmin; cases hmin; rfl
    · intro hn; rw [hn] at hmax; cases hmax; rfl
    · cases hl; rfl
    · simp only [ga "minimum" (by decide) (by decide), hcon "minimum" (by decide) (by decide) (by decide) (by decide)]
    · simp only [ga "maximum" (by decide) (by decide), hcon "maximum" (by decide) (by decide) (by decide) (by decide)]
    · refine ⟨?_, ?_, ?_, ?_⟩
      · simp only [ga "minInclusive" (by decide) (by decide), habs "minInclusive" (by decide) (by decide) (by decide) (by decide)]; rfl
      · simp only [ga "maxInclusive" (by decide) (by decide), habs "maxInclusive" (by decide) (by decide) (by decide) (by decide)]; rfl
      · simp only [ga "minExclusive" (by decide) (by decide), habs "minExclusive" (by decide) (by decide) (by decide) (by decide)]; rfl
      · simp only [ga "maxExclusive" (by decide) (by decide), habs "maxExclusive" (by decide) (by decide) (by decide) (by decide)]; rfl
    · intro hb
      simp only [ga "format" (by decide) (by decide), hform hb]
    · intro h1 h2 h3 h4
      simp only [ga "format" (by decide) (by decide), hform2, h0.noFormat h1 h2 h3, h4]
      rfl
    · intro t f r r' h1 h2 h3
      simp only [ga "format" (by decide) (by decide), hform2, h0.boolean t f r r' h1 h2 h3]
      rfl
    · intro k d h1 h2 h3 h4
      obtain ⟨m', e1, e2⟩ := h0.number k d h1 h2 h3 h4
      refine ⟨m', ?_, e2⟩
      simp only [ga "format" (by decide) (by decide), hform2, e1]
      rfl

/-- What is not set by the conversion of a field. -/
structure BareCol (f : List (Str × J)) (d : Descr) : Prop where
  required : d.required = .null
  aboutUrl : d.aboutUrl = .json .null
  valueUrl : d.valueUrl = .json .null
  propertyUrl : prop "rdfType" f = none → d.propertyUrl = .json .null

/-- A description without properties of columns. -/
structure Bare (d : Descr) : Prop where
  required : d.required = .null
  aboutUrl : d.aboutUrl = .json .null
  valueUrl : d.valueUrl = .json .null
  propertyUrl : d.propertyUrl = .json .null
  datatype : d.datatype = .json .null

theorem bare_of {p : Parts} {d : Descr} (h : Descr.ofParts ext x other p = .ok d)
    (hk : ∀ k ∈ ["required", "aboutUrl", "valueUrl", "propertyUrl", "datatype"], argOf k p.own = .null) : Bare d := by
  unfold Descr.ofParts at h
  obtain ⟨d0, hd0, rfl⟩ := Except.map_eq_ok.1 h
  unfold Descr.construct at hd0
  obtain ⟨dtv, hdtv, hd0⟩ := Datatype.bind_ok hd0
  cases hd0
  rw [hk "datatype" (by simp)] at hdtv
  cases hdtv
  refine ⟨hk _ (by simp), ?_, ?_, ?_, rfl⟩
  · simp only [hk "aboutUrl" (by simp)]; rfl
  · simp only [hk "valueUrl" (by simp)]; rfl
  · simp only [hk "propertyUrl" (by simp)]; rfl

/-- The items of a column have different names. -/
theorem columnItems_keys (f : List (Str × J)) : (Dict.keys (columnItems f)).Sublist ["titles".toList, "dc:description".toList, "propertyUrl".toList] := by
  unfold columnItems optItem
  cases Dict.get "description".toList f <;> cases Dict.get "rdfType".toList f <;>
    · by_cases ht : (argOf "title" f).truthy = true
      · rw [if_pos ht]; simp only [List.append_nil, List.nil_append, List.cons_append, Dict.keys, List.map_cons, List.map_nil]; decide
      · rw [if_neg ht]; simp only [List.append_nil, List.nil_append, List.cons_append, Dict.keys, List.map_cons, List.map_nil]; decide

theorem column_of_field {f : List (Str × J)} {j : J} (h : convertColumn (.obj f) = .ok j) {c : Column}
    (hc : Column.fromvalue ext x other j = .ok c) : FieldColumn ext other f c ∧ BareCol f c.props := by
  unfold convertColumn at h
  obtain ⟨spec, hs, h⟩ := Datatype.bind_ok h
  cases hs
  obtain ⟨name, hname, h⟩ := Datatype.bind_ok h
  obtain ⟨dt0, hdt0, h⟩ := Datatype.bind_ok h
  obtain ⟨cs, hcs, h⟩ := Datatype.bind_ok h
  cases h
  have h0 := fieldType_facts hdt0
  unfold item at hname
  split at hname
  · cases hname
  next v hv =>
  cases hname
  obtain ⟨p, hp, hc⟩ := fromParts_ok hc
  generalize hdt : J.obj (constraintNames.foldl (constrain cs) dt0) = D at hp
  have hsub := columnItems_keys f
  have hn : (Dict.keys (("name".toList, name) :: ("datatype".toList, D) :: columnItems f)).Nodup := by
    rw [Dict.keys_cons, Dict.keys_cons, List.nodup_cons, List.nodup_cons]
    refine ⟨?_, ?_, hsub.nodup (by decide)⟩
    · intro hm
      rcases List.mem_cons.1 hm with hm | hm
      · dsimp only at hm; revert hm; decide
      · have := hsub.subset hm; dsimp only at this; revert this; decide
    · intro hm
      have := hsub.subset hm; dsimp only at this; revert this; decide
  have ga : ∀ k : String, OwnProperty k.toList → k.toList ∈ columnFields →
      argOf k p.own = argOf k (("name".toList, name) :: ("datatype".toList, D) :: columnItems f) := by
    intro k h1 h2
    exact own_arg hn hp h1 (fun _ => h2)
  have gi : ∀ k : String, k.toList ≠ "name".toList → k.toList ≠ "datatype".toList →
      argOf k (("name".toList, name) :: ("datatype".toList, D) :: columnItems f) = argOf k (columnItems f) := by
    intro k h1 h2
    unfold argOf
    rw [get_cons_ne (Ne.symm h1), get_cons_ne (Ne.symm h2)]
  have gno : ∀ k : String, k.toList ≠ "name".toList → k.toList ≠ "datatype".toList →
      k.toList ∉ ["titles".toList, "dc:description".toList, "propertyUrl".toList] →
      argOf k (("name".toList, name) :: ("datatype".toList, D) :: columnItems f) = .null := by
    intro k h1 h2 h3
    rw [gi k h1 h2]
    unfold argOf
    rw [(Dict.get_eq_none_iff _ _).2 (fun hk => h3 (hsub.subset hk))]; rfl
  unfold Column.ofParts at hc
  obtain ⟨props, hprops, hc⟩ := Datatype.bind_ok hc
  obtain ⟨nm, hnm, hc⟩ := Datatype.bind_ok hc
  obtain ⟨so, hso, hc⟩ := Datatype.bind_ok hc
  obtain ⟨vt, hvt, hc⟩ := Datatype.bind_ok hc
  cases hc
  rw [ga "virtual" (by decide) (by decide), gno "virtual" (by decide) (by decide) (by decide)] at hvt
  cases hvt
  rw [ga "name" (by decide) (by decide)] at hnm
  rw [ga "titles" (by decide) (by decide), gi "titles" (by decide) (by decide)]
  unfold Descr.ofParts at hprops
  obtain ⟨d0, hd0, rfl⟩ := Except.map_eq_ok.1 hprops
  unfold Descr.construct at hd0
  obtain ⟨dtv, hdtv, hd0⟩ := Datatype.bind_ok hd0
  cases hd0
  rw [ga "datatype" (by decide) (by decide)] at hdtv
  have hD : argOf "datatype" (("name".toList, name) :: ("datatype".toList, D) :: columnItems f) = D := rfl
  rw [hD, ← hdt] at hdtv
  have htr : (J.obj (constraintNames.foldl (constrain cs) dt0)).truthy = true := by
    have : Dict.get "base".toList (constraintNames.foldl (constrain cs) dt0) ≠ none := by
      rw [constraints_get (by decide), if_neg (by decide), h0.base]; simp
    cases hm : constraintNames.foldl (constrain cs) dt0 with
    | nil => rw [hm] at this; exact absurd rfl this
    | cons => simp [J.truthy]
  unfold convDatatype at hdtv
  rw [if_pos htr] at hdtv
  obtain ⟨dt, hdt', rfl⟩ := Except.map_eq_ok.1 hdtv
  refine ⟨⟨⟨name, hv, ?_⟩, rfl, ?_, ?_, ?_, ?_⟩, ?_⟩
  · rintro n rfl
    cases hnm
    rfl
  · obtain ⟨s, h1, h2⟩ := datatype_constrained h0 hcs hdt'
    exact ⟨s, dt, rfl, h1, h2⟩
  · intro t ht htne
    have : argOf "titles" (columnItems f) = .arr [.str t] := by
      have htt : argOf "title" f = .str t := arg_prop.2 ht
      unfold columnItems
      rw [htt, if_pos (by cases t with | nil => exact absurd rfl htne | cons => rfl)]
      rfl
    simp only [this]
    rfl
  · intro u hu
    have : argOf "propertyUrl" (columnItems f) = .str u := by
      have hu : Dict.get "rdfType".toList f = some (.str u) := hu
      unfold columnItems argOf optItem
      rw [hu, Dict.get_append, Dict.get_append]
      split
      · cases Dict.get "description".toList f <;> rfl
      · cases Dict.get "description".toList f <;> rfl
    simp only [ga "propertyUrl" (by decide) (by decide), gi "propertyUrl" (by decide) (by decide), this]
    rfl
  · intro d hd
    have : Dict.get "dc:description".toList (("name".toList, name) :: ("datatype".toList, D) :: columnItems f) = some (.arr [.str d]) := by
      have hd : Dict.get "description".toList f = some (.str d) := hd
      unfold columnItems optItem
      rw [hd]
      split <;> rfl
    obtain ⟨v', h1, h2⟩ := common_get hn hp (by decide) this
    have : v' = .arr [.str d] := by
      simp only [validCommon, validCommonList] at h2
      cases h2; rfl
    rw [← this]; exact h1
  · refine ⟨?_, ?_, ?_, ?_⟩
    · simp only [ga "required" (by decide) (by decide)]
      exact gno "required" (by decide) (by decide) (by decide)
    · simp only [ga "aboutUrl" (by decide) (by decide), gno "aboutUrl" (by decide) (by decide) (by decide)]
      rfl
    · simp only [ga "valueUrl" (by decide) (by decide), gno "valueUrl" (by decide) (by decide) (by decide)]
      rfl
    · intro hr
      have : argOf "propertyUrl" (columnItems f) = .null := by
        have hr : Dict.get "rdfType".toList f = none := hr
        unfold columnItems argOf optItem
        rw [hr, Dict.get_append, Dict.get_append]
        split
        · cases Dict.get "description".toList f <;> rfl
        · cases Dict.get "description".toList f <;> rfl
      simp only [ga "propertyUrl" (by decide) (by decide), gi "propertyUrl" (by decide) (by decide), this]
      rfl

end Csvw.Frictionless
