import Verif.Lemmas.Metadata
import Verif.Lemmas.Datatype
import Verif.Spec.Metadata
/-!
# Lemmas about `asdict` and `fromvalue`: datatypes and inherited properties
-/

namespace Csvw
open Spec Datatypes

/-! ## Looking up what `asdict` returns -/

/-- `null` instead of an empty value. -/
def pruneJ (v : J) : J := if keptValue v then v else .null

/-- The items which are kept. -/
def keepItems (l : List (Str × J)) : List (Str × J) := l.filter fun e => decide (e.1 = "null".toList) || keptValue e.2

theorem keptValue_iff (v : J) : keptValue v = true ↔ ¬ EmptyValue v := by
  simp only [keptValue, EmptyValue, Bool.and_eq_true, decide_eq_true_eq, not_or]

theorem sameItems_canon {m : List (Str × J)} (hn : (Dict.keys m).Nodup) : SameItems m (canon m) := by
  intro k v
  rw [get_canon hn]
  cases Dict.get k m with
  | none => simp
  | some w =>
    simp only [Option.filter_some, Option.some.injEq]
    split
    · next h =>
      rw [keptValue_iff] at h
      constructor
      · intro he; simp only [Option.some.injEq] at he; subst he; exact ⟨rfl, h⟩
      · rintro ⟨rfl, -⟩; rfl
    · next h =>
      rw [keptValue_iff] at h
      constructor
      · intro he; cases he
      · rintro ⟨rfl, h'⟩; exact absurd h' h

theorem sameValue_prune (v : J) : SameValue v (pruneJ v) := by
  unfold pruneJ
  split
  · exact .inl rfl
  · next h => rw [keptValue_iff, Classical.not_not] at h; exact .inr ⟨h, rfl⟩

theorem pruneJ_kept {v : J} (h : keptValue v = true) : pruneJ v = v := by unfold pruneJ; rw [if_pos h]
@[simp] theorem pruneJ_null : pruneJ .null = .null := rfl
@[simp] theorem pruneJ_str (s : Str) : pruneJ (.str s) = .str s := rfl
@[simp] theorem pruneJ_bool (b : Bool) : pruneJ (.bool b) = .bool b := rfl
@[simp] theorem pruneJ_int (b : Int) : pruneJ (.int b) = .int b := rfl

theorem attrItems_append (od : Bool) (a b : List (String × J × J)) : attrItems od (a ++ b) = attrItems od a ++ attrItems od b := by
  simp [attrItems]

theorem attrItems_keys {od : Bool} {l : List (String × J × J)} {e : Str × J} (h : e ∈ attrItems od l) : e.1 ∈ l.map fun e => e.1.toList := by
  obtain ⟨f, hf, rfl⟩ := List.mem_map.1 h
  exact List.mem_map_of_mem (List.mem_filter.1 hf).1

theorem attrItems_nodup {od : Bool} {l : List (String × J × J)} (h : (l.map fun e => e.1.toList).Nodup) : (Dict.keys (attrItems od l)).Nodup := by
  have : (Dict.keys (attrItems od l)).Sublist (l.map fun e => e.1.toList) := by
    unfold Dict.keys attrItems
    rw [List.map_map]
    exact List.Sublist.map _ List.filter_sublist
  exact List.Nodup.sublist this h

/-- The value of an attribute in the result of `asdict`. -/
theorem get_attr {od : Bool} {l : List (String × J × J)} (h : (l.map fun e => e.1.toList).Nodup) {n : String} {v d : J} (hm : (n, v, d) ∈ l) :
    Dict.get n.toList (keepItems (attrItems od l)) =
      if (od && decide (v = d)) || !(decide (n.toList = "null".toList) || keptValue v) then none else some v := by
  unfold keepItems
  rw [Dict.get_filter _ _ _ (attrItems_nodup h)]
  have hg : Dict.get n.toList (attrItems od l) = if od && decide (v = d) then none else some v := by
    split
    · next hc =>
      rw [Dict.get_eq_none_iff]
      intro hk
      obtain ⟨e, he, hek⟩ := List.mem_map.1 hk
      obtain ⟨f, hf, rfl⟩ := List.mem_map.1 he
      obtain ⟨hfl, hfc⟩ := List.mem_filter.1 hf
      have hfe : f = (n, v, d) := by
        have hek : f.1.toList = n.toList := hek
        clear hk he hf hfc hc
        induction l with
        | nil => cases hfl
        | cons a r ih =>
          rw [List.map_cons, List.nodup_cons] at h
          rcases List.mem_cons.1 hfl with rfl | hf'
          · rcases List.mem_cons.1 hm with rfl | hm'
            · rfl
            · exact absurd (List.mem_map_of_mem (f := fun e : String × J × J => e.1.toList) hm') (by rw [← hek]; exact h.1)
          · rcases List.mem_cons.1 hm with rfl | hm'
            · exact absurd (List.mem_map_of_mem (f := fun e : String × J × J => e.1.toList) hf') (by rw [hek]; exact h.1)
            · exact ih h.2 hm' hf'
      subst hfe
      simp [hc] at hfc
    · next hc =>
      apply Dict.get_of_mem_nodup (attrItems_nodup h)
      refine List.mem_map.2 ⟨(n, v, d), List.mem_filter.2 ⟨hm, ?_⟩, rfl⟩
      cases hcc : (od && decide (v = d)) with
      | true => exact absurd hcc hc
      | false => rfl
  rw [hg]
  generalize (od && decide (v = d)) = p
  generalize hq : (decide (n.toList = "null".toList) || keptValue v) = q
  cases p with
  | true => rfl
  | false =>
    simp only [Bool.false_eq_true, if_false, Option.filter_some, Bool.false_or]
    rw [hq]
    cases q <;> rfl

theorem arg_attr {od : Bool} {l : List (String × J × J)} (h : (l.map fun e => e.1.toList).Nodup) {n : String} {v : J} (hm : (n, v, .null) ∈ l)
    (hn : n.toList ≠ "null".toList) : argOf n (keepItems (attrItems od l)) = pruneJ v := by
  unfold argOf
  rw [get_attr h hm]
  simp only [hn, decide_false, Bool.false_or]
  unfold pruneJ
  cases hk : keptValue v with
  | false => simp
  | true =>
    by_cases hv : v = .null
    · subst hv; cases od <;> simp
    · simp [hv]

theorem arg_absent {od : Bool} {l : List (String × J × J)} {n : String} (hm : n.toList ∉ l.map fun e => e.1.toList) :
    Dict.get n.toList (keepItems (attrItems od l)) = none := by
  rw [Dict.get_eq_none_iff]
  intro hk
  obtain ⟨e, he, hek⟩ := List.mem_map.1 hk
  exact hm (hek ▸ attrItems_keys (List.mem_filter.1 he).1)

/-! ## Datatypes -/

/-- A datatype whose properties are written in another order, without the empty ones. -/
def canonDt (dt : Datatype) : Datatype := { dt with atProps := canon dt.atProps, common := canon dt.common }

section
variable {ext : Ext} {x : MExt} {other : Base → Derived → J → Res Val}

theorem ofName_name (b : Base) : Base.ofName b.name.toList = some b := by cases b <;> decide +kernel

theorem convBase_name (b : Base) : Datatype.convBase (.str b.name.toList) = .ok b := by
  unfold Datatype.convBase
  simp only [ofName_name]

theorem Datatype.fromvalue_str (s : Str) : Datatype.fromvalue ext x other (.str s) = Datatype.fromvalue ext x other (.obj [("base".toList, .str s)]) := rfl

/-- The text of a bound as JSON. -/
theorem boundItem_eq {dt : Datatype} (n : String) {b : Option Val} (h : BoundSurvives ext dt b) :
    ∃ j, boundItem ext dt n b = .ok (attrItems true [(n, j, .null)]) ∧ pruneJ j = j ∧
      ∀ d, dt.descr ext = .ok d → Datatype.parseBound ext other dt.base d j = .ok b := by
  cases b with
  | none => exact ⟨.null, rfl, rfl, fun d _ => rfl⟩
  | some v =>
    obtain ⟨h1, h2, s, hs, hp⟩ := h v rfl
    refine ⟨.str s, ?_, rfl, ?_⟩
    · simp [boundItem, h1, h2, hs, Except.map, attrItems]
    · intro d hd
      unfold Datatype.parse at hp
      rw [hd] at hp
      simp only [Datatype.parseBound, Datatype.parseJ]
      rw [show toPython ext dt.base d s = .ok v from hp]
      rfl

theorem optInt_ofOptInt (o : Option Int) : optInt x (J.ofOptInt o) = .ok o := by cases o <;> rfl

theorem idOf_canon {a : List (Str × J)} (hn : (Dict.keys a).Nodup) : Datatype.idOf (canon a) = Datatype.idOf a := by
  unfold Datatype.idOf
  rw [get_canon hn]
  cases Dict.get "id".toList a with
  | none => rfl
  | some v =>
    cases v with
    | str s => rfl
    | arr l => cases l <;> rfl
    | obj m => cases m <;> rfl
    | _ => rfl

theorem descr_built {s : DatatypeSpec} {dt : Datatype} (h : Datatype.Built ext other s dt) :
    ∃ d, dt.descr ext = .ok d ∧ Datatype.badPattern dt.base dt.format = .ok false := by
  refine (fun ⟨d, hd⟩ => ⟨d, hd, h.notBad⟩ : (∃ d, dt.descr ext = .ok d) → _) ?_
  obtain ⟨d, h1, ⟨bad, hb, h2⟩, -⟩ := h.descr
  cases bad with
  | false => exact ⟨d, by unfold Datatype.descr; rw [h2]; exact h1⟩
  | true =>
    have hk : dt.base.kind = .decimal ∨ dt.base.kind = .integer := by
      unfold Datatype.badPattern at hb
      split at hb
      · next hk => exact .inl hk
      · next hk => exact .inr hk
      · cases hb
    refine ⟨.empty, ?_⟩
    unfold Datatype.descr derived
    rw [h2]
    rcases hk with hk | hk <;> rw [hk] <;> rfl

def dtFieldNames : List String :=
  ["base", "format", "length", "minLength", "maxLength", "minimum", "maximum", "minInclusive", "maxInclusive", "minExclusive", "maxExclusive"]

/-- The round trip of a datatype. -/
theorem datatype_roundtrip {s : DatatypeSpec} {dt : Datatype} (h : Datatype.Built ext other s dt)
    (hg : GoodParts x "Datatype".toList dt.atProps dt.common) (hw : DtWritable ext dt) :
    ∃ j, dt.asdict ext = .ok j ∧ j.truthy = true ∧ Datatype.fromvalue ext x other j = .ok (canonDt dt) := by
  obtain ⟨j1, e1, p1, r1⟩ := boundItem_eq (other := other) "minimum" hw.minimum
  obtain ⟨j2, e2, p2, r2⟩ := boundItem_eq (other := other) "maximum" hw.maximum
  obtain ⟨j3, e3, p3, r3⟩ := boundItem_eq (other := other) "minInclusive" hw.minInclusive
  obtain ⟨j4, e4, p4, r4⟩ := boundItem_eq (other := other) "maxInclusive" hw.maxInclusive
  obtain ⟨j5, e5, p5, r5⟩ := boundItem_eq (other := other) "minExclusive" hw.minExclusive
  obtain ⟨j6, e6, p6, r6⟩ := boundItem_eq (other := other) "maxExclusive" hw.maxExclusive
  obtain ⟨d, hd, hbad⟩ := descr_built h
  let L : List (String × J × J) :=
    [("base", .str dt.base.name.toList, .null), ("format", dt.format, .null), ("length", .ofOptInt dt.length, .null),
     ("minLength", .ofOptInt dt.minLength, .null), ("maxLength", .ofOptInt dt.maxLength, .null), ("minimum", j1, .null),
     ("maximum", j2, .null), ("minInclusive", j3, .null), ("maxInclusive", j4, .null), ("minExclusive", j5, .null), ("maxExclusive", j6, .null)]
  have hL : (L.map fun e => e.1.toList) = dtFieldNames.map String.toList := rfl
  have hnd : (L.map fun e => e.1.toList).Nodup := by rw [hL]; decide
  have hown : ∀ e ∈ attrItems true L, OwnProperty e.1 ∧ e.1 ∈ datatypeFields ∧ e.1 ∉ partNames := by
    intro e he
    have := attrItems_keys he
    rw [hL] at this
    revert this
    have hall : ∀ k ∈ dtFieldNames.map String.toList, OwnProperty k ∧ k ∈ datatypeFields ∧ k ∉ partNames := by decide +kernel
    exact hall e.1
  have hpart : partitionProperties x datatypeFields "Datatype".toList true (.obj (asdictOf dt.atProps dt.common (attrItems true L))) =
      .ok (some ⟨canon dt.common, canon dt.atProps, keepItems (attrItems true L), []⟩) :=
    partition_asdict hg (attrItems_nodup hnd) hown
  have hbase : ("base".toList, .str dt.base.name.toList) ∈ asdictOf dt.atProps dt.common (attrItems true L) := by
    rw [asdictOf_eq hg, List.mem_append, List.mem_append]
    refine .inr (.inr (List.mem_filter.2 ⟨?_, by simp [keptValue]⟩))
    simp [attrItems, L]
  have hobj : Datatype.fromvalue ext x other (.obj (asdictOf dt.atProps dt.common (attrItems true L))) = .ok (canonDt dt) := by
    have hsd : Dict.setdefault "base".toList (.str "string".toList) (asdictOf dt.atProps dt.common (attrItems true L)) =
        asdictOf dt.atProps dt.common (attrItems true L) := by
      unfold Dict.setdefault
      rw [if_pos]
      rw [Dict.has_iff_mem_keys]
      exact List.mem_map_of_mem (f := Prod.fst) hbase
    unfold Datatype.fromvalue
    simp only [hsd, hpart, bind, Except.bind]
    have g : ∀ {n : String} {v : J}, (n, v, .null) ∈ L → n.toList ≠ "null".toList →
        argOf n (keepItems (attrItems true L)) = pruneJ v := fun hm hn => arg_attr hnd hm hn
    have hf : pruneJ dt.format = dt.format := pruneJ_kept ((keptValue_iff _).2 hw.format)
    have gi : ∀ o : Option Int, pruneJ (J.ofOptInt o) = J.ofOptInt o := fun o => by cases o <;> rfl
    rw [g (n := "length") (v := .ofOptInt dt.length) (by simp [L]) (by decide), gi, optInt_ofOptInt]
    simp only
    rw [g (n := "minLength") (v := .ofOptInt dt.minLength) (by simp [L]) (by decide), gi, optInt_ofOptInt]
    simp only
    rw [g (n := "maxLength") (v := .ofOptInt dt.maxLength) (by simp [L]) (by decide), gi, optInt_ofOptInt]
    simp only
    rw [g (n := "base") (v := .str dt.base.name.toList) (by simp [L]) (by decide), g (n := "format") (v := dt.format) (by simp [L]) (by decide),
      g (n := "minimum") (v := j1) (by simp [L]) (by decide), g (n := "maximum") (v := j2) (by simp [L]) (by decide),
      g (n := "minInclusive") (v := j3) (by simp [L]) (by decide), g (n := "maxInclusive") (v := j4) (by simp [L]) (by decide),
      g (n := "minExclusive") (v := j5) (by simp [L]) (by decide), g (n := "maxExclusive") (v := j6) (by simp [L]) (by decide),
      p1, p2, p3, p4, p5, p6, hf, pruneJ_str]
    unfold Datatype.construct
    simp only [convBase_name, bind, Except.bind]
    rw [show derived ext dt.base dt.format = .ok d from hd]
    simp only [r1 d hd, r2 d hd, r3 d hd, r4 d hd, r5 d hd, r6 d hd]
    unfold Datatype.finish
    have hl : Datatype.lengthsBad (canonDt dt) = false := h.lengths
    have hk : Datatype.kindBad ext (canonDt dt) = false := h.kind
    have hi : Datatype.intervalBad ext (canonDt dt) = .ok false := h.interval
    have hid : (Datatype.idOf (canonDt dt).atProps).any Datatype.builtinId = false := by
      show (Datatype.idOf (canon dt.atProps)).any Datatype.builtinId = false
      rw [idOf_canon hg.atNodup, h.atProps]; exact h.notBuiltin
    change (if Datatype.lengthsBad (canonDt dt) then _ else if Datatype.kindBad ext (canonDt dt) then _ else
      match Datatype.intervalBad ext (canonDt dt) with | .error e => _ | .ok true => _ | .ok false => _) = _
    rw [hl, hk, hi]
    simp only [Bool.false_eq_true, if_false]
    change (if (Datatype.idOf (canonDt dt).atProps).any Datatype.builtinId = true then _ else _) = _
    rw [hid, if_neg (by simp), hbad]
    rfl
  have happ : attrItems true L = attrItems true (L.take 5) ++ (attrItems true [("minimum", j1, .null)] ++ (attrItems true [("maximum", j2, .null)] ++
      (attrItems true [("minInclusive", j3, .null)] ++ (attrItems true [("maxInclusive", j4, .null)] ++
        (attrItems true [("minExclusive", j5, .null)] ++ attrItems true [("maxExclusive", j6, .null)]))))) := by
    simp only [← attrItems_append]; rfl
  have has : dt.asdict ext = (match asdictOf dt.atProps dt.common (attrItems true L) with
      | [(k, v)] => if k = "base".toList then .ok v else .ok (.obj [(k, v)])
      | m => .ok (.obj m)) := by
    unfold Datatype.asdict
    simp only [e1, e2, e3, e4, e5, e6, bind, Except.bind]
    rw [happ]
    rfl
  rw [has]
  split
  · next k v hm =>
    rw [hm] at hbase hobj
    simp only [List.mem_singleton, Prod.mk.injEq] at hbase
    obtain ⟨rfl, rfl⟩ := hbase
    refine ⟨.str dt.base.name.toList, by simp, ?_, ?_⟩
    · cases dt.base <;> rfl
    · rw [Datatype.fromvalue_str]; exact hobj
  · next m hm =>
    refine ⟨_, rfl, ?_, hobj⟩
    cases hmm : asdictOf dt.atProps dt.common (attrItems true L) with
    | nil => rw [hmm] at hbase; cases hbase
    | cons a r => rfl

theorem distinct_setdefault {k : Str} {v : J} {m : List (Str × J)} (hv : DistinctKeys v) (h : DistinctKeys (.obj m)) :
    DistinctKeys (.obj (Dict.setdefault k v m)) := by
  unfold Dict.setdefault
  split
  · exact h
  · next hh =>
    cases h with
    | obj h1 h2 =>
      have hnk : k ∉ m.map Prod.fst := by
        intro hk
        exact hh ((Dict.has_iff_mem_keys k m).2 hk)
      refine .obj ?_ ?_
      · rw [List.map_append, List.nodup_append]
        refine ⟨h1, by simp, ?_⟩
        intro a ha b hb
        simp only [List.map_cons, List.map_nil, List.mem_singleton] at hb
        subst hb
        rintro rfl
        exact hnk ha
      · intro k' v' hm
        rcases List.mem_append.1 hm with hm | hm
        · exact h2 k' v' hm
        · simp only [List.mem_singleton, Prod.mk.injEq] at hm
          rw [hm.2]; exact hv

theorem fromvalue_obj {m : List (Str × J)} (hd : DistinctKeys (.obj m)) {dt : Datatype} (h : Datatype.fromvalue ext x other (.obj m) = .ok dt) :
    ∃ s, Datatype.Built ext other s dt ∧ GoodParts x "Datatype".toList dt.atProps dt.common := by
  unfold Datatype.fromvalue at h
  obtain ⟨o, ho, h⟩ := Datatype.bind_ok h
  cases o with
  | none => cases h
  | some p =>
    obtain ⟨g, -⟩ := goodParts (distinct_setdefault (.str _) hd) ho
    simp only at h
    obtain ⟨l1, -, h⟩ := Datatype.bind_ok h
    obtain ⟨l2, -, h⟩ := Datatype.bind_ok h
    obtain ⟨l3, -, h⟩ := Datatype.bind_ok h
    have hb := Datatype.built_of_construct h
    refine ⟨_, hb, ?_⟩
    rw [hb.atProps, hb.common]
    exact g

theorem fromvalue_built {j : J} (hd : DistinctKeys j) {dt : Datatype} (h : Datatype.fromvalue ext x other j = .ok dt) :
    ∃ s, Datatype.Built ext other s dt ∧ GoodParts x "Datatype".toList dt.atProps dt.common := by
  cases j with
  | str s =>
    rw [Datatype.fromvalue_str] at h
    refine fromvalue_obj (.obj (by simp) ?_) h
    intro k v hm
    simp only [List.mem_singleton, Prod.mk.injEq] at hm
    rw [hm.2]; exact .str _
  | obj m => exact fromvalue_obj hd h
  | _ => cases h

/-! ## Inherited properties -/

theorem convList_idem (ok : J → Bool) : ∀ l : List J, convList ok (convList ok l) = convList ok l
  | [] => by simp only [convList]
  | .arr l :: r => by
    simp only [convList]
    rw [convList_idem ok l, convList_idem ok r]
  | .null :: r => by
    simp only [convList]; split
    · next h => simp only [convList, h, if_true, convList_idem ok r]
    · exact convList_idem ok r
  | .bool _ :: r => by
    simp only [convList]; split
    · next h => simp only [convList, h, if_true, convList_idem ok r]
    · exact convList_idem ok r
  | .int _ :: r => by
    simp only [convList]; split
    · next h => simp only [convList, h, if_true, convList_idem ok r]
    · exact convList_idem ok r
  | .flt _ :: r => by
    simp only [convList]; split
    · next h => simp only [convList, h, if_true, convList_idem ok r]
    · exact convList_idem ok r
  | .str _ :: r => by
    simp only [convList]; split
    · next h => simp only [convList, h, if_true, convList_idem ok r]
    · exact convList_idem ok r
  | .obj _ :: r => by
    simp only [convList]; split
    · next h => simp only [convList, h, if_true, convList_idem ok r]
    · exact convList_idem ok r

theorem converter_null (ok : J → Bool) (d : J) : (converter ok d true .null).1 = .null := by simp [converter]

theorem converter_ok {ok : J → Bool} (d : J) {j : J} (h : ok j = true) (h1 : ∀ l, j ≠ .arr l) (h2 : j ≠ .null) : (converter ok d true j).1 = j := by
  cases j <;> simp_all [converter]

theorem converter_bad {ok : J → Bool} (d : J) {j : J} (h : ok j = false) (h1 : ∀ l, j ≠ .arr l) (h2 : j ≠ .null) : (converter ok d true j).1 = d := by
  cases j <;> simp_all [converter]

/-- Converted values, written and read again. -/
theorem converter_prune {ok : J → Bool} {d : J} (hd : (converter ok d true d).1 = d) (j : J) :
    (converter ok d true (pruneJ (converter ok d true j).1)).1 = pruneJ (converter ok d true j).1 := by
  have key : (converter ok d true (converter ok d true j).1).1 = (converter ok d true j).1 := by
    by_cases h1 : ∃ l, j = .arr l
    · obtain ⟨l, rfl⟩ := h1
      simp only [converter, convList_idem]
    · have h1' : ∀ l, j ≠ .arr l := fun l hl => h1 ⟨l, hl⟩
      by_cases h2 : j = .null
      · subst h2; simp [converter]
      · cases h : ok j with
        | true => rw [converter_ok _ h h1' h2, converter_ok _ h h1' h2]
        | false => rw [converter_bad _ h h1' h2]; exact hd
  unfold pruneJ
  split
  · exact key
  · exact converter_null ok d

theorem convTmpl_cases (j : J) : convTmpl j = .json .null ∨ (∃ s, convTmpl j = .tmpl s) ∨ convTmpl j = .invalid := by
  cases j <;> simp [convTmpl]

/-- A template, written and read again. -/
theorem tmpl_roundtrip {j : J} (h : convTmpl j ≠ .invalid) : ∃ t, tmplJson (convTmpl j) = .ok t ∧ pruneJ t = t ∧ convTmpl t = convTmpl j := by
  rcases convTmpl_cases j with h' | ⟨s, h'⟩ | h'
  · exact ⟨.null, by rw [h']; rfl, rfl, by rw [h']; rfl⟩
  · exact ⟨.str s, by rw [h']; rfl, rfl, by rw [h']; rfl⟩
  · exact absurd h' h

theorem convLang_str (j : J) : ∃ s, convLang x j = .str s ∧ convLang x (.str s) = .str s := by
  have hu : convLang x (.str "und".toList) = .str "und".toList := by simp only [convLang]; split <;> rfl
  cases j with
  | str s =>
    by_cases h : x.tagOk s = true
    · exact ⟨s, by simp [convLang, h], by simp [convLang, h]⟩
    · exact ⟨"und".toList, by simp [convLang, h], hu⟩
  | _ => exact ⟨"und".toList, rfl, hu⟩

theorem convNull_strs (l : List Str) : convNull (.arr (l.map .str)) = l := by
  have : (l.map J.str).all J.isStr = true := by simp [J.isStr]
  simp only [convNull, this, if_true, Props.strsOf_map_str]

/-- A value of a property without empty values. -/
def prunePVal : PVal → PVal
  | .dtype dt => .dtype (canonDt dt)
  | .json j => .json (pruneJ j)
  | v => v

/-- The description without empty values. -/
def pruneDescr (d : Descr) : Descr :=
  { d with
    datatype := prunePVal d.datatype
    ordered := pruneJ d.ordered, required := pruneJ d.required, separator := pruneJ d.separator, textDirection := pruneJ d.textDirection
    common := canon d.common, atProps := canon d.atProps }

def inheritedNames : List String :=
  ["aboutUrl", "datatype", "default", "lang", "null", "ordered", "propertyUrl", "required", "separator", "textDirection", "valueUrl"]

theorem dtype_roundtrip {j : J} (hj : DistinctKeys j) {v : PVal} (h : convDatatype ext x other j = .ok v)
    (hw : ∀ dt, v = .dtype dt → DtWritable ext dt) :
    ∃ t v', dtypeJson ext v = .ok t ∧ convDatatype ext x other (pruneJ t) = .ok v' ∧
      v' = prunePVal v ∧ SamePVal v v' := by
  unfold convDatatype at h
  split at h
  · cases hf : Datatype.fromvalue ext x other j with
    | error e => rw [hf] at h; cases h
    | ok dt =>
      rw [hf] at h; cases h
      obtain ⟨s, hb, hg⟩ := fromvalue_built hj hf
      obtain ⟨t, ht, htr, hft⟩ := datatype_roundtrip hb hg (hw dt rfl)
      refine ⟨t, .dtype (canonDt dt), ht, ?_, rfl, .dtype ⟨_, _, rfl, sameItems_canon hg.atNodup, sameItems_canon hg.commonNodup⟩⟩
      have hk : pruneJ t = t := by
        refine pruneJ_kept ((keptValue_iff t).2 ?_)
        rintro (rfl | rfl) <;> cases htr
      rw [hk]
      unfold convDatatype
      rw [if_pos htr, hft]; rfl
  · next hf =>
    cases h
    refine ⟨j, .json (pruneJ j), rfl, ?_, rfl, .json (sameValue_prune j)⟩
    unfold convDatatype
    rw [if_neg]
    unfold pruneJ
    split
    · exact hf
    · simp [J.truthy]

/-- The round trip of the inherited properties; `M` are the other attributes. -/
theorem descr_roundtrip {m : List (Str × J)} {d0 d : Descr} (hdt : DistinctKeys (argOf "datatype" m)) (h : Descr.construct ext x other m = .ok d0)
    (hd : d = { d0 with common := d.common, atProps := d.atProps }) (hw : DescrWritable ext d) (od : Bool) :
    ∃ L : List (String × J × J), d.items ext od = .ok (attrItems od L) ∧ L.map (fun e => e.1.toList) = inheritedNames.map String.toList ∧
      (∀ M : List (String × J × J), ((L ++ M).map fun e => e.1.toList).Nodup →
        Descr.construct ext x other (keepItems (attrItems od (L ++ M))) = .ok { pruneDescr d with common := [], atProps := [] }) ∧
      SamePVal d.datatype (pruneDescr d).datatype := by
  unfold Descr.construct at h
  obtain ⟨v, hv, h⟩ := Datatype.bind_ok h
  simp only [pure, Except.pure, Except.ok.injEq] at h
  subst h
  obtain ⟨hw1, hw2, hw3, hw4⟩ := hw
  have ed : d.datatype = v := by rw [hd]
  have e1 : d.aboutUrl = convTmpl (argOf "aboutUrl" m) := by rw [hd]
  have e2 : d.propertyUrl = convTmpl (argOf "propertyUrl" m) := by rw [hd]
  have e3 : d.valueUrl = convTmpl (argOf "valueUrl" m) := by rw [hd]
  have e4 : d.ordered = (converter J.isBool (.bool false) true (argOf "ordered" m)).1 := by rw [hd]
  have e5 : d.separator = (converter J.isStr .null true (argOf "separator" m)).1 := by rw [hd]
  have e6 : d.textDirection = (converter isTextDirection .null true (argOf "textDirection" m)).1 := by rw [hd]
  have e7 : d.lang = ((Dict.get "lang".toList m).map (convLang x)).getD (.str "und".toList) := by rw [hd]
  clear hd
  obtain ⟨tj, v', ht1, ht2, ht3, ht4⟩ := dtype_roundtrip hdt hv (fun dt hdt => hw4 dt (ed.trans hdt))
  obtain ⟨ja, ha1, ha2, ha3⟩ := tmpl_roundtrip (by rw [← e1]; exact hw1)
  obtain ⟨jp, hp1, hp2, hp3⟩ := tmpl_roundtrip (by rw [← e2]; exact hw2)
  obtain ⟨jv, hv1, hv2, hv3⟩ := tmpl_roundtrip (by rw [← e3]; exact hw3)
  obtain ⟨ls, hl1, hl2⟩ : ∃ s, d.lang = .str s ∧ convLang x (.str s) = .str s := by
    rw [e7]
    cases Dict.get "lang".toList m with
    | none => exact ⟨_, rfl, by simp only [convLang]; split <;> rfl⟩
    | some j => exact convLang_str j
  refine ⟨[("aboutUrl", ja, .null), ("datatype", tj, .null), ("default", .str d.default, .str []),
     ("lang", d.lang, .str "und".toList), ("null", .arr (d.null.map .str), .arr [.str []]), ("ordered", d.ordered, .null),
     ("propertyUrl", jp, .null), ("required", d.required, .null), ("separator", d.separator, .null),
     ("textDirection", d.textDirection, .null), ("valueUrl", jv, .null)], ?_, rfl, ?_, ?_⟩
  · unfold Descr.items
    rw [e1, ha1, ed, ht1, e2, hp1, e3, hv1]
    rfl
  · intro M hn
    generalize hA : keepItems (attrItems od (_ ++ M)) = A
    have g : ∀ {n : String} {w : J}, (n, w, J.null) ∈ _ ++ M → n.toList ≠ "null".toList → argOf n A = pruneJ w :=
      fun hm hnn => hA ▸ arg_attr (od := od) hn hm hnn
    have gd : Dict.get "default".toList A = if (od && decide (J.str d.default = .str [])) then none else some (.str d.default) := by
      rw [← hA, get_attr (od := od) hn (n := "default") (v := .str d.default) (d := .str []) (by simp)]
      simp [keptValue]
    have gl : Dict.get "lang".toList A = if (od && decide (d.lang = .str "und".toList)) then none else some d.lang := by
      rw [← hA, get_attr (od := od) hn (n := "lang") (v := d.lang) (d := .str "und".toList) (by simp), hl1]
      simp [keptValue]
    have gn : Dict.get "null".toList A = if (od && decide (J.arr (d.null.map .str) = .arr [.str []])) then none else some (.arr (d.null.map .str)) := by
      rw [← hA, get_attr (od := od) hn (n := "null") (v := .arr (d.null.map .str)) (d := .arr [.str []]) (by simp)]
      simp
    unfold Descr.construct
    rw [g (n := "datatype") (w := tj) (by simp) (by decide), ht2]
    simp only [bind, Except.bind]
    rw [g (n := "aboutUrl") (w := ja) (by simp) (by decide), g (n := "propertyUrl") (w := jp) (by simp) (by decide),
      g (n := "valueUrl") (w := jv) (by simp) (by decide), g (n := "ordered") (w := d.ordered) (by simp) (by decide),
      g (n := "required") (w := d.required) (by simp) (by decide), g (n := "separator") (w := d.separator) (by simp) (by decide),
      g (n := "textDirection") (w := d.textDirection) (by simp) (by decide), ha2, hp2, hv2, ha3, hp3, hv3, ← e1, ← e2, ← e3, gd, gl, gn]
    have f1 : (converter J.isBool (.bool false) true (pruneJ d.ordered)).1 = pruneJ d.ordered := by
      rw [e4]; exact converter_prune rfl _
    have f2 : (converter J.isStr .null true (pruneJ d.separator)).1 = pruneJ d.separator := by
      rw [e5]; exact converter_prune rfl _
    have f3 : (converter isTextDirection .null true (pruneJ d.textDirection)).1 = pruneJ d.textDirection := by
      rw [e6]; exact converter_prune rfl _
    have f4 : ((if (od && decide (J.str d.default = .str [])) then none else some (J.str d.default)).map convDefault).getD [] = d.default := by
      split
      · next hc =>
        simp only [Bool.and_eq_true, decide_eq_true_eq, J.str.injEq] at hc
        rw [hc.2]; rfl
      · rfl
    have f5 : ((if (od && decide (d.lang = .str "und".toList)) then none else some d.lang).map (convLang x)).getD (.str "und".toList) = d.lang := by
      split
      · next hc =>
        simp only [Bool.and_eq_true, decide_eq_true_eq] at hc
        rw [hc.2]; rfl
      · rw [hl1]; exact hl2
    have f6 : ((if (od && decide (J.arr (d.null.map .str) = .arr [.str []])) then none else some (J.arr (d.null.map .str))).map convNull).getD [[]] = d.null := by
      split
      · next hc =>
        simp only [Bool.and_eq_true, decide_eq_true_eq] at hc
        have := congrArg convNull hc.2
        rw [convNull_strs] at this
        rw [this]; rfl
      · exact convNull_strs _
    rw [f1, f2, f3, f4, f5, f6, ht3, ← ed]
    rfl
  · rw [ed]
    have : (pruneDescr d).datatype = v' := by rw [ht3, ← ed]; rfl
    rw [this]; exact ht4

end
end Csvw
