import Verif.Lemmas.Metadata2
/-!
# Lemmas about `asdict` and `fromvalue`: columns and schemas
-/

namespace Csvw
open Spec Datatypes

section
variable {ext : Ext} {x : MExt} {other : Base → Derived → J → Res Val}

theorem own_distinct {fields : List Str} {tn : Str} {d : J} (hd : DistinctKeys d) {p : Parts}
    (h : partitionProperties x fields tn true d = .ok (some p)) : ∀ k v, (k, v) ∈ p.own → DistinctKeys v := by
  intro k v hm
  cases d with
  | obj m =>
    cases hd with
    | obj hn hv =>
      obtain ⟨q1, -⟩ := Props.C52_partition x fields tn true m p hn h
      rw [q1] at hm
      exact hv k v (List.mem_filter.1 hm).1
  | _ =>
    simp only [partitionProperties] at h
    split at h
    · cases h
    · cases h; cases hm

theorem argOf_distinct {m : List (Str × J)} (h : ∀ k v, (k, v) ∈ m → DistinctKeys v) (n : String) : DistinctKeys (argOf n m) := by
  unfold argOf
  cases hg : Dict.get n.toList m with
  | none => exact .null
  | some v => exact h _ _ (Dict.get_mem hg)

theorem sameDescr_prune {d : Descr} (hc : (Dict.keys d.common).Nodup) (ha : (Dict.keys d.atProps).Nodup)
    (hdt : SamePVal d.datatype (pruneDescr d).datatype) : SameDescr d (pruneDescr d) :=
  ⟨rfl, hdt, rfl, rfl, rfl, sameValue_prune _, rfl, sameValue_prune _, sameValue_prune _, sameValue_prune _, rfl,
    sameItems_canon hc, sameItems_canon ha⟩

/-- What is known of a description which was constructed. -/
structure DescrFrom (ext : Ext) (x : MExt) (other : Base → Derived → J → Res Val) (tn : Str) (d : Descr) : Prop where
  good : GoodParts x tn d.atProps d.common
  built : ∃ m d0, DistinctKeys (argOf "datatype" m) ∧ Descr.construct ext x other m = .ok d0 ∧
    d = { d0 with common := d.common, atProps := d.atProps }

/-- The round trip of a description with other attributes `M`. -/
theorem descr_parts {tn : String} {d : Descr} (h : DescrFrom ext x other tn.toList d) (hw : DescrWritable ext d) (od : Bool) {fields : List Str}
    {names : List String} (hnames : (inheritedNames ++ names).Nodup)
    (hall : ∀ k ∈ (inheritedNames ++ names).map String.toList, OwnProperty k ∧ k ∈ fields ∧ k ∉ partNames ∧ k ∉ privateFields) :
    ∃ L, d.items ext od = .ok (attrItems od L) ∧ L.map (fun e => e.1.toList) = inheritedNames.map String.toList ∧
      ∀ M : List (String × J × J), M.map (fun e => e.1.toList) = names.map String.toList →
        ((L ++ M).map fun e => e.1.toList).Nodup ∧
        ∀ {α : Type} (f : Parts → Res α),
        fromParts x fields tn f (.obj (asdictOf d.atProps d.common (attrItems od L ++ attrItems od M))) =
          f ⟨canon d.common, canon d.atProps, keepItems (attrItems od (L ++ M)), []⟩ ∧
        Descr.ofParts ext x other ⟨canon d.common, canon d.atProps, keepItems (attrItems od (L ++ M)), []⟩ = .ok (pruneDescr d) ∧
        SameDescr d (pruneDescr d) := by
  obtain ⟨m, d0, h1, h2, h3⟩ := h.built
  obtain ⟨L, hL1, hL2, hL3, hL4⟩ := descr_roundtrip h1 h2 h3 hw od
  refine ⟨L, hL1, hL2, ?_⟩
  intro M hM
  have hLM : (L ++ M).map (fun e => e.1.toList) = (inheritedNames ++ names).map String.toList := by
    rw [List.map_append, List.map_append, hL2, hM]
  have hinj : ((inheritedNames ++ names).map String.toList).Nodup := by
    have hp : ∀ l : List String, l.Nodup → (l.map String.toList).Nodup := by
      intro l
      induction l with
      | nil => simp
      | cons a r ih =>
        intro hn
        rw [List.nodup_cons] at hn
        rw [List.map_cons, List.nodup_cons]
        refine ⟨?_, ih hn.2⟩
        intro hm
        obtain ⟨b, hb, he⟩ := List.mem_map.1 hm
        exact hn.1 (String.toList_inj.1 he ▸ hb)
    exact hp _ hnames
  have hnd : ((L ++ M).map fun e => e.1.toList).Nodup := by rw [hLM]; exact hinj
  refine ⟨hnd, ?_⟩
  intro α f
  have hown : ∀ e ∈ attrItems od (L ++ M), OwnProperty e.1 ∧ e.1 ∈ fields ∧ e.1 ∉ partNames ∧ e.1 ∉ privateFields := by
    intro e he
    have := attrItems_keys he
    rw [hLM] at this
    exact hall _ this
  refine ⟨?_, ?_, sameDescr_prune h.good.commonNodup h.good.atNodup hL4⟩
  · rw [← attrItems_append]
    unfold fromParts
    have hp : partitionProperties x fields tn.toList true (.obj (asdictOf d.atProps d.common (attrItems od (L ++ M)))) =
        .ok (some ⟨canon d.common, canon d.atProps, keepItems (attrItems od (L ++ M)), []⟩) :=
      partition_asdict h.good (attrItems_nodup hnd) fun e he => ⟨(hown e he).1, (hown e he).2.1, (hown e he).2.2.1⟩
    rw [hp]
    simp only
    rw [if_neg]
    intro hh
    obtain ⟨e, he, hpe⟩ := List.any_eq_true.1 hh
    exact (hown e (List.mem_filter.1 he).1).2.2.2 (by simpa using hpe)
  · unfold Descr.ofParts
    simp only [hL3 M hnd, Except.map]
    rfl

theorem descrFrom {fields : List Str} {tn : Str} {d : J} (hd : DistinctKeys d) {p : Parts}
    (h : partitionProperties x fields tn true d = .ok (some p)) {D : Descr} (hD : Descr.ofParts ext x other p = .ok D) :
    DescrFrom ext x other tn D := by
  obtain ⟨g, -⟩ := goodParts hd h
  unfold Descr.ofParts at hD
  obtain ⟨d0, h0, rfl⟩ := Except.map_eq_ok.1 hD
  exact ⟨g, p.own, d0, argOf_distinct (own_distinct hd h) _, h0, rfl⟩

theorem fromParts_ok {α : Type} {fields : List Str} {tn : String} {f : Parts → Res α} {d : J} {a : α} (h : fromParts x fields tn f d = .ok a) :
    ∃ p, partitionProperties x fields tn.toList true d = .ok (some p) ∧ f p = .ok a := by
  unfold fromParts at h
  split at h
  · cases h
  · cases h
  · next p hp =>
    split at h
    · cases h
    · exact ⟨p, hp, h⟩

/-! ## Titles -/

theorem natlang_asdict_ne_null (n : NatLang) : n.asdict ≠ .null := by
  unfold NatLang.asdict
  split
  · unfold unlist; split <;> simp
  · simp

theorem titles_roundtrip {j : J} (hj : DistinctKeys j) :
    SameTitles (convTitles x j) (convTitles x (pruneJ (titlesJson (convTitles x j)))) := by
  cases ht : convTitles x j with
  | none => exact .inl rfl
  | some n =>
    have hc : NatLang.construct x j = .ok n := by
      unfold convTitles at ht
      split at ht
      · cases ht
      · split at ht
        · next h => cases ht; exact h
        · cases ht
    have hr := Props.C53_roundtrip x j hj n hc
    unfold pruneJ
    split
    · left
      show convTitles x n.asdict = some n
      unfold convTitles
      split
      · next h => exact absurd h (natlang_asdict_ne_null n)
      · rw [hr]
    · next hk =>
      rw [keptValue_iff, Classical.not_not] at hk
      right
      refine ⟨rfl, ?_⟩
      change EmptyValue n.asdict at hk
      rcases hk with hk | hk
      · right
        unfold NatLang.asdict at hk
        split at hk
        · next l =>
          cases l with
          | nil => rfl
          | cons a r => cases r <;> simp [unlist] at hk
        · cases hk
      · left
        unfold NatLang.asdict at hk
        split at hk
        · next l => cases l with
          | nil => simp [unlist] at hk
          | cons a r => cases r <;> simp [unlist] at hk
        · cases n with
          | nil => rfl
          | cons a r =>
            exfalso
            simp only [J.obj.injEq] at hk
            have := (Dict.mem_keys_ofPairs (a.1.getD "und".toList) ((a :: r).map fun p => (p.1.getD "und".toList, unlist p.2))).2
              (by simp [Dict.keys])
            rw [hk] at this
            simp [Dict.keys] at this

theorem sameTitles_first {t t' : Option NatLang} (h : SameTitles t t') : NatLang.first t' = NatLang.first t := by
  rcases h with rfl | ⟨rfl, rfl | rfl⟩ <;> rfl

/-! ## Columns -/

def columnNames : List String := ["name", "suppressOutput", "titles", "virtual"]

theorem column_roundtrip {d : J} (hd : DistinctKeys d) {c : Column} (h : Column.fromvalue ext x other d = .ok c) (hw : DescrWritable ext c.props)
    (od : Bool) (n : Nat) : ∃ m c', ({ c with number := n } : Column).asdict ext od = .ok (.obj m) ∧ Column.fromvalue ext x other (.obj m) = .ok c' ∧
      SameColumn c c' := by
  obtain ⟨p, hp, hf⟩ := fromParts_ok h
  unfold Column.ofParts at hf
  obtain ⟨D, hD, hf⟩ := Datatype.bind_ok hf
  obtain ⟨name, h1, hf⟩ := Datatype.bind_ok hf
  obtain ⟨so, h2, hf⟩ := Datatype.bind_ok hf
  obtain ⟨vi, h3, hf⟩ := Datatype.bind_ok hf
  simp only [pure, Except.pure, Except.ok.injEq] at hf
  subst hf
  have hT := titles_roundtrip (x := x) (argOf_distinct (own_distinct hd hp) "titles")
  generalize convTitles x (argOf "titles" p.own) = T at hT
  obtain ⟨L, hL1, hL2, hL3⟩ := descr_parts (descrFrom hd hp hD) hw od (fields := columnFields) (names := columnNames) (by decide)
    (by decide +kernel)
  obtain ⟨hnd, hP⟩ := hL3 [("name", .ofOptStr name, .null), ("suppressOutput", .bool so, .bool false),
     ("titles", titlesJson T, .null), ("virtual", .bool vi, .bool false)] rfl
  obtain ⟨hP1, hP2, hP3⟩ := hP (Column.ofParts ext x other)
  refine ⟨asdictOf D.atProps D.common (attrItems od L ++ attrItems od [("name", .ofOptStr name, .null), ("suppressOutput", .bool so, .bool false),
     ("titles", titlesJson T, .null), ("virtual", .bool vi, .bool false)]), { props := pruneDescr D, name, titles := convTitles x (pruneJ (titlesJson T)), virtual := vi, suppressOutput := so }, ?_, ?_,
    ⟨hP3, rfl, hT, rfl, rfl, rfl⟩⟩
  · unfold Column.asdict
    simp only [hL1, bind, Except.bind]
    rfl
  · unfold Column.fromvalue
    rw [hP1]
    unfold Column.ofParts
    rw [hP2]
    have flag : ∀ {n : String} {b : Bool}, (n, J.bool b, J.bool false) ∈ L ++ [("name", .ofOptStr name, .null), ("suppressOutput", .bool so, .bool false),
     ("titles", titlesJson T, .null), ("virtual", .bool vi, .bool false)] → n.toList ≠ "null".toList →
        convFlag (argOf n (keepItems (attrItems od (L ++ [("name", .ofOptStr name, .null), ("suppressOutput", .bool so, .bool false),
     ("titles", titlesJson T, .null), ("virtual", .bool vi, .bool false)])))) = .ok b := by
      intro n b hm hn
      unfold argOf
      rw [get_attr hnd hm]
      simp only [hn, decide_false, Bool.false_or]
      cases b <;> cases od <;> rfl
    have hname : convName (pruneJ (J.ofOptStr name)) = .ok name := by cases name <;> rfl
    simp only [bind, Except.bind]
    rw [arg_attr hnd (n := "name") (v := .ofOptStr name) (by simp) (by decide), hname,
      flag (n := "suppressOutput") (b := so) (by simp) (by decide), flag (n := "virtual") (b := vi) (by simp) (by decide),
      arg_attr hnd (n := "titles") (v := titlesJson T) (by simp) (by decide)]
    rfl

end
end Csvw
