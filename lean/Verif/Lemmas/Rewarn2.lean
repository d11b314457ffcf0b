import Verif.Lemmas.Rewarn
/-!
# Warnings about written descriptions: inherited properties, columns
-/

namespace Csvw
open Csvw.Spec

section
variable {ext : Ext} {x : MExt} {other : Base → Derived → J → Res Val} {lk : EncLookup}

theorem parts_setdefault {fields : List Str} {k : Str} (hk : OwnProperty k) (hf : k ∈ fields) (v : J) (m : List (Str × J)) :
    Warn.parts x fields true (Dict.setdefault k v m) = Warn.parts x fields true m := by
  unfold Dict.setdefault
  split
  · rfl
  · unfold Warn.parts
    rw [List.any_append]
    simp only [List.any_cons, List.any_nil, Bool.or_false]
    rw [if_neg (fun h => hk.1 (atPrefix.1 h)), if_neg (by simpa using hk.2)]
    simp [hf]

/-- A datatype which was read without warning. -/
theorem datatype_source {j : J} (hj : DistinctKeys j) {dt : Datatype} (h : Datatype.fromvalue ext x other j = .ok dt)
    (hs : Warn.datatype ext x j = false) : ∃ s, Datatype.Built ext other s dt ∧ Warn.datatypeSpec ext s = false ∧
      GoodParts x "Datatype".toList dt.atProps dt.common ∧ CleanParts x dt.atProps dt.common := by
  have key : ∀ {m : List (Str × J)}, DistinctKeys (.obj m) → Datatype.fromvalue ext x other (.obj m) = .ok dt → Warn.datatype ext x (.obj m) = false →
      ∃ s, Datatype.Built ext other s dt ∧ Warn.datatypeSpec ext s = false ∧
      GoodParts x "Datatype".toList dt.atProps dt.common ∧ CleanParts x dt.atProps dt.common := by
    intro m hm h hs
    obtain ⟨⟨s, hb, e1, e2, e3⟩, -⟩ := object_built hm.nodup h
    have e : Warn.datatype ext x (.obj m) = (Warn.parts x datatypeFields true m || Warn.datatypeSpec ext s) := by
      unfold Warn.datatype
      simp only
      congr 1
      exact datatypeSpec_congr e1.symm e2.symm e3.symm
    rw [e, Bool.or_eq_false_iff] at hs
    refine ⟨s, hb, hs.2, ?_⟩
    unfold Datatype.fromvalue at h
    simp only at h
    obtain ⟨o, hp, h⟩ := Datatype.bind_ok h
    cases o with
    | none => cases h
    | some p =>
      simp only at h
      obtain ⟨l1, -, h⟩ := Datatype.bind_ok h
      obtain ⟨l2, -, h⟩ := Datatype.bind_ok h
      obtain ⟨l3, -, h⟩ := Datatype.bind_ok h
      have hb := Datatype.built_of_construct h
      rw [hb.atProps, hb.common]
      have hd := distinct_setdefault (k := "base".toList) (.str "string".toList) hm
      refine ⟨(goodParts hd hp).1, cleanParts_of hd.nodup hp ?_⟩
      rw [parts_setdefault (by decide) (by decide +kernel)]
      exact hs.1
  cases j with
  | str s =>
    rw [Datatype.fromvalue_str] at h
    refine key (.obj (by simp) ?_) h ?_
    · intro k v hm
      simp only [List.mem_singleton, Prod.mk.injEq] at hm
      rw [hm.2]; exact .str _
    · unfold Warn.datatype at hs ⊢
      simp only at hs ⊢
      rw [Bool.or_eq_false_iff]
      refine ⟨?_, hs⟩
      unfold Warn.parts
      simp only [List.any_cons, List.any_nil, Bool.or_false]
      rw [if_neg (by decide), if_neg (by decide)]
      decide +kernel
  | obj m => exact key hj h hs
  | _ => cases h

/-! ## Inherited properties -/

theorem tmpl_written {j t : J} (h : tmplJson (convTmpl j) = .ok t) : Warn.tmpl (pruneJ t) = false := by
  rcases convTmpl_cases j with h' | ⟨s, h'⟩ | h' <;> rw [h'] at h <;> cases h <;> rfl

theorem conv_prune {ok : J → Bool} {j : J} (h : Warn.conv ok true j = false) : Warn.conv ok true (pruneJ j) = false := by
  unfold pruneJ
  split
  · exact h
  · rfl

theorem descr_written {fields : List Str} {tn : Str} {m : List (Str × J)} (hj : DistinctKeys (.obj m)) {p : Parts}
    (hp : partitionProperties x fields tn true (.obj m) = .ok (some p)) (hf : ∀ n ∈ inheritedNames, n.toList ∈ fields) {D : Descr}
    (hD : Descr.ofParts ext x other p = .ok D) (hw : DescrWritable ext D) (hfin : ∀ dt, D.datatype = .dtype dt → FiniteBounds dt)
    (hs : Warn.descr ext x m = false) {od : Bool} (hund : od = false → x.tagOk "und".toList = true) {l : List (Str × J)}
    (hl : D.items ext od = .ok l) : ∃ L : List (String × J × J), l = attrItems od L ∧ L.map (fun e => e.1.toList) = inheritedNames.map String.toList ∧
      ∀ (M : List (String × J × J)) (A : List (Str × J)), ((L ++ M).map fun e => e.1.toList).Nodup →
        (∀ k, OwnProperty k → Dict.get k A = Dict.get k (keepItems (attrItems od (L ++ M)))) → Warn.descr ext x A = false := by
  unfold Descr.ofParts at hD
  obtain ⟨d0, hd0, rfl⟩ := Except.map_eq_ok.1 hD
  unfold Descr.construct at hd0
  obtain ⟨v, hv, hd0⟩ := Datatype.bind_ok hd0
  simp only [pure, Except.pure, Except.ok.injEq] at hd0
  subst hd0
  have ho : ∀ n ∈ inheritedNames, OwnProperty n.toList := by decide +kernel
  have own : ∀ {n : String}, n ∈ inheritedNames → argOf n p.own = argOf n m := fun hn => own_arg hj.nodup hp (ho _ hn) fun _ => hf _ hn
  have owng : ∀ {n : String}, n ∈ inheritedNames → Dict.get n.toList p.own = Dict.get n.toList m :=
    fun hn => own_get hj.nodup hp (ho _ hn) fun _ => hf _ hn
  unfold Descr.items at hl
  simp only [own (n := "aboutUrl") (by decide), own (n := "datatype") (by decide), own (n := "ordered") (by decide), own (n := "propertyUrl") (by decide),
    own (n := "required") (by decide), own (n := "separator") (by decide), own (n := "textDirection") (by decide), own (n := "valueUrl") (by decide),
    owng (n := "lang") (by decide), owng (n := "default") (by decide), owng (n := "null") (by decide)] at hl hv hfin
  obtain ⟨ja, ha, hl⟩ := Datatype.bind_ok hl
  obtain ⟨jd, hd, hl⟩ := Datatype.bind_ok hl
  obtain ⟨jp, hpu, hl⟩ := Datatype.bind_ok hl
  obtain ⟨jv, hvu, hl⟩ := Datatype.bind_ok hl
  simp only [pure, Except.pure, Except.ok.injEq] at hl
  subst hl
  refine ⟨_, rfl, rfl, ?_⟩
  intro M A hnd hA
  unfold Warn.descr at hs ⊢
  simp only [Bool.or_eq_false_iff] at hs
  obtain ⟨⟨⟨⟨⟨⟨⟨⟨⟨s1, s2⟩, s3⟩, s4⟩, s5⟩, s6⟩, s7⟩, s8⟩, s9⟩, s10⟩ := hs
  rw [converter_silent s6, converter_silent s8, converter_silent s9] at hnd hA
  generalize hL : ([_, _, _, _, _, _, _, _, _, _, _] : List (String × J × J)) = L at hnd hA
  have memL : ∀ {e}, e ∈ L → e ∈ L ++ M := fun h => List.mem_append_left _ h
  have g : ∀ {n : String} {w : J}, n ∈ inheritedNames → (n, w, J.null) ∈ L → n.toList ≠ "null".toList → argOf n A = pruneJ w := by
    intro n w hn hm hnn
    unfold argOf
    rw [hA _ (ho n hn)]
    exact arg_attr hnd (memL hm) hnn
  have gg : ∀ {n : String} {w d : J} {f : J → Bool}, n ∈ inheritedNames → (n, w, d) ∈ L → (¬ (od = true ∧ w = d) → f w = false) →
      Warn.given n f A = false := by
    intro n w d f hn hm hf
    have := given_attr hnd (memL hm) hf
    unfold Warn.given at this ⊢
    rw [hA _ (ho n hn)]
    exact this
  subst hL
  rw [g (n := "aboutUrl") (w := ja) (by decide) (by simp) (by decide), g (n := "datatype") (w := jd) (by decide) (by simp) (by decide),
    g (n := "ordered") (w := argOf "ordered" m) (by decide) (by simp) (by decide), g (n := "propertyUrl") (w := jp) (by decide) (by simp) (by decide),
    g (n := "separator") (w := argOf "separator" m) (by decide) (by simp) (by decide),
    g (n := "textDirection") (w := argOf "textDirection" m) (by decide) (by simp) (by decide),
    g (n := "valueUrl") (w := jv) (by decide) (by simp) (by decide),
    tmpl_written ha, tmpl_written hpu, tmpl_written hvu, conv_prune s6, conv_prune s8, conv_prune s9,
    gg (n := "default") (w := .str (((Dict.get "default".toList m).map convDefault).getD [])) (d := .str []) (by decide) (by simp) (fun _ => rfl),
    gg (n := "null") (w := .arr ((((Dict.get "null".toList m).map convNull).getD [[]]).map .str)) (d := .arr [.str []]) (by decide) (by simp)
      (fun _ => by simp only [Warn.null, all_isStr_map]; rfl)]
  have hlang : Warn.given "lang" (fun j => !langKept x j) A = false := by
    refine gg (w := ((Dict.get "lang".toList m).map (convLang x)).getD (.str "und".toList)) (d := .str "und".toList) (by decide) (by simp) ?_
    intro hne
    unfold Warn.given at s4
    cases hgl : Dict.get "lang".toList m with
    | none =>
      rw [hgl] at hne
      simp only [Option.map_none, Option.getD_none] at hne ⊢
      cases od with
      | true => exact absurd (by simp) hne
      | false => simp only [langKept, hund rfl, Bool.not_true]
    | some w =>
      rw [hgl] at s4
      simp only [Option.map_some, Option.getD_some]
      simp only [Bool.not_eq_false'] at s4
      cases w with
      | str s => simp only [langKept] at s4; simp only [convLang, s4, if_pos, langKept, Bool.not_true]
      | _ => cases s4
  rw [hlang]
  have hdt : ((pruneJ jd).truthy && Warn.datatype ext x (pruneJ jd)) = false := by
    unfold convDatatype at hv
    split at hv
    · next ht =>
      obtain ⟨dt, h1, rfl⟩ := Except.map_eq_ok.1 hv
      rw [ht, Bool.true_and] at s2
      obtain ⟨s, b1, b2, b3, b4⟩ := datatype_source (hj.arg _) h1 s2
      have := datatype_written b1 b3 (hw.datatype dt rfl) (hfin dt rfl) b2 b4 hd
      unfold pruneJ
      split
      · rw [this, Bool.and_false]
      · rfl
    · next ht =>
      cases hv
      simp only [dtypeJson, Except.ok.injEq] at hd
      subst hd
      unfold pruneJ
      split
      · rw [Bool.not_eq_true] at ht; rw [ht]; rfl
      · rfl
  rw [hdt]
  rfl

/-! ## Columns -/

theorem items_goodKeys {od : Bool} {L : List (String × J × J)} {names : List String} (hL : L.map (fun e => e.1.toList) = names.map String.toList)
    {fields : List Str} (h : ∀ n ∈ names, OwnProperty n.toList ∧ n.toList ∈ fields) : ∀ e ∈ attrItems od L, OwnProperty e.1 ∧ e.1 ∈ fields := by
  intro e he
  have := attrItems_keys he
  rw [hL] at this
  obtain ⟨n, hn, h'⟩ := List.mem_map.1 this
  rw [← h']
  exact h n hn

theorem unlist_titles (l : List Str) : Warn.titlesIn (unlist l) = false := by
  unfold unlist
  split
  · rfl
  · simp only [Warn.titlesIn, all_isStr_map]; rfl

theorem ofPairs_mem {κ α : Type} [DecidableEq κ] {l : List (κ × α)} {e : κ × α} (h : e ∈ Dict.ofPairs l) : e ∈ l := by
  have hg : Dict.get e.1 (Dict.ofPairs l) = some e.2 := Dict.get_of_mem_nodup (Dict.nodup_keys_ofPairs l) h
  unfold Dict.ofPairs at hg
  rw [Dict.get_update] at hg
  simp only [Dict.get_nil, Option.or_none] at hg
  exact List.mem_reverse.1 (Dict.get_mem hg)

theorem titles_written (j : J) : Warn.titles x (pruneJ (titlesJson (convTitles x j))) = false := by
  unfold pruneJ
  split
  case isFalse => rfl
  cases ht : convTitles x j with
  | none => rfl
  | some n =>
    have hc : NatLang.construct x j = .ok n := by
      unfold convTitles at ht
      split at ht
      · cases ht
      · split at ht
        · cases ht; assumption
        · cases ht
    simp only [titlesJson]
    unfold NatLang.asdict
    split
    · next l =>
      unfold unlist
      split
      · rfl
      · simp only [Warn.titles, all_isStr_map]; rfl
    · next hn =>
      simp only [Warn.titles, Bool.or_eq_false_iff, Bool.not_eq_false', List.all_eq_true, List.any_eq_false, Bool.not_eq_true]
      have hall : ∀ p ∈ n, ∃ k, p.1 = some k ∧ x.tagOk k = true := by
        unfold NatLang.construct at hc
        split at hc
        · cases hc; exact absurd rfl (hn _)
        · split at hc
          · cases hc; exact absurd rfl (hn _)
          · cases hc; intro p hp; cases hp
        · split at hc
          · next hall =>
            cases hc
            intro p hp
            obtain ⟨q, hq, rfl⟩ := List.mem_map.1 (ofPairs_mem hp)
            exact ⟨_, rfl, List.all_eq_true.1 hall q hq⟩
          · cases hc
        · cases hc
      constructor
      · intro e he
        obtain ⟨p, hp, rfl⟩ := List.mem_map.1 (ofPairs_mem he)
        obtain ⟨k, hk, ht⟩ := hall p hp
        simp only [hk, Option.getD_some, ht]
      · intro e he
        obtain ⟨p, -, rfl⟩ := List.mem_map.1 (ofPairs_mem he)
        exact unlist_titles _

theorem column_written {m : List (Str × J)} (hj : DistinctKeys (.obj m)) {c : Column} (h : Column.fromvalue ext x other (.obj m) = .ok c)
    (hw : DescrWritable ext c.props) (hfin : ∀ dt, c.props.datatype = .dtype dt → FiniteBounds dt) (hs : Warn.column ext x m = false) {od : Bool}
    (hund : od = false → x.tagOk "und".toList = true) {n : Nat} {m' : List (Str × J)} (hm' : ({ c with number := n } : Column).asdict ext od = .ok (.obj m')) :
    Warn.column ext x m' = false := by
  obtain ⟨p, hp, hf, -⟩ := fromParts_inv hj.nodup h
  unfold Column.ofParts at hf
  obtain ⟨D, hD, hf⟩ := Datatype.bind_ok hf
  obtain ⟨name, h1, hf⟩ := Datatype.bind_ok hf
  obtain ⟨so, h2, hf⟩ := Datatype.bind_ok hf
  obtain ⟨vi, h3, hf⟩ := Datatype.bind_ok hf
  simp only [pure, Except.pure, Except.ok.injEq] at hf
  subst hf
  unfold Warn.column at hs
  simp only [Bool.or_eq_false_iff] at hs
  obtain ⟨⟨⟨⟨⟨s1, s2⟩, s3⟩, s4⟩, s5⟩, s6⟩ := hs
  unfold Column.asdict at hm'
  obtain ⟨l, hl, hm'⟩ := Datatype.bind_ok hm'
  simp only [pure, Except.pure, Except.ok.injEq, J.obj.injEq] at hm'
  obtain ⟨L, rfl, hL, hdescr⟩ := descr_written hj hp (by decide +kernel) hD hw hfin s2 hund hl
  rw [← attrItems_append] at hm'
  generalize hM : ([_, _, _, _] : List (String × J × J)) = M at hm'
  have hMn : M.map (fun e => e.1.toList) = columnNames.map String.toList := by subst hM; rfl
  have hLM : (L ++ M).map (fun e => e.1.toList) = (inheritedNames ++ columnNames).map String.toList := by rw [List.map_append, List.map_append, hL, hMn]
  have hnd : ((L ++ M).map fun e => e.1.toList).Nodup := by rw [hLM]; decide +kernel
  have hgood := (descrFrom hj hp hD).good
  have hcl : CleanParts x D.atProps D.common := by
    have := cleanParts_of hj.nodup hp s1
    obtain ⟨d0, -, rfl⟩ := Except.map_eq_ok.1 hD
    exact this
  subst hm'
  have memM : ∀ {e}, e ∈ M → e ∈ L ++ M := fun h => List.mem_append_right _ h
  unfold Warn.column
  rw [parts_written hgood hcl (items_goodKeys hLM (by decide +kernel)), hdescr M _ hnd fun k hk => get_asdict hgood hk]
  have hname : Warn.conv J.isStr true (argOf "name" (asdictOf D.atProps D.common (attrItems od (L ++ M)))) = false := by
    rw [arg_asdict hgood (by decide), arg_attr hnd (v := .ofOptStr name) (memM (by subst hM; simp)) (by decide)]
    cases name <;> rfl
  have hT : Warn.titles x (argOf "titles" (asdictOf D.atProps D.common (attrItems od (L ++ M)))) = false := by
    rw [arg_asdict hgood (by decide), arg_attr hnd (v := titlesJson (convTitles x (argOf "titles" p.own))) (memM (by subst hM; simp)) (by decide)]
    exact titles_written _
  rw [hname, hT, given_asdict hgood (by decide), given_asdict hgood (by decide),
    given_attr hnd (n := "suppressOutput") (v := .bool so) (d := .bool false) (memM (by subst hM; simp)) (fun _ => rfl),
    given_attr hnd (n := "virtual") (v := .bool vi) (d := .bool false) (memM (by subst hM; simp)) (fun _ => rfl)]
  rfl

end
end Csvw
