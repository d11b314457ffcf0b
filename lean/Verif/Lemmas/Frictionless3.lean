import Verif.Lemmas.Frictionless2
/-!
# Lemmas about the conversion of frictionless data packages: dialects, schemas and tables
-/

namespace Csvw.Frictionless
open Spec Datatypes Csvw.Spec.Frictionless

variable {ext : Ext} {x : MExt} {other : Base → Derived → J → Res Val} {lk : EncLookup}

/-! ## Dialects -/

theorem copy_get {d : List (Str × J)} {k : Str} : ∀ (ns : List String) (res : List (Str × J)),
    Dict.get k (ns.foldl (copyProp d) res) = if k ∈ ns.map String.toList then (Dict.get k d).or (Dict.get k res) else Dict.get k res := by
  have h1 : ∀ res p, Dict.get k (copyProp d res p) = if k = p.toList then (Dict.get k d).or (Dict.get k res) else Dict.get k res := by
    intro res p
    exact addConstraint_get (cs := d) (dt := res)
  intro ns
  induction ns with
  | nil => intro dt; simp
  | cons n ns ih =>
    intro dt
    rw [List.foldl_cons, ih, h1]
    by_cases h1 : k = n.toList
    · simp only [h1, if_true, List.map_cons, List.mem_cons, true_or]
      split
      · cases Dict.get n.toList d <;> simp
      · rfl
    · simp [h1]

theorem copy_nodup {d : List (Str × J)} : ∀ (ns : List String) {res : List (Str × J)}, (Dict.keys res).Nodup →
    (Dict.keys (ns.foldl (copyProp d) res)).Nodup := by
  intro ns
  induction ns with
  | nil => intro res h; exact h
  | cons n ns ih =>
    intro res h
    refine ih ?_
    unfold copyProp
    split
    · exact Dict.nodup_keys_set h
    · exact h

theorem dialectOf_eq {rsc d : List (Str × J)} (h : dialectOf rsc = .ok d) : d = csvDialect rsc := by
  unfold dialectOf at h
  unfold csvDialect prop
  split at h
  · next hd => cases h; rw [hd]
  · next j hd =>
    rw [hd]
    cases j with
    | obj m' =>
      simp only [asObj, bind, Except.bind] at h ⊢
      split at h
      · next hc => cases h; rw [hc]
      · next j' hc =>
        rw [hc]
        cases j' with
        | obj => cases h; rfl
        | _ => cases h
    | _ => cases h

/-- The JSON object for the dialect. -/
theorem dialect_get {rsc : List (Str × J)} {j : J} (h : convertDialect rsc = .ok j) :
    ∃ m, j = .obj m ∧ (Dict.keys m).Nodup ∧
      (∀ k : String, k ∈ ["delimiter", "quoteChar", "doubleQuote", "skipInitialSpace", "header"] →
        Dict.get k.toList m = prop k (csvDialect rsc)) ∧
      Dict.get "commentPrefix".toList m = prop "commentChar" (csvDialect rsc) ∧
      Dict.get "encoding".toList m = (prop "encoding" rsc).filter J.truthy ∧
      (∀ k, k ∉ ["delimiter", "quoteChar", "doubleQuote", "skipInitialSpace", "header", "commentPrefix", "encoding"].map String.toList →
        Dict.get k m = none) := by
  unfold convertDialect at h
  obtain ⟨d, hd, h⟩ := Datatype.bind_ok h
  rw [dialectOf_eq hd] at h
  clear hd
  generalize csvDialect rsc = d at h
  cases h
  refine ⟨_, rfl, ?_⟩
  -- the object before the loop
  generalize hr0 : (if (argOf "delimiter" d).truthy = true then [("delimiter".toList, argOf "delimiter" d)] else []) = r0
  generalize hr1 : (if (argOf "encoding" rsc).truthy = true then Dict.set "encoding".toList (argOf "encoding" rsc) r0 else r0) = r1
  generalize hr2 : List.foldl (copyProp d) r1 ["delimiter", "quoteChar", "doubleQuote", "skipInitialSpace", "header"] = r2
  have h0 : (Dict.keys r0).Nodup := by rw [← hr0]; split <;> simp [Dict.keys]
  have g0 : ∀ k, k ≠ "delimiter".toList → Dict.get k r0 = none := by
    intro k hk
    rw [← hr0]
    split
    · rw [get_cons_ne (Ne.symm hk)]; rfl
    · rfl
  have d0 : (Dict.get "delimiter".toList d).or (Dict.get "delimiter".toList r0) = Dict.get "delimiter".toList d := by
    rw [← hr0]
    cases hg : Dict.get "delimiter".toList d with
    | none =>
      have : argOf "delimiter" d = .null := by unfold argOf; rw [hg]; rfl
      rw [this]; rfl
    | some v => rfl
  have h1 : (Dict.keys r1).Nodup := by
    rw [← hr1]; split
    · exact Dict.nodup_keys_set h0
    · exact h0
  have g1 : ∀ k, k ≠ "encoding".toList → Dict.get k r1 = Dict.get k r0 := by
    intro k hk
    rw [← hr1]; split
    · rw [Dict.get_set_ne (Ne.symm hk)]
    · rfl
  have e1 : Dict.get "encoding".toList r1 = (prop "encoding" rsc).filter J.truthy := by
    rw [← hr1]
    unfold argOf prop
    cases hg : Dict.get "encoding".toList rsc with
    | none => exact g0 _ (by decide)
    | some v =>
      simp only [Option.getD_some, Option.filter]
      split
      · next ht => rw [Dict.get_set_self]
      · next ht => exact g0 _ (by decide)
  have h2 : (Dict.keys r2).Nodup := by rw [← hr2]; exact copy_nodup _ h1
  have g2 : ∀ k : String, k ∈ ["delimiter", "quoteChar", "doubleQuote", "skipInitialSpace", "header"] → Dict.get k.toList r2 = prop k d := by
    intro k hk
    rw [← hr2, copy_get, if_pos (List.mem_map_of_mem hk)]
    simp only [List.mem_cons, List.not_mem_nil, or_false] at hk
    rcases hk with rfl | rfl | rfl | rfl | rfl
    · rw [g1 _ (by decide)]; exact d0
    all_goals rw [g1 _ (by decide), g0 _ (by decide), Option.or_none]
  have n2 : ∀ k, k ∉ ["delimiter", "quoteChar", "doubleQuote", "skipInitialSpace", "header"].map String.toList → k ≠ "encoding".toList →
      Dict.get k r2 = none := by
    intro k hk he
    rw [← hr2, copy_get, if_neg hk, g1 k he, g0 k (fun h => hk (h ▸ by decide))]
  have e2 : Dict.get "encoding".toList r2 = (prop "encoding" rsc).filter J.truthy := by
    rw [← hr2, copy_get, if_neg (by decide)]; exact e1
  cases hcc : Dict.get "commentChar".toList d with
  | none =>
    refine ⟨h2, g2, ?_, e2, ?_⟩
    · simp only [prop, hcc]; exact n2 _ (by decide) (by decide)
    · intro k hk
      exact n2 k (fun h => hk (by
        simp only [List.map_cons, List.map_nil, List.mem_cons, List.not_mem_nil, or_false] at h ⊢
        rcases h with h | h | h | h | h <;> simp [h])) (fun h => hk (h ▸ by decide))
  | some v =>
    simp only
    refine ⟨Dict.nodup_keys_set h2, ?_, ?_, ?_, ?_⟩
    · intro k hk
      rw [Dict.get_set_ne, g2 k hk]
      simp only [List.mem_cons, List.not_mem_nil, or_false] at hk
      rcases hk with rfl | rfl | rfl | rfl | rfl <;> decide
    · rw [Dict.get_set_self]; exact hcc.symm
    · rw [Dict.get_set_ne (by decide)]; exact e2
    · intro k hk
      rw [Dict.get_set_ne (fun h => hk (by rw [← h]; decide))]
      exact n2 k (fun h => hk (by
        simp only [List.map_cons, List.map_nil, List.mem_cons, List.not_mem_nil, or_false] at h ⊢
        rcases h with h | h | h | h | h <;> simp [h])) (fun h => hk (h ▸ by decide))

theorem dialect_same (hlk : lk "utf-8".toList = .ok ()) {rsc : List (Str × J)} {j : J} (h : convertDialect rsc = .ok j) {o : Option Dialect}
    (ho : convDialect lk x j = .ok o) : ∃ d, o = some d ∧ SameDialect lk rsc d := by
  obtain ⟨m, rfl, hn, g, gc, ge, gn⟩ := dialect_get h
  unfold convDialect at ho
  simp only at ho
  obtain ⟨kw, hkw, ho⟩ := Datatype.bind_ok ho
  obtain ⟨⟨d, w⟩, hd, ho⟩ := Datatype.bind_ok ho
  cases ho
  refine ⟨d, rfl, ?_⟩
  have hk : ∀ k, OwnProperty k → Dict.get k kw = Dict.get k m := by
    intro k hk
    unfold dialectProps at hkw
    split at hkw
    · cases hkw
    · cases hkw
    · next p hp =>
      have e := fun k hk => own_get hn hp (k := k) hk (by simp)
      have : (argOf "headerRowCount" p.own).truthy = false := by
        unfold argOf
        rw [e _ (by decide), gn _ (by decide)]; rfl
      rw [this] at hkw
      simp only [Bool.false_eq_true, if_false] at hkw
      cases hkw
      exact e k hk
  unfold Dialect.constructMeta at hd
  have ok := Props.C14_dialect_valid lk hlk _ d w hd
  have q1 := ok.delimiter
  have q2 := ok.quoteChar
  have q3 := ok.doubleQuote
  have q4 := ok.skipInitialSpace
  have q5 := ok.header
  have q6 := ok.commentPrefix
  have q7 := ok.encoding
  have q8 := ok.skipRows
  have q9 := ok.headerRowCount
  have q10 := ok.skipColumns
  have q11 := ok.skipBlankRows
  have q12 := ok.trim
  have q13 := ok.lineTerminators
  rw [Dict.get_set_ne (by decide), hk _ (by decide)] at q1 q2 q3 q4 q5 q7 q8 q9 q10 q11 q12 q13
  rw [g "delimiter" (by decide)] at q1
  rw [g "quoteChar" (by decide)] at q2
  rw [g "doubleQuote" (by decide)] at q3
  rw [g "skipInitialSpace" (by decide)] at q4
  rw [g "header" (by decide)] at q5
  rw [Dict.get_set_self] at q6
  rw [ge] at q7
  rw [gn _ (by decide)] at q8 q9 q10 q11 q12 q13
  have hcp : argOf "commentPrefix" kw = (prop "commentChar" (csvDialect rsc)).getD .null := by
    unfold argOf; rw [hk _ (by decide), gc]
  rw [hcp] at q6
  constructor
  · exact ⟨fun s hs => by simpa using (q1.kept _ hs ⟨s, rfl⟩).1, fun hs => by simpa using (q1.absent hs).1⟩
  · refine ⟨fun s hs => ?_, fun hs => ?_, fun hs => ?_⟩
    · exact ((q2 (by rw [hs]; simp)).kept _ hs (.inr ⟨s, rfl⟩)).1
    · exact ((q2 (by rw [hs]; simp)).kept _ hs (.inl rfl)).1
    · exact ((q2 (by rw [hs]; simp)).absent hs).1
  · exact ⟨fun s hs => by simpa using (q3.kept _ hs ⟨s, rfl⟩).1, fun hs => by simpa using (q3.absent hs).1⟩
  · exact ⟨fun s hs => by simpa using (q4.kept _ hs ⟨s, rfl⟩).1, fun hs => by simpa using (q4.absent hs).1⟩
  · exact ⟨fun s hs => by simpa using (q5.kept _ hs ⟨s, rfl⟩).1, fun hs => by simpa using (q5.absent hs).1⟩
  · refine ⟨fun s hs => ?_, fun hs => ?_⟩
    · rw [hs] at q6
      have := (q6.kept (.str s) rfl (.inr ⟨s, rfl⟩)).1
      cases hc : d.commentPrefix with
      | none => rw [hc] at this; cases this
      | some t => rw [hc] at this; cases this; rfl
    · rw [hs] at q6
      have := (q6.kept .null rfl (.inl rfl)).1
      cases hc : d.commentPrefix with
      | none => rfl
      | some t => rw [hc] at this; cases this
  · refine ⟨fun s hs hne hl => ?_, fun hs => ?_⟩
    · rw [hs] at q7
      have ht : (J.str s).truthy = true := by cases s with | nil => exact absurd rfl hne | cons => rfl
      simpa using (q7.kept (.str s) (by simp [Option.filter, ht]) ⟨s, rfl, hl⟩).1
    · rw [hs] at q7
      simpa using (q7.absent rfl).1
  · refine ⟨?_, ?_, ?_, ?_, ?_, ?_⟩
    · have := (q8.absent rfl).1; simp only [J.int.injEq] at this; omega
    · have := (q9.absent rfl).1; simp only [J.int.injEq] at this; omega
    · have := (q10.absent rfl).1; simp only [J.int.injEq] at this; omega
    · simpa using (q11.absent rfl).1
    · have := (q12.absent rfl).1
      cases ht : d.trim <;> rw [ht] at this <;> first | rfl | (revert this; decide)
    · simpa using (q13.absent rfl).1

end Csvw.Frictionless
