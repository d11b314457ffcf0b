import Verif.Lemmas.Metadata4
import Verif.Props.C14_C15
/-!
# Lemmas about `asdict` and `fromvalue`: dialects, tables and table groups
-/

namespace Csvw
open Spec Datatypes

theorem Dict.set_same {κ α : Type} [DecidableEq κ] {k : κ} {v : α} : ∀ {d : List (κ × α)}, Dict.get k d = some v → Dict.set k v d = d
  | [], h => by cases h
  | (a, b) :: r, h => by
    simp only [Dict.get] at h
    simp only [Dict.set]
    split at h
    · next hk => cases h; rw [if_pos hk, hk]
    · next hk => rw [if_neg hk, Dict.set_same h]

section
variable {x : MExt} {lk : EncLookup}

/-! ## Dialects -/

theorem metaDefault_fields : Dialect.metaDefault.fields = Dict.set "commentPrefix".toList .null Dialect.defaults := by decide +kernel

theorem constructMeta_values {d : Dialect} (hc : Props.Constructible lk d) {kw : List (Str × J)} (hk : ∀ p ∈ kw, p.1 ∈ Dialect.propNames)
    (hv : ∀ n v dflt, Dict.get n d.fields = some v → Dict.get n Dialect.metaDefault.fields = some dflt → (Dict.get n kw).getD dflt = v) :
    Dialect.constructMeta lk kw = .ok (d, []) := by
  unfold Dialect.constructMeta
  have hcp : argOf "commentPrefix" kw = J.ofOptStr d.commentPrefix := hv "commentPrefix".toList _ .null rfl rfl
  apply Props.construct_of_values lk d hc
  · intro p hp
    have : p.1 ∈ Dict.keys (Dict.set "commentPrefix".toList (converter J.isStr .null true (argOf "commentPrefix" kw)).1 kw) :=
      List.mem_map_of_mem hp
    rw [Dict.mem_keys_set] at this
    rcases this with h | h
    · rw [h]; decide
    · obtain ⟨q, hq, he⟩ := List.mem_map.1 h
      rw [← he]
      exact hk q hq
  · intro n v dflt h1 h2
    by_cases hn : n = "commentPrefix".toList
    · subst hn
      rw [Dict.get_set_self, Option.getD_some, hcp, Props.conv_opt]
      have : Dict.get "commentPrefix".toList d.fields = some (J.ofOptStr d.commentPrefix) := rfl
      rw [this] at h1
      simpa using h1
    · rw [Dict.get_set_ne (Ne.symm hn)]
      refine hv n v dflt h1 ?_
      rw [metaDefault_fields, Dict.get_set_ne (Ne.symm hn), h2]

/-- Header rows imply a header. -/
def HeaderInv (d : Dialect) : Prop := d.headerRowCount = 0 ∨ d.headerRowCount = 1 ∨ d.header = true

theorem loop_own_false (l : List (Str × J)) :
    ∀ {p : Parts} {fields : List Str} {tn : Str}, (Dict.keys (p.own ++ l)).Nodup → (∀ e ∈ l, Spec.OwnProperty e.1) →
    partitionLoop x fields tn false l p = .ok { p with own := p.own ++ l } := by
  induction l with
  | nil => intro p _ _ _ _; simp [partitionLoop]
  | cons e r ih =>
    obtain ⟨k, v⟩ := e
    intro p fields tn hn hc
    obtain ⟨h1, h2⟩ := hc (k, v) (List.mem_cons_self ..)
    rw [partitionLoop, if_neg (by rw [Props.isAt_iff]; exact h1), if_neg (by simpa using h2), if_neg (by simp)]
    have hnk : k ∉ Dict.keys p.own := by
      intro hk
      simp only [Dict.keys, List.map_append, List.map_cons] at hn
      rw [List.nodup_append] at hn
      exact hn.2.2 k hk k (List.mem_cons_self ..) rfl
    rw [Dict.set_eq_append_of_not_mem hnk, ih (p := { p with own := p.own ++ [(k, v)] }) (by simpa using hn)
      (fun e he => hc e (List.mem_cons_of_mem _ he))]
    simp

theorem asdictMeta_mem {d : Dialect} {e : Str × J} (h : e ∈ d.asdictMeta) : e.1 ∈ Dialect.propNames := by
  rw [← Props.fields_keys d]
  exact List.mem_map_of_mem (List.mem_filter.1 h).1

theorem asdictMeta_nodup (d : Dialect) : (Dict.keys d.asdictMeta).Nodup :=
  List.Nodup.sublist (List.Sublist.map Prod.fst List.filter_sublist) (by
    show (Dict.keys d.fields).Nodup
    rw [Props.fields_keys]; exact Props.propNames_nodup)

theorem asdictMeta_getD {d : Dialect} {n : Str} {v dflt : J} (hv : Dict.get n d.fields = some v)
    (hd : Dict.get n Dialect.metaDefault.fields = some dflt) : (Dict.get n d.asdictMeta).getD dflt = v := by
  unfold Dialect.asdictMeta
  rw [Dict.get_filter _ _ _ (by rw [Props.fields_keys]; exact Props.propNames_nodup), hv]
  simp only [Option.filter]
  split
  · rfl
  · next hc =>
    simp only [Bool.not_eq_true', Bool.not_eq_false, decide_eq_true_eq] at hc
    rw [hd] at hc
    simpa using hc

theorem asdictMeta_empty {d : Dialect} (h : d.asdictMeta = []) : d = Dialect.metaDefault := by
  have key : ∀ n v dflt, Dict.get n d.fields = some v → Dict.get n Dialect.metaDefault.fields = some dflt → v = dflt := by
    intro n v dflt h1 h2
    have := asdictMeta_getD h1 h2
    rw [h] at this
    exact this.symm
  have k1 := key "encoding".toList _ _ rfl rfl
  have k2 := key "lineTerminators".toList _ _ rfl rfl
  have k3 := key "quoteChar".toList _ _ rfl rfl
  have k4 := key "doubleQuote".toList _ _ rfl rfl
  have k5 := key "skipRows".toList (.int d.skipRows) (.int 0) rfl rfl
  have k6 := key "commentPrefix".toList (J.ofOptStr d.commentPrefix) .null rfl rfl
  have k7 := key "header".toList _ _ rfl rfl
  have k8 := key "headerRowCount".toList (.int d.headerRowCount) (.int 1) rfl rfl
  have k9 := key "delimiter".toList _ _ rfl rfl
  have k10 := key "skipColumns".toList (.int d.skipColumns) (.int 0) rfl rfl
  have k11 := key "skipBlankRows".toList _ _ rfl rfl
  have k12 := key "skipInitialSpace".toList _ _ rfl rfl
  have k13 := key "trim".toList (.str (trimStr d.trim)) (.str "false".toList) rfl rfl
  obtain ⟨a1, a2, a3, a4, a5, a6, a7, a8, a9, a10, a11, a12, a13⟩ := d
  simp only [J.str.injEq, J.arr.injEq, J.bool.injEq, J.int.injEq] at k1 k2 k3 k4 k5 k6 k7 k8 k9 k10 k11 k12 k13
  have k6' : a6 = none := by cases a6 with | none => rfl | some s => cases k6
  have k13' : a13 = .false_ := by cases a13 <;> first | rfl | (exact absurd k13 (by decide))
  have k5' : a5 = 0 := by omega
  have k8' : a8 = 1 := by omega
  have k10' : a10 = 0 := by omega
  subst k1 k2 k3 k4 k5' k6' k7 k8' k9 k10' k11 k12 k13'
  rfl

theorem dialect_props_written {d : Dialect} (hc : Props.Constructible lk d) (hh : HeaderInv d) :
    ∃ kw, dialectProps x d.asdictMeta = .ok kw ∧ Dialect.constructMeta lk kw = .ok (d, []) ∧
      ∀ n, n ≠ "header".toList → Dict.get n kw = Dict.get n d.asdictMeta := by
  have hown : ∀ e ∈ d.asdictMeta, Spec.OwnProperty e.1 ∧ e.1 ∉ partNames := by
    intro e he
    have h1 := asdictMeta_mem he
    have : ∀ k ∈ Dialect.propNames, Spec.OwnProperty k ∧ k ∉ partNames := by decide +kernel
    exact this _ h1
  have hp : partitionProperties x descriptionFields "Dialect".toList false (.obj d.asdictMeta) = .ok (some ⟨[], [], d.asdictMeta, []⟩) := by
    unfold partitionProperties
    simp only
    rw [loop_own_false _ (by simpa using asdictMeta_nodup d) (fun e he => (hown e he).1)]
    simp only [List.nil_append]
    rw [if_neg]
    intro hh
    obtain ⟨e, he, hp⟩ := List.any_eq_true.1 hh
    exact (hown e he).2 (by simpa using hp)
  have hget : ∀ n v dflt, Dict.get n d.fields = some v → Dict.get n Dialect.metaDefault.fields = some dflt →
      (Dict.get n (if (argOf "headerRowCount" d.asdictMeta).truthy then Dict.set "header".toList (.bool true) d.asdictMeta else d.asdictMeta)).getD
        dflt = v := by
    intro n v dflt h1 h2
    split
    · next ht =>
      by_cases hn : n = "header".toList
      · subst hn
        rw [Dict.get_set_self, Option.getD_some]
        have : Dict.get "header".toList d.fields = some (.bool d.header) := rfl
        rw [this] at h1
        simp only [Option.some.injEq] at h1
        subst h1
        rcases hh with h0 | h0 | h0
        · exfalso
          have := asdictMeta_getD (d := d) (n := "headerRowCount".toList) (v := .int d.headerRowCount) (dflt := .int 1) rfl rfl
          unfold argOf at ht
          cases hg : Dict.get "headerRowCount".toList d.asdictMeta with
          | none => rw [hg] at ht; cases ht
          | some w =>
            rw [hg] at ht this
            simp only [Option.getD_some] at ht this
            rw [this, h0] at ht
            cases ht
        · exfalso
          have hm : Dict.get "headerRowCount".toList d.asdictMeta = none := by
            unfold Dialect.asdictMeta
            rw [Dict.get_filter _ _ _ (by rw [Props.fields_keys]; exact Props.propNames_nodup)]
            have : Dict.get "headerRowCount".toList d.fields = some (.int d.headerRowCount) := rfl
            rw [this, h0]
            rfl
          unfold argOf at ht
          rw [hm] at ht
          cases ht
        · rw [h0]
      · rw [Dict.get_set_ne (Ne.symm hn)]
        exact asdictMeta_getD h1 h2
    · exact asdictMeta_getD h1 h2
  have hkeys : ∀ p ∈ (if (argOf "headerRowCount" d.asdictMeta).truthy then Dict.set "header".toList (.bool true) d.asdictMeta else d.asdictMeta),
      p.1 ∈ Dialect.propNames := by
    intro p hp
    split at hp
    · have : p.1 ∈ Dict.keys (Dict.set "header".toList (.bool true) d.asdictMeta) := List.mem_map_of_mem hp
      rw [Dict.mem_keys_set] at this
      rcases this with h | h
      · rw [h]; decide
      · obtain ⟨q, hq, he⟩ := List.mem_map.1 h
        rw [← he]
        exact asdictMeta_mem hq
    · exact asdictMeta_mem hp
  refine ⟨_, ?_, constructMeta_values hc hkeys hget, ?_⟩
  · unfold dialectProps
    simp only [hp]
  · intro n hn
    split
    · rw [Dict.get_set_ne (Ne.symm hn)]
    · rfl

theorem dialect_written {d : Dialect} (hc : Props.Constructible lk d) (hh : HeaderInv d) : convDialect lk x (.obj d.asdictMeta) = .ok (some d) := by
  obtain ⟨kw, h1, h2, -⟩ := dialect_props_written (x := x) hc hh
  unfold convDialect
  simp only [h1, bind, Except.bind]
  rw [h2]
  rfl

theorem construct_inv (hlk : lk "utf-8".toList = .ok ()) {kw : List (Str × J)} {d : Dialect} {w : List Str} (h : Dialect.construct lk kw = .ok (d, w))
    (hq : d.quoteChar = .null ∨ ∃ s, d.quoteChar = .str s) : Props.Constructible lk d := by
  have ok := Props.C14_dialect_valid lk hlk kw d w h
  refine ⟨?_, hq⟩
  have hk := ok.encoding
  have : Props.IsEncoding lk (.str d.encoding) := by
    cases ha : Dict.get "encoding".toList kw with
    | none => rw [(hk.absent ha).1]; exact ⟨_, rfl, hlk⟩
    | some j =>
      by_cases hj : Props.IsEncoding lk j
      · rw [(hk.kept j ha hj).1]; exact hj
      · rw [(hk.replaced j ha hj).1]; exact ⟨_, rfl, hlk⟩
  obtain ⟨s, h1, h2⟩ := this
  cases h1
  exact h2

/-- The invariant for dialects in descriptions. -/
theorem header_inv (hlk : lk "utf-8".toList = .ok ()) {kw : List (Str × J)} {d : Dialect} {w : List Str}
    (h : Dialect.constructMeta lk kw = .ok (d, w))
    (hh : (argOf "headerRowCount" kw).truthy = true → Dict.get "header".toList kw = some (.bool true)) : HeaderInv d := by
  unfold Dialect.constructMeta at h
  have ok := Props.C14_dialect_valid lk hlk _ d w h
  have h1 := ok.headerRowCount
  have h2 := ok.header
  rw [Dict.get_set_ne (by decide)] at h1 h2
  unfold argOf at hh
  cases ha : Dict.get "headerRowCount".toList kw with
  | none => right; left; have := (h1.absent ha).1; simp only [J.int.injEq] at this; omega
  | some j =>
    by_cases hj : Props.IsCount j
    · obtain ⟨n, rfl⟩ := hj
      have hv := (h1.kept _ ha ⟨n, rfl⟩).1
      simp only [id, J.int.injEq] at hv
      by_cases hn : n = 0
      · left; omega
      · right; right
        rw [ha] at hh
        have := hh (by simp [J.truthy]; omega)
        have := (h2.kept _ this ⟨true, rfl⟩).1
        simpa using this
    · right; left
      have := (h1.replaced j ha hj).1
      simp only [J.int.injEq] at this
      omega

/-- The dialects which are read from descriptions. -/
theorem dialect_inv (hlk : lk "utf-8".toList = .ok ()) {j : J} {d : Dialect} (h : convDialect lk x j = .ok (some d))
    (hq : d.quoteChar = .null ∨ ∃ s, d.quoteChar = .str s) : Props.Constructible lk d ∧ HeaderInv d := by
  have fin : ∀ {kw : List (Str × J)} {w : List Str}, Dialect.constructMeta lk kw = .ok (d, w) →
      ((argOf "headerRowCount" kw).truthy = true → Dict.get "header".toList kw = some (.bool true)) →
      Props.Constructible lk d ∧ HeaderInv d :=
    fun h1 h2 => ⟨construct_inv hlk h1 hq, header_inv hlk h1 h2⟩
  have other : ∀ {r : Res (Option Dialect)}, r = (Dialect.constructMeta lk []).map (fun r => some r.1) → r = .ok (some d) →
      Props.Constructible lk d ∧ HeaderInv d := by
    intro r hr h
    rw [hr] at h
    obtain ⟨⟨d', w⟩, h1, h2⟩ := Except.map_eq_ok.1 h
    simp only [Option.some.injEq] at h2
    subst h2
    exact fin h1 (fun ht => by cases ht)
  cases j with
  | null => cases h
  | str s => cases h
  | obj m =>
    unfold convDialect at h
    obtain ⟨kw, h1, h⟩ := Datatype.bind_ok h
    obtain ⟨⟨d', w⟩, h2, h⟩ := Datatype.bind_ok h
    simp only [pure, Except.pure, Except.ok.injEq, Option.some.injEq] at h
    subst h
    refine fin h2 ?_
    unfold dialectProps at h1
    split at h1
    · cases h1
    · cases h1
    · simp only [Except.ok.injEq] at h1
      subst h1
      split
      · intro _; rw [Dict.get_set_self]
      · next hn => intro hy; exact absurd hy hn
  | _ => exact other rfl h

theorem dialect_roundtrip (hlk : lk "utf-8".toList = .ok ()) {j : J} {o : Option Dialect} (h : convDialect lk x j = .ok o)
    (hq : ∀ d, o = some d → d.quoteChar = .null ∨ ∃ s, d.quoteChar = .str s) :
    ∃ o', convDialect lk x (pruneJ (dialectJson o)) = .ok o' ∧ (o' = o ∨ o = some { commentPrefix := none } ∧ o' = none) := by
  cases o with
  | none => exact ⟨none, rfl, .inl rfl⟩
  | some d =>
    have hinv := dialect_inv hlk h (hq d rfl)
    show ∃ o', convDialect lk x (pruneJ (.obj d.asdictMeta)) = .ok o' ∧ _
    unfold pruneJ
    split
    · exact ⟨some d, dialect_written hinv.1 hinv.2, .inl rfl⟩
    · next hk =>
      rw [keptValue_iff, Classical.not_not] at hk
      refine ⟨none, rfl, .inr ⟨?_, rfl⟩⟩
      rcases hk with hk | hk
      · cases hk
      · simp only [J.obj.injEq] at hk
        rw [asdictMeta_empty hk]
        rfl

end
end Csvw
