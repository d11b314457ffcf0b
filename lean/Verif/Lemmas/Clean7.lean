import Verif.Lemmas.Clean6
import Verif.Props.C14_C15
/-!
# Warnings about dialects
-/

namespace Csvw
open Csvw.Spec

theorem kept_silent {valid : J → Prop} {norm : J → J} {dflt : J} {arg : Option J} {value : J} {warned : Prop}
    (h : Props.Kept valid norm dflt arg value warned) : ¬ warned ↔ ∀ j, arg = some j → valid j := by
  constructor
  · intro hw j hj
    exact Classical.byContradiction fun hv => hw (h.replaced j hj hv).2
  · intro hv hw
    cases arg with
    | none => exact (h.absent rfl).2 hw
    | some j => exact (h.kept j rfl (hv j rfl)).2 hw

theorem construct_names {lk : EncLookup} {kw : List (Str × J)} {d : Dialect} {w : List Str} (h : Dialect.construct lk kw = .ok (d, w)) :
    
    (∀ k ∈ w, k ∈ Dialect.propNames) ∧ ((∃ l, Dict.get "quoteChar".toList kw = some (.arr l)) → "quoteChar".toList ∉ w) ∧
      ∀ l, Dict.get "commentPrefix".toList kw ≠ some (.arr l) := by
  unfold Dialect.construct at h
  simp only at h
  split at h
  · cases h
  obtain ⟨⟨e, w1⟩, h1, h⟩ := Datatype.bind_ok h
  obtain ⟨_, _, h⟩ := Datatype.bind_ok h
  obtain ⟨_, _, h⟩ := Datatype.bind_ok h
  obtain ⟨_, _, h⟩ := Datatype.bind_ok h
  obtain ⟨_, hcp, h⟩ := Datatype.bind_ok h
  obtain ⟨_, _, h⟩ := Datatype.bind_ok h
  obtain ⟨_, _, h⟩ := Datatype.bind_ok h
  obtain ⟨_, _, h⟩ := Datatype.bind_ok h
  obtain ⟨_, _, h⟩ := Datatype.bind_ok h
  obtain ⟨_, _, h⟩ := Datatype.bind_ok h
  obtain ⟨_, _, h⟩ := Datatype.bind_ok h
  obtain ⟨_, _, h⟩ := Datatype.bind_ok h
  simp only [pure, Except.pure, Except.ok.injEq, Prod.mk.injEq] at h
  rw [← h.2]
  have key : ∀ (b : Bool) (n : String), n.toList ∈ Dialect.propNames → ∀ k ∈ (if b then [n.toList] else []), k ∈ Dialect.propNames := by
    intro b n hn k hk
    cases b with
    | true => simp at hk; rw [hk]; exact hn
    | false => simp at hk
  refine ⟨?_, ?_, ?_⟩
  rotate_left
  · rintro ⟨l, hl⟩
    have key' : ∀ (b : Bool) (n : String), "quoteChar".toList ≠ n.toList → "quoteChar".toList ∉ (if b then [n.toList] else []) := by
      intro b n hn
      cases b
      · simp
      · simpa using hn
    simp only [List.mem_append, not_or]
    refine ⟨⟨⟨⟨⟨⟨⟨⟨⟨⟨⟨⟨?_, ?_⟩, ?_⟩, ?_⟩, ?_⟩, ?_⟩, ?_⟩, ?_⟩, ?_⟩, ?_⟩, ?_⟩, ?_⟩, ?_⟩ <;>
      first | exact key' _ _ (by decide) | (simp only [hl, Option.getD_some, converter]; simp)
  · intro l hl
    rw [hl] at hcp
    simp [converter, asOptStr] at hcp
  intro k hk
  simp only [List.mem_append] at hk
  rcases hk with ((((((((((((hk | hk) | hk) | hk) | hk) | hk) | hk) | hk) | hk) | hk) | hk) | hk) | hk) <;> exact key _ _ (by decide) k hk

theorem silent_iff {w : List Str} (h : ∀ k ∈ w, k ∈ Dialect.propNames) : decide (w ≠ []) = false ↔ ∀ k ∈ Dialect.propNames, k ∉ w := by
  rw [decide_eq_false_iff_not, Decidable.not_not]
  constructor
  · rintro rfl; simp
  · intro h'
    cases w with
    | nil => rfl
    | cons k w => exact absurd (List.mem_cons_self) (h' k (h k (by simp)))

variable {x : MExt} {lk : EncLookup}

theorem dialectObj_iff (hlk : lk "utf-8".toList = .ok ()) {m : List (Str × J)} (hj : DistinctKeys (.obj m)) {d : Option Dialect}
    (h : convDialect lk x (.obj m) = .ok d) : Warn.dialect lk x (.obj m) = false ↔ DialectClean lk (tagOf x) m := by
  have hn := hj.nodup
  simp only [convDialect] at h
  obtain ⟨kw, hkw, h⟩ := Datatype.bind_ok h
  obtain ⟨⟨d', w⟩, hd, -⟩ := Datatype.bind_ok h
  simp only [Warn.dialect]
  rw [hkw]
  simp only [hd]
  unfold dialectProps at hkw
  split at hkw
  · cases hkw
  · cases hkw
  next p hp =>
  simp only [Except.ok.injEq] at hkw
  have hown : ∀ k : String, k.toList ∈ Dialect.propNames → Dict.get k.toList p.own = Dict.get k.toList m := by
    intro k hk
    refine own_get hn hp ?_ (by simp)
    have : ∀ k ∈ Dialect.propNames, OwnProperty k := by decide +kernel
    exact this _ hk
  have hget : ∀ k : String, k.toList ∈ Dialect.propNames → k.toList ≠ "header".toList → Dict.get k.toList kw = Dict.get k.toList m := by
    intro k hk hh
    rw [← hkw]
    split
    · rw [Dict.get_set_ne (Ne.symm hh), hown k hk]
    · exact hown k hk
  have hrc : argOf "headerRowCount" p.own = argOf "headerRowCount" m := by
    unfold argOf; rw [hown _ (by decide)]
  rw [hrc] at hkw
  have hhead : Dict.get "header".toList kw = if (argOf "headerRowCount" m).truthy then some (.bool true) else Dict.get "header".toList m := by
    rw [← hkw]
    split
    · rw [Dict.get_set_self]
    · exact hown _ (by decide)
  have hcp : argOf "commentPrefix" kw = argOf "commentPrefix" m := by
    unfold argOf; rw [hget _ (by decide) (by decide)]
  unfold Dialect.constructMeta at hd
  rw [hcp] at hd
  have ok := Props.C14_dialect_valid lk hlk _ _ _ hd
  have hget' : ∀ (v : J) (k : String), k.toList ∈ Dialect.propNames → k.toList ≠ "header".toList → k.toList ≠ "commentPrefix".toList →
      Dict.get k.toList (Dict.set "commentPrefix".toList v kw) = Dict.get k.toList m := by
    intro v k hk hh hc
    rw [Dict.get_set_ne (Ne.symm hc), hget k hk hh]
  have hhead' : ∀ v, Dict.get "header".toList (Dict.set "commentPrefix".toList v kw) =
      if (argOf "headerRowCount" m).truthy then some (.bool true) else Dict.get "header".toList m := by
    intro v
    rw [Dict.get_set_ne (by decide), hhead]
  obtain ⟨hnames, hquote, hnoArr⟩ := construct_names hd
  rw [hget' _ _ (by decide) (by decide) (by decide)] at hquote
  have has : ∀ (k : String) v, Has m k v ↔ Dict.get k.toList m = some v :=
    fun k v => ⟨fun h => Dict.get_of_mem_nodup hn h, fun h => Dict.get_mem h⟩
  have key : ∀ (k : String) {valid norm dflt value}, k.toList ∈ Dialect.propNames → k.toList ≠ "header".toList →
      k.toList ≠ "commentPrefix".toList → Props.Kept valid norm dflt (Dict.get k.toList (Dict.set "commentPrefix".toList
        (converter J.isStr J.null true (argOf "commentPrefix" m)).fst kw)) value (k.toList ∈ w) → (k.toList ∉ w ↔ ∀ v, Has m k v → valid v) := by
    intro k valid norm dflt value h1 h2 h3 h4
    rw [kept_silent h4, hget' _ k h1 h2 h3]
    exact forall_congr' fun v => by rw [has]
  have k1 := key "encoding" (by decide) (by decide) (by decide) ok.encoding
  have k2 := key "lineTerminators" (by decide) (by decide) (by decide) ok.lineTerminators
  have k4 := key "doubleQuote" (by decide) (by decide) (by decide) ok.doubleQuote
  have k5 := key "skipRows" (by decide) (by decide) (by decide) ok.skipRows
  have k8 := key "headerRowCount" (by decide) (by decide) (by decide) ok.headerRowCount
  have k9 := key "delimiter" (by decide) (by decide) (by decide) ok.delimiter
  have k10 := key "skipColumns" (by decide) (by decide) (by decide) ok.skipColumns
  have k11 := key "skipBlankRows" (by decide) (by decide) (by decide) ok.skipBlankRows
  have k12 := key "skipInitialSpace" (by decide) (by decide) (by decide) ok.skipInitialSpace
  have k13 := key "trim" (by decide) (by decide) (by decide) ok.trim
  have k7 : "header".toList ∉ w ↔ ∀ v, Has m "header" v → IsFlag v ∨ ∃ c, Has m "headerRowCount" c ∧ ¬ Falsy c := by
    rw [kept_silent ok.header, hhead']
    have ht : (argOf "headerRowCount" m).truthy = true ↔ ∃ c, Has m "headerRowCount" c ∧ ¬ Falsy c := by
      simp only [has]
      unfold argOf
      cases Dict.get "headerRowCount".toList m with
      | none => simp [J.truthy]
      | some c =>
        simp only [Option.getD_some, Option.some.injEq, exists_eq_left', ← truthy_iff, Bool.not_eq_false]
    split
    · next h' =>
      refine ⟨fun _ v _ => .inr (ht.1 h'), fun _ j hj => ?_⟩
      cases hj; exact ⟨true, rfl⟩
    · next h' =>
      rw [ht] at h'
      refine forall_congr' fun v => ?_
      rw [has]
      exact forall_congr' fun _ => ⟨.inl, fun h => h.resolve_right h'⟩
  have k3 : (Warn.given "quoteChar" (Warn.conv J.isStr true) kw = false ∧ "quoteChar".toList ∉ w) ↔
      ∀ v, Has m "quoteChar" v → v = .null ∨ Listed IsText v := by
    have e : Warn.given "quoteChar" (Warn.conv J.isStr true) kw = Warn.given "quoteChar" (Warn.conv J.isStr true) m := by
      unfold Warn.given
      rw [hget _ (by decide) (by decide)]
    rw [e, given_iff hn]
    simp only [conv_null_iff (ok := J.isStr) (fun j => isStr_iff) (fun _ => rfl) rfl]
    refine ⟨fun h => h.1, fun h => ⟨h, ?_⟩⟩
    by_cases hl : ∃ l, Dict.get "quoteChar".toList m = some (.arr l)
    · exact hquote hl
    · have hk := ok.quoteChar
      rw [hget' _ _ (by decide) (by decide) (by decide)] at hk
      rw [kept_silent (hk fun l hl' => hl ⟨l, hl'⟩)]
      intro j hj
      rcases h j ((has _ _).2 hj) with h | h
      · exact .inl h
      · rw [listed_noArr (fun l hl' => hl ⟨l, by rw [← hl', hj]⟩)] at h
        exact .inr h
  have k6 : (Warn.conv J.isStr true (argOf "commentPrefix" kw) = false ∧ "commentPrefix".toList ∉ w) ↔ ∀ v, Has m "commentPrefix" v → IsTextOrNull v := by
    have hc := ok.commentPrefix
    rw [Dict.get_set_self] at hc
    have hnl : ∀ l, argOf "commentPrefix" m ≠ .arr l := by
      intro l hl
      rw [hl, Dict.get_set_self] at hnoArr
      exact hnoArr _ rfl
    have hs : "commentPrefix".toList ∉ w := by
      rw [kept_silent hc]
      intro j hj
      cases hj
      cases hv : argOf "commentPrefix" m with
      | arr l => exact absurd hv (hnl l)
      | _ => simp [converter, Props.IsStringOrNull, J.isStr]
    rw [hcp]
    constructor
    · rintro ⟨h, -⟩
      rw [arg_iff hn "commentPrefix" (f := Warn.conv J.isStr true) rfl] at h
      intro v hv
      have := h v hv
      rw [conv_null_iff (ok := J.isStr) (fun j => isStr_iff) (fun _ => rfl) rfl, listed_noArr] at this
      · exact this
      · intro l hl
        refine hnl l ?_
        unfold argOf; rw [Dict.get_of_mem_nodup hn hv, hl]; rfl
    · intro h
      refine ⟨?_, hs⟩
      rw [arg_iff hn "commentPrefix" (f := Warn.conv J.isStr true) rfl]
      intro v hv
      rw [conv_null_iff (ok := J.isStr) (fun j => isStr_iff) (fun _ => rfl) rfl]
      exact (h v hv).imp id .one
  simp only [Bool.or_eq_false_iff]
  rw [silent_iff hnames, parts_false]
  have all13 : (∀ k ∈ Dialect.propNames, k ∉ w) ↔ "encoding".toList ∉ w ∧ "lineTerminators".toList ∉ w ∧ "quoteChar".toList ∉ w ∧ "doubleQuote".toList ∉ w ∧
      "skipRows".toList ∉ w ∧ "commentPrefix".toList ∉ w ∧ "header".toList ∉ w ∧ "headerRowCount".toList ∉ w ∧ "delimiter".toList ∉ w ∧
      "skipColumns".toList ∉ w ∧ "skipBlankRows".toList ∉ w ∧ "skipInitialSpace".toList ∉ w ∧ "trim".toList ∉ w := by
    unfold Dialect.propNames
    simp only [List.map_cons, List.map_nil, List.mem_cons, List.not_mem_nil, or_false, forall_eq_or_imp, forall_eq]
  rw [all13]
  have htrim : ∀ v, Props.IsTrim v ↔ (IsFlag v ∨ ∃ t ∈ ["true", "false", "start", "end"], v = .str t.toList) := by
    intro v
    unfold Props.IsTrim IsFlag
    rw [← or_assoc]
    refine or_congr ⟨?_, ?_⟩ ?_
    · rintro (h | h) <;> exact ⟨_, h⟩
    · rintro ⟨b, h⟩; cases b <;> simp [h]
    · simp [eq_comm]
  constructor
  · rintro ⟨⟨a, -⟩, ⟨b, c⟩, w1, w2, w3, w4, w5, w6, w7, w8, w9, w10, w11, w12, w13⟩
    refine ⟨a, k1.1 w1, k9.1 w9, k6.1 ⟨b, w6⟩, k3.1 ⟨c, w3⟩, k2.1 w2, ?_, ?_, fun v hv => (htrim v).1 (k13.1 w13 v hv)⟩
    · intro n hn v hv
      simp only [List.mem_cons, List.not_mem_nil, or_false] at hn
      rcases hn with rfl | rfl | rfl | rfl
      · exact .inl (k4.1 w4 v hv)
      · exact (k7.1 w7 v hv).imp id fun h => ⟨rfl, h⟩
      · exact .inl (k11.1 w11 v hv)
      · exact .inl (k12.1 w12 v hv)
    · intro n hn v hv
      simp only [List.mem_cons, List.not_mem_nil, or_false] at hn
      rcases hn with rfl | rfl | rfl
      · exact k5.1 w5 v hv
      · exact k8.1 w8 v hv
      · exact k10.1 w10 v hv
  · rintro ⟨a, e1, e9, e6, e3, e2, ef, ec, e13⟩
    have hf : ∀ n ∈ ["doubleQuote", "header", "skipBlankRows", "skipInitialSpace"], n ≠ "header" → ∀ v, Has m n v → IsFlag v :=
      fun n hn hh v hv => (ef n hn v hv).resolve_right fun h => hh h.1
    exact ⟨⟨a, by simp⟩, ⟨(k6.2 e6).1, (k3.2 e3).1⟩, k1.2 e1, k2.2 e2, (k3.2 e3).2, k4.2 (hf _ (by simp) (by simp)), k5.2 (ec _ (by simp)),
      (k6.2 e6).2, k7.2 fun v hv => (ef _ (by simp) v hv).imp id fun h => h.2, k8.2 (ec _ (by simp)), k9.2 e9, k10.2 (ec _ (by simp)),
      k11.2 (hf _ (by simp) (by simp)), k12.2 (hf _ (by simp) (by simp)), k13.2 fun v hv => (htrim v).2 (e13 v hv)⟩

end Csvw
