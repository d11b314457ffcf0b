import Verif.Lemmas.Clean
import Verif.Lemmas.DateTimes
import Verif.Lemmas.Datatype
/-!
# Warnings about datatypes
-/

namespace Csvw
open Csvw.Spec Datatypes DateFmt

section
variable {ext : Ext} {x : MExt} {other : Base → Derived → J → Res Val}

theorem string_bases (b : Base) : b.name ∈ stringBases ↔ b.kind ∈ [Base.Kind.string, .uri, .nmtoken, .normalized] := by
  cases b <;> decide
theorem decimal_bases (b : Base) : b.name ∈ decimalBases ↔ b.kind ∈ [Base.Kind.decimal, .integer] := by
  cases b <;> decide
theorem boolean_base (b : Base) : b.name = "boolean" ↔ b.kind = .boolean := by
  cases b <;> decide
theorem date_base (b : Base) : b.name = "date" ↔ b.kind = .date := by
  cases b <;> decide
theorem json_base (b : Base) : b.name = "json" ↔ b.kind = .json := by
  cases b <;> decide
theorem all_bases (b : Base) : b.name ∈ allBases := by
  cases b <;> decide
theorem ofName_all {n : String} (h : n ∈ allBases) : ∃ b : Base, b.name = n ∧ Base.ofName n.toList = some b := by
  have : ∀ n ∈ allBases, ((Base.ofName n.toList).any fun b => decide (b.name = n)) = true := by decide +kernel
  have := this n h
  rw [Option.any_eq_true] at this
  obtain ⟨b, h1, h2⟩ := this
  exact ⟨b, by simpa using h2, h1⟩
theorem ofName_eq {s : Str} {b : Base} (h : Base.ofName s = some b) : s = b.name.toList := by
  unfold Base.ofName at h
  have := List.find?_some h
  simpa [eq_comm] using this

theorem count_bar {s : Str} : s.count '|' = 1 ↔ ∃ t g, s = t ++ '|' :: g ∧ '|' ∉ t ∧ '|' ∉ g := by
  constructor
  · intro h
    have hm : '|' ∈ s := List.count_pos_iff.1 (by omega)
    obtain ⟨t, g, rfl, ht⟩ := List.append_of_mem hm |> fun ⟨a, b, e⟩ => (by
      subst e
      by_cases ha : '|' ∈ a
      · exfalso
        have := List.count_pos_iff.2 ha
        simp only [List.count_append, List.count_cons_self] at h
        omega
      · exact ⟨a, b, rfl, ha⟩ : ∃ t g, s = t ++ '|' :: g ∧ '|' ∉ t)
    refine ⟨t, g, rfl, ht, fun hg => ?_⟩
    have := List.count_pos_iff.2 hg
    simp only [List.count_append, List.count_cons_self] at h
    omega
  · rintro ⟨t, g, rfl, h1, h2⟩
    simp [List.count_append, List.count_eq_zero.2 h1, List.count_eq_zero.2 h2]

theorem patternItem_iff {s : Str} : Datatype.patternItem s = true ↔ ∃ c ∈ "#0.,;%‰E-+".toList, s = [c] := by
  cases s with
  | nil => simp [Datatype.patternItem]
  | cons c r => cases r with
    | nil => simp [Datatype.patternItem, Datatype.patternChar]
    | cons d r => simp [Datatype.patternItem]

theorem patternSet_iff {p : J} {bad : Bool} (h : Datatype.patternSet p = .ok bad) : bad = false ↔ PatternClean p := by
  cases p with
  | str s =>
    simp only [Datatype.patternSet, Except.ok.injEq] at h
    subst h
    rw [Bool.not_eq_false', List.all_eq_true]
    constructor
    · intro h; exact .text fun c hc => by simpa [Datatype.patternChar] using h c hc
    · intro h c hc
      cases h with | text h => simpa [Datatype.patternChar] using h c hc
  | arr l =>
    simp only [Datatype.patternSet] at h
    split at h
    · cases h
    simp only [Except.ok.injEq] at h
    subst h
    rw [Bool.not_eq_false', List.all_eq_true]
    constructor
    · intro h
      refine .list fun j hj => ?_
      have := h j hj
      cases j with
      | str s => obtain ⟨c, hc, rfl⟩ := patternItem_iff.1 this; exact ⟨c, hc, rfl⟩
      | _ => simp at this
    · intro h j hj
      cases h with
      | list h =>
        obtain ⟨c, hc, rfl⟩ := h j hj
        exact patternItem_iff.2 ⟨c, hc, rfl⟩
  | obj m =>
    simp only [Datatype.patternSet, Except.ok.injEq] at h
    subst h
    rw [Bool.not_eq_false', List.all_eq_true]
    constructor
    · intro h; exact .keys fun k v hm => patternItem_iff.1 (h _ hm)
    · intro h e he
      cases h with | keys h => exact patternItem_iff.2 (h e.1 e.2 he)
  | _ => simp [Datatype.patternSet] at h

theorem badPattern_iff {b : Base} (hk : b.kind ∈ [Base.Kind.decimal, .integer]) {f : J} (hj : DistinctKeys f) {bad : Bool}
    (h : Datatype.badPattern b f = .ok bad) :
    bad = false ↔ Falsy f ∨ (∃ m, f = .obj m ∧ ∀ p, Has m "pattern" p → PatternClean p) ∨ ((∀ m, f ≠ .obj m) ∧ PatternClean f) := by
  have h : (if f.truthy then match f with
      | .obj m => match Dict.get "pattern".toList m with
        | some v => Datatype.patternSet v
        | none => .ok false
      | j => Datatype.patternSet j
    else .ok false) = Except.ok bad := by
    unfold Datatype.badPattern at h
    simp only [List.mem_cons, List.not_mem_nil, or_false] at hk
    rcases hk with hk | hk <;> rw [hk] at h <;> exact h
  cases ht : f.truthy with
  | false =>
    rw [ht] at h
    cases h
    simp [truthy_iff.1 ht]
  | true =>
    rw [ht, if_pos rfl] at h
    have hnf : ¬ Falsy f := by rw [← truthy_iff]; simp [ht]
    cases f with
    | obj m =>
      cases hj with
      | obj hn _ =>
      simp only at h
      have e : (Falsy (.obj m) ∨ (∃ m', J.obj m = .obj m' ∧ ∀ p, Has m' "pattern" p → PatternClean p) ∨
          ((∀ m', J.obj m ≠ .obj m') ∧ PatternClean (.obj m))) ↔ ∀ p, Has m "pattern" p → PatternClean p := by
        simp [hnf]
      rw [e]
      cases hp : Dict.get "pattern".toList m with
      | none =>
        rw [hp] at h
        cases h
        simp only [true_iff]
        intro p hm
        rw [Dict.get_of_mem_nodup hn hm] at hp
        cases hp
      | some p =>
        rw [hp] at h
        simp only at h
        rw [patternSet_iff h]
        constructor
        · intro hc p' hm
          rw [Dict.get_of_mem_nodup hn hm] at hp
          cases hp; exact hc
        · intro hc; exact hc p (Dict.get_mem hp)
    | _ =>
      simp only at h
      rw [patternSet_iff h]
      simp [hnf]

theorem dtFormat_clean {f : J} (hf : f.truthy = true) {r : Res DateFmt.Desc} (h : dtFormat f false = r) (hr : r ≠ .error .typeError) :
    r ≠ .error .valueError ↔ ∃ s, (f = .str s ∨ f = .obj [("pattern".toList, .str s)]) ∧ ∃ F mk, IsFormat false s F mk := by
  have key : ∀ s, formatAndRegex s false ≠ .error .valueError ↔ ∃ F mk, IsFormat false s F mk := by
    intro s
    constructor
    · intro h
      cases hr : formatAndRegex s false with
      | error e => exact absurd (by rw [hr, far_err hr]) h
      | ok D => obtain ⟨F, mk, h1, -⟩ := far_inv hr; exact ⟨F, mk, h1⟩
    · rintro ⟨F, mk, h⟩
      rw [far_ok h]; simp
  subst h
  unfold dtFormat at hr ⊢
  split at hr
  · cases hf
  · next s =>
    rw [key]
    simp
  · next k s =>
    by_cases hk : k = "pattern".toList
    · subst hk
      rw [if_pos rfl, key]
      simp
    · rw [if_neg hk] at hr; exact absurd rfl hr
  · exact absurd rfl hr

theorem format_iff {b : Base} {f : J} (hj : DistinctKeys f) {d : Derived} (hd : derived ext b f = .ok d) {bad : Bool} (hb : Datatype.badPattern b f = .ok bad) :
    (derivedWarns ext b f = false ∧ bad = false) ↔ FormatClean ext b.name f := by
  have hbad : b.kind ∉ [Base.Kind.decimal, .integer] → bad = false := by
    intro hk
    simp only [List.mem_cons, List.not_mem_nil, or_false, not_or] at hk
    rw [Datatype.badPattern_kind hk.1 hk.2] at hb
    cases hb; rfl
  have hdec : ∀ {k}, b.kind = k → k ∈ [Base.Kind.decimal, .integer] → derivedWarns ext b f = false := by
    intro k h1 h2
    simp only [List.mem_cons, List.not_mem_nil, or_false] at h2
    unfold derivedWarns
    rcases h2 with rfl | rfl <;> rw [h1]
  have e : FormatClean ext b.name f ↔
      (b.kind ∈ [Base.Kind.string, .uri, .nmtoken, .normalized] → Falsy f ∨ (∃ s, f = .str s ∧ ext.re s ≠ none) ∨ (¬ IsText f ∧ ext.re (ext.pyStr f) ≠ none)) ∧
      (b.kind = .boolean → Falsy f ∨ ∃ t g, f = .str (t ++ '|' :: g) ∧ '|' ∉ t ∧ '|' ∉ g) ∧
      (b.kind = .date → Falsy f ∨ ∃ s, (f = .str s ∨ f = .obj [("pattern".toList, .str s)]) ∧ ∃ F mk, IsFormat false s F mk) ∧
      (b.kind ∈ [Base.Kind.decimal, .integer] → Falsy f ∨ (∃ m, f = .obj m ∧ ∀ p, Has m "pattern" p → PatternClean p) ∨ ((∀ m, f ≠ .obj m) ∧ PatternClean f)) ∧
      (b.kind = .json → Falsy f ∨ ext.jsonBad f = false) := by
    rw [← string_bases, ← decimal_bases, ← boolean_base, ← date_base, ← json_base]
    exact ⟨fun ⟨a, b, c, d, e⟩ => ⟨a, b, c, d, e⟩, fun ⟨a, b, c, d, e⟩ => ⟨a, b, c, d, e⟩⟩
  rw [e]
  have hstr : ∀ {k}, b.kind = k → k ∈ [Base.Kind.string, .uri, .nmtoken, .normalized] →
      (derivedWarns ext b f = false ↔ Falsy f ∨ (∃ s, f = .str s ∧ ext.re s ≠ none) ∨ (¬ IsText f ∧ ext.re (ext.pyStr f) ≠ none)) := by
    intro k h1 h2
    have e : derivedWarns ext b f = (f.truthy && (ext.re (match f with | .str s => s | j => ext.pyStr j)).isNone) := by
      simp only [List.mem_cons, List.not_mem_nil, or_false] at h2
      rcases h2 with rfl | rfl | rfl | rfl <;> cases f <;> simp only [derivedWarns, h1]
    rw [e, Bool.and_eq_false_iff, truthy_iff]
    refine or_congr Iff.rfl ?_
    have hn : ∀ s, (ext.re s).isNone = false ↔ ext.re s ≠ none := by
      intro s; cases ext.re s <;> simp
    cases f <;> simp [hn, IsText]
  cases hk : b.kind with
  | string | uri | nmtoken | normalized =>
    rw [hstr hk (by decide), hbad (by rw [hk]; decide)]; simp
  | decimal | integer =>
    rw [hdec hk (by decide), badPattern_iff (by rw [hk]; decide) hj hb]; simp
  | boolean =>
    rw [hbad (by rw [hk]; decide)]
    have : derivedWarns ext b f = false ↔ Falsy f ∨ ∃ t g, f = .str (t ++ '|' :: g) ∧ '|' ∉ t ∧ '|' ∉ g := by
      unfold derivedWarns
      rw [hk]
      simp only
      rw [Bool.and_eq_false_iff, truthy_iff]
      refine or_congr Iff.rfl ?_
      cases f with
      | str s => simp only [decide_eq_false_iff_not, Decidable.not_not, J.str.injEq]; exact count_bar
      | _ => simp
    simp [this]
  | date =>
    rw [hbad (by rw [hk]; decide)]
    have : derivedWarns ext b f = false ↔ Falsy f ∨ ∃ s, (f = .str s ∨ f = .obj [("pattern".toList, .str s)]) ∧ ∃ F mk, IsFormat false s F mk := by
      unfold derivedWarns
      unfold derived at hd
      rw [hk] at hd ⊢
      simp only at hd ⊢
      cases ht : f.truthy with
      | false =>
        simp only [orFmt, ht, Bool.false_eq_true, if_false]
        simp only [truthy_iff.1 ht, true_or, iff_true]
        rfl
      | true =>
        simp only [orFmt, ht, if_true] at hd ⊢
        have hr : dtFormat f false ≠ .error .typeError := by
          intro h; rw [h] at hd; simp at hd
        rw [← dtFormat_clean ht rfl hr]
        have hnf : ¬ Falsy f := by rw [← truthy_iff]; simp [ht]
        simp only [hnf, false_or]
        cases hv : dtFormat f false with
        | ok D => simp
        | error e => cases e <;> simp
    simp [this]
  | json =>
    rw [hbad (by rw [hk]; decide)]
    have : derivedWarns ext b f = false ↔ Falsy f ∨ ext.jsonBad f = false := by
      unfold derivedWarns
      rw [hk]
      simp only
      rw [Bool.and_eq_false_iff, truthy_iff]
    simp [this]
  | _ =>
    rw [hbad (by rw [hk]; decide)]
    unfold derivedWarns
    rw [hk]
    simp

end

end Csvw
