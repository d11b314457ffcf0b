import Verif.Spec.Clean
import Verif.Model.Warn
import Verif.Lemmas.Frictionless
/-!
# Warnings and descriptions without problems: general lemmas
-/

namespace Csvw
open Csvw.Spec

section
variable {ext : Ext} {x : MExt} {other : Base → Derived → J → Res Val} {lk : EncLookup}

/-- The language tags. -/
abbrev tagOf (x : MExt) : Str → Prop := fun s => x.tagOk s = true

theorem given_iff {m : List (Str × J)} (hn : (Dict.keys m).Nodup) (k : String) (f : J → Bool) :
    Warn.given k f m = false ↔ ∀ v, Has m k v → f v = false := by
  unfold Warn.given Has
  cases h : Dict.get k.toList m with
  | none =>
    simp only [true_iff]
    intro v hv
    rw [Dict.get_of_mem_nodup hn hv] at h
    cases h
  | some w =>
    simp only
    exact ⟨fun hf v hv => by rw [Dict.get_of_mem_nodup hn hv] at h; cases h; exact hf, fun hf => hf w (Dict.get_mem h)⟩

theorem arg_iff {m : List (Str × J)} (hn : (Dict.keys m).Nodup) (k : String) {f : J → Bool} (h0 : f .null = false) :
    f (argOf k m) = false ↔ ∀ v, Has m k v → f v = false := by
  rw [← given_iff hn]
  unfold argOf Warn.given
  cases Dict.get k.toList m with
  | none => simp [h0]
  | some v => simp

theorem arg_eq_iff {m : List (Str × J)} (hn : (Dict.keys m).Nodup) (k : String) {v : J} (h0 : v ≠ .null) : argOf k m = v ↔ Has m k v := by
  unfold argOf Has
  rw [← get_eq_some_iff hn]
  cases Dict.get k.toList m with
  | none => simpa using fun h => h0 h.symm
  | some v => simp

theorem isStr_iff {j : J} : j.isStr = true ↔ IsText j := by
  cases j <;> simp [J.isStr, IsText]

theorem isBool_iff {j : J} : j.isBool = true ↔ IsFlag j := by
  cases j <;> simp [J.isBool, IsFlag]

theorem all_isStr_iff {l : List J} : l.all J.isStr = true ↔ IsTexts (.arr l) := by
  unfold IsTexts
  induction l with
  | nil => simpa using ⟨[], rfl⟩
  | cons j r ih =>
    simp only [List.all_cons, Bool.and_eq_true, ih, isStr_iff]
    constructor
    · rintro ⟨⟨s, rfl⟩, t, ht⟩
      simp only [J.arr.injEq] at ht
      exact ⟨s :: t, by simp [ht]⟩
    · rintro ⟨t, ht⟩
      simp only [J.arr.injEq] at ht
      cases t with
      | nil => cases ht
      | cons s t => simp only [List.map_cons, List.cons.injEq] at ht; exact ⟨⟨s, ht.1⟩, t, by simp [ht.2]⟩

theorem langKept_iff {j : J} : langKept x j = true ↔ IsTag (tagOf x) j := by
  cases j <;> simp [langKept, IsTag, tagOf]

theorem truthy_iff {j : J} : j.truthy = false ↔ Falsy j := by
  cases j <;> simp [J.truthy, Falsy, Decidable.or_iff_not_imp_left]

mutual
theorem item_iff {ok : J → Bool} (h : ∀ l, ok (.arr l) = false) : ∀ j, Warn.item ok j = false ↔ Listed (fun j => ok j = true) j
  | .arr l => by
    rw [Warn.item, items_iff h l]
    exact ⟨.list, fun hl => by cases hl with | one hl => simp [h] at hl | list hl => exact hl⟩
  | .null | .bool _ | .int _ | .flt _ | .str _ | .obj _ => by
    simp only [Warn.item, Bool.not_eq_false']
    exact ⟨fun h => .one h, fun hl => by cases hl with | one hl => exact hl⟩
theorem items_iff {ok : J → Bool} (h : ∀ l, ok (.arr l) = false) :
    ∀ l, Warn.items ok l = false ↔ ∀ j ∈ l, Listed (fun j => ok j = true) j
  | [] => by simp [Warn.items]
  | j :: r => by simp only [Warn.items, Bool.or_eq_false_iff, item_iff h j, items_iff h r, List.forall_mem_cons]
end

theorem conv_iff {ok : J → Bool} (h : ∀ l, ok (.arr l) = false) (h0 : ok .null = false) (an : Bool) (j : J) :
    Warn.conv ok an j = false ↔ (an = true ∧ j = .null) ∨ Listed (fun j => ok j = true) j := by
  cases j with
  | arr l =>
    simp only [Warn.conv, items_iff h l, reduceCtorEq, and_false, false_or]
    exact ⟨.list, fun hl => by cases hl with | one hl => simp [h] at hl | list hl => exact hl⟩
  | null =>
    simp only [Warn.conv, h0, Bool.not_false, Bool.and_true, Bool.not_eq_false']
    exact ⟨fun ha => .inl ⟨ha, by simp⟩, fun ha => ha.elim (·.1) fun hl => by cases hl with | one hl => simp [h0] at hl⟩
  | _ =>
    simp only [Warn.conv, Bool.not_eq_false', reduceCtorEq, and_false, false_or]
    exact ⟨fun h => .one h, fun hl => by cases hl with | one hl => exact hl⟩

theorem Listed.imp {P Q : J → Prop} (h : ∀ j, P j → Q j) {j : J} (hj : Listed P j) : Listed Q j := by
  induction hj with
  | one hj => exact .one (h _ hj)
  | list _ ih => exact .list ih

theorem Listed.congr {P Q : J → Prop} (h : ∀ j, P j ↔ Q j) {j : J} : Listed P j ↔ Listed Q j :=
  ⟨Listed.imp fun j => (h j).1, Listed.imp fun j => (h j).2⟩

/-! ## Common properties -/

theorem commonClean_atom {tag : Str → Prop} {v : J} (h : ∀ o, ¬ Nested o v) : CommonClean tag v :=
  ⟨fun o ho => absurd ho (h o), fun o ho => absurd ho (h o)⟩

mutual
theorem common_iff (x : MExt) : ∀ v, Warn.common x v = false ↔ CommonClean (tagOf x) v
  | .obj m => by
    rw [Warn.common, commonMap_iff x m]
    constructor
    · rintro ⟨h1, h2, h3⟩
      constructor
      · intro o ho w hw
        cases ho with
        | here => exact h1 w hw
        | item hm k1 k2 ho => exact (h3 _ _ hm k1 k2).id o ho w hw
      · intro o ho w hw
        cases ho with
        | here => exact h2 w hw
        | item hm k1 k2 ho => exact (h3 _ _ hm k1 k2).language o ho w hw
    · rintro ⟨h1, h2⟩
      exact ⟨h1 m (.here m), h2 m (.here m), fun k v hm k1 k2 =>
        ⟨fun o ho => h1 o (.item hm k1 k2 ho), fun o ho => h2 o (.item hm k1 k2 ho)⟩⟩
  | .arr l => by
    rw [Warn.common, commonList_iff x l]
    constructor
    · intro h
      exact ⟨fun o ho => by cases ho with | elem hm ho => exact (h _ hm).id o ho,
        fun o ho => by cases ho with | elem hm ho => exact (h _ hm).language o ho⟩
    · rintro ⟨h1, h2⟩ v hv
      exact ⟨fun o ho => h1 o (.elem hv ho), fun o ho => h2 o (.elem hv ho)⟩
  | .null | .bool _ | .int _ | .flt _ | .str _ => by
    simp only [Warn.common, true_iff]
    exact commonClean_atom fun o ho => by cases ho
theorem commonMap_iff (x : MExt) : ∀ m : List (Str × J), Warn.commonMap x m = false ↔
    (∀ w, Has m "@id" w → IsText w) ∧ (∀ w, Has m "@language" w → IsTag (tagOf x) w) ∧
    ∀ k v, (k, v) ∈ m → k ≠ "@id".toList → k ≠ "@language".toList → CommonClean (tagOf x) v
  | [] => by simp [Warn.commonMap, Has]
  | (k, v) :: r => by
    rw [Warn.commonMap, Bool.or_eq_false_iff, commonMap_iff x r]
    simp only [Has, List.mem_cons, Prod.mk.injEq]
    have hne : "@id".toList ≠ "@language".toList := by decide
    by_cases k1 : k = "@id".toList
    · subst k1
      rw [if_pos rfl, Bool.not_eq_false', isStr_iff]
      constructor
      · rintro ⟨a, b, c, d⟩
        refine ⟨?_, ?_, ?_⟩
        · rintro w (⟨-, rfl⟩ | h)
          · exact a
          · exact b w h
        · rintro w (⟨h, -⟩ | h)
          · exact absurd h.symm hne
          · exact c w h
        · rintro k v (⟨rfl, -⟩ | h) k1 k2
          · exact absurd rfl k1
          · exact d k v h k1 k2
      · rintro ⟨a, b, c⟩
        exact ⟨a v (.inl ⟨rfl, rfl⟩), fun w h => a w (.inr h), fun w h => b w (.inr h), fun k v h => c k v (.inr h)⟩
    · by_cases k2 : k = "@language".toList
      · subst k2
        rw [if_neg k1, if_pos rfl]
        constructor
        · rintro ⟨a, b, c, d⟩
          rw [Bool.or_eq_false_iff, Bool.not_eq_false', langKept_iff] at a
          refine ⟨?_, ?_, ?_⟩
          · rintro w (⟨h, -⟩ | h)
            · exact absurd h hne
            · exact b w h
          · rintro w (⟨-, rfl⟩ | h)
            · exact a.1
            · exact c w h
          · rintro k v (⟨rfl, -⟩ | h) k1 k2
            · exact absurd rfl k2
            · exact d k v h k1 k2
        · rintro ⟨a, b, c⟩
          have hv := b v (.inl ⟨rfl, rfl⟩)
          refine ⟨?_, fun w h => a w (.inr h), fun w h => b w (.inr h), fun k v h => c k v (.inr h)⟩
          rw [langKept_iff.2 hv]
          obtain ⟨s, rfl, -⟩ := hv
          rfl
      · rw [if_neg k1, if_neg k2, common_iff x v]
        constructor
        · rintro ⟨a, b, c, d⟩
          refine ⟨?_, ?_, ?_⟩
          · rintro w (⟨h, -⟩ | h)
            · exact absurd h.symm k1
            · exact b w h
          · rintro w (⟨h, -⟩ | h)
            · exact absurd h.symm k2
            · exact c w h
          · rintro k v (⟨rfl, rfl⟩ | h) k1 k2
            · exact a
            · exact d k v h k1 k2
        · rintro ⟨a, b, c⟩
          exact ⟨c k v (.inl ⟨rfl, rfl⟩) k1 k2, fun w h => a w (.inr h), fun w h => b w (.inr h), fun k v h => c k v (.inr h)⟩
theorem commonList_iff (x : MExt) : ∀ l : List J, Warn.commonList x l = false ↔ ∀ v ∈ l, CommonClean (tagOf x) v
  | [] => by simp [Warn.commonList]
  | v :: r => by simp only [Warn.commonList, Bool.or_eq_false_iff, common_iff x v, commonList_iff x r, List.forall_mem_cons]
end

theorem atPrefix {k : Str} : ['@'].isPrefixOf k = true ↔ AtProperty k := by
  rw [isPrefixOf_iff, singleton_prefix]; rfl

/-- The warnings about the properties of an object, as far as they do not depend on its kind, and about unknown properties. -/
theorem parts_false {fields : List Str} {strict : Bool} {m : List (Str × J)} : Warn.parts x fields strict m = false ↔
    AnyClean (tagOf x) m ∧ (strict = true → ∀ k v, (k, v) ∈ m → OwnProperty k → k ∈ fields) := by
  unfold Warn.parts
  rw [List.any_eq_false]
  constructor
  · intro h
    refine ⟨⟨fun k v hm hk => ?_, fun v hv => ?_⟩, fun hs k v hm hk => ?_⟩
    · have := h _ hm
      simp only at this
      rw [if_neg (by rw [atPrefix]; exact hk.1), if_pos (by simpa using hk.2), Bool.not_eq_true, common_iff] at this
      exact this
    · have := h _ hv
      simp only at this
      rw [if_pos (by decide)] at this
      rw [← isStr_iff]
      simpa using this
    · have := h _ hm
      simp only at this
      rw [if_neg (by rw [atPrefix]; exact hk.1), if_neg (by simpa using hk.2), hs] at this
      simpa using this
  · rintro ⟨⟨h1, h2⟩, h3⟩ ⟨k, v⟩ hm
    simp only
    by_cases ha : AtProperty k
    · rw [if_pos (atPrefix.2 ha)]
      by_cases hk : k = "@id".toList
      · subst hk
        simp [isStr_iff.2 (h2 v hm)]
      · rw [decide_eq_false hk]; simp
    · rw [if_neg (by rw [atPrefix]; exact ha)]
      by_cases hc : ':' ∈ k
      · rw [if_pos (by simpa using hc), Bool.not_eq_true, common_iff]
        exact h1 k v hm ⟨ha, hc⟩
      · rw [if_neg (by simpa using hc)]
        cases strict with
        | false => simp
        | true => simpa using h3 rfl k v hm ⟨ha, hc⟩

/-- … for a kind of descriptions with known names, if private names do not occur. -/
theorem parts_iff {fields : List Str} {names : List String} {m : List (Str × J)} {priv : List Str}
    (h1 : ∀ n ∈ names, n.toList ∈ fields) (h2 : ∀ k ∈ fields, (∃ n ∈ names, k = n.toList) ∨ k ∈ priv)
    (h3 : ∀ k v, (k, v) ∈ m → k ∈ fields → k ∉ priv) :
    Warn.parts x fields true m = false ↔ PropsClean (tagOf x) names m := by
  rw [parts_false]
  constructor
  · rintro ⟨ha, hb⟩
    exact ⟨ha, fun k v hm hk => (h2 k (hb rfl k v hm hk)).resolve_right (h3 k v hm (hb rfl k v hm hk))⟩
  · rintro ⟨ha, hb⟩
    refine ⟨ha, fun _ k v hm hk => ?_⟩
    obtain ⟨n, hn, rfl⟩ := hb k v hm hk
    exact h1 n hn

end

end Csvw
