import Verif.Spec.Common
/-!
# Facts about the validation of common properties
-/

namespace Csvw
open Spec

theorem isPrefixOf_iff {a b : Str} : a.isPrefixOf b = true ↔ a <+: b := List.isPrefixOf_iff_prefix

theorem singleton_prefix {c : Char} {s : Str} : [c] <+: s ↔ ∃ r, s = c :: r := by
  constructor
  · rintro ⟨r, rfl⟩; exact ⟨r, rfl⟩
  · rintro ⟨r, rfl⟩; exact ⟨r, rfl⟩

theorem typeTermOk_iff (s : Str) :
    typeTermOk s = true ↔ AbsoluteUrl s ∨ PrefixedName s ∨ ∃ w ∈ csvwTerms, s = w.toList := by
  simp only [typeTermOk, isUrl, AbsoluteUrl, PrefixedName, Bool.or_eq_true, isPrefixOf_iff, List.any_eq_true,
    decide_eq_true_eq, or_assoc]
  constructor
  · rintro (h | h | ⟨p, hp, h | ⟨r, hr⟩⟩ | h)
    · exact .inl h
    · exact .inr (.inl h)
    · exact .inr (.inr (.inl ⟨p, hp, .inl h⟩))
    · exact .inr (.inr (.inl ⟨p, hp, .inr ⟨r, by simp [← hr]⟩⟩))
    · exact .inr (.inr (.inr h))
  · rintro (h | h | ⟨p, hp, h | ⟨r, hr⟩⟩ | h)
    · exact .inl h
    · exact .inr (.inl h)
    · exact .inr (.inr (.inl ⟨p, hp, .inl h⟩))
    · exact .inr (.inr (.inl ⟨p, hp, .inr ⟨r, by simp [hr]⟩⟩))
    · exact .inr (.inr (.inr h))

/-- No URL, prefixed name or term is a blank node. -/
theorem not_blank_of_term {s : Str} (h : typeTermOk s = true) : ¬ "_:".toList <+: s := by
  rintro ⟨r, rfl⟩
  rw [typeTermOk_iff] at h
  rcases h with (⟨t, ht⟩ | ⟨t, ht⟩) | ⟨p, hp, h⟩ | ⟨w, hw, h⟩
  · simp at ht
  · simp at ht
  · have hall : namespaces.all (fun p => match p.1.toList with | c :: _ => c ≠ '_' | [] => false) = true := by
      decide +kernel
    have := List.all_eq_true.1 hall p hp
    cases hpl : p.1.toList with
    | nil => rw [hpl] at this; simp at this
    | cons c cs =>
      rw [hpl] at this
      simp only [ne_eq, decide_not, Bool.not_eq_true', decide_eq_false_iff_not] at this
      rcases h with h | ⟨r', h⟩
      · rw [hpl] at h; simp at h; exact this h.1.symm
      · rw [hpl] at h; simp at h; exact this h.1.symm
  · have hall : csvwTerms.all (fun w => match w.toList with | c :: _ => c ≠ '_' | [] => false) = true := by
      decide +kernel
    have := List.all_eq_true.1 hall w hw
    cases hpl : w.toList with
    | nil => rw [hpl] at this; simp at this
    | cons c cs =>
      rw [hpl] at this
      simp only [ne_eq, decide_not, Bool.not_eq_true', decide_eq_false_iff_not] at this
      rw [hpl] at h; simp at h; exact this h.1.symm

theorem typeOk_iff (t : J) : typeOk t = true ↔ (∃ l, t = .arr l) ∨ (∃ o, t = .obj o) ∨
    ∃ s, t = .str s ∧ (AbsoluteUrl s ∨ PrefixedName s ∨ ∃ w ∈ csvwTerms, s = w.toList) := by
  cases t with
  | str s =>
    simp only [typeOk, Bool.and_eq_true, Bool.not_eq_true', reduceCtorEq, exists_false, false_or, J.str.injEq,
      exists_eq_left']
    rw [← typeTermOk_iff]
    constructor
    · exact fun h => h.2
    · intro h
      refine ⟨?_, h⟩
      cases hp : "_:".toList.isPrefixOf s with
      | false => rfl
      | true => exact absurd (isPrefixOf_iff.1 hp) (not_blank_of_term h)
  | _ => simp [typeOk]

theorem isLiteral_iff (v : J) :
    isLiteral v = true ↔ (∃ s, v = .str s) ∨ (∃ b, v = .bool b) ∨ (∃ i, v = .int i) := by
  cases v <;> simp [isLiteral]

theorem get_eq_some_iff {m : List (Str × J)} (hn : (Dict.keys m).Nodup) (k : Str) (v : J) :
    Dict.get k m = some v ↔ (k, v) ∈ m :=
  ⟨Dict.get_mem, Dict.get_of_mem_nodup hn⟩

theorem has_iff {m : List (Str × J)} (k : Str) : Dict.has k m = true ↔ ∃ v, (k, v) ∈ m := by
  rw [Dict.has_iff_mem_keys]
  simp [Dict.keys]

theorem forall_get_iff {m : List (Str × J)} (hn : (Dict.keys m).Nodup) (k : Str) (f : J → Bool) :
    onKey k m f = true ↔ ∀ v, (k, v) ∈ m → f v = true := by
  unfold onKey
  cases h : Dict.get k m with
  | none =>
    simp only [true_iff]
    intro v hv
    rw [Dict.get_of_mem_nodup hn hv] at h
    cases h
  | some w =>
    simp only
    constructor
    · intro hf v hv
      rw [Dict.get_of_mem_nodup hn hv] at h
      cases h; exact hf
    · intro hf; exact hf w (Dict.get_mem h)

/-- Two-element dicts. -/
theorem perm_pair {m : List (Str × J)} (hn : (Dict.keys m).Nodup) {k k' : Str} (hk : k ≠ k') {v : J}
    (hv : (k, v) ∈ m) (h2 : m.length = 2) : Dict.has k' m = true ↔ ∃ w, m.Perm [(k, v), (k', w)] := by
  rw [has_iff]
  constructor
  · rintro ⟨w, hw⟩
    refine ⟨w, ?_⟩
    match m, h2 with
    | [a, b], _ =>
      simp only [List.mem_cons, List.not_mem_nil, or_false] at hv hw
      rcases hv with hv | hv <;> rcases hw with hw | hw
      · rw [← hv] at hw; exact absurd (congrArg Prod.fst hw).symm hk
      · rw [← hv, ← hw]
      · rw [← hv, ← hw]; exact .swap _ _ _
      · rw [← hv] at hw; exact absurd (congrArg Prod.fst hw).symm hk
  · rintro ⟨w, hp⟩
    exact ⟨w, hp.mem_iff.2 (by simp)⟩

theorem singleton_of_mem {m : List (Str × J)} {p : Str × J} (hv : p ∈ m) : m.length ≤ 1 ↔ m = [p] := by
  constructor
  · intro h
    match m, h with
    | [a], _ => simp at hv; rw [hv]
    | [], _ => simp at hv
  · rintro rfl; simp

theorem commonObjOk_iff {m : List (Str × J)} (hn : (Dict.keys m).Nodup) : commonObjOk m = true ↔ ObjectOk m := by
  unfold commonObjOk
  simp only [Bool.and_eq_true]
  rw [forall_get_iff hn, forall_get_iff hn, forall_get_iff hn]
  have hkeys : ((Dict.keys m).all fun k => !(['@'].isPrefixOf k) || k = "@id".toList || k = "@language".toList ||
      k = "@type".toList || k = "@value".toList) = true ↔ ∀ k v, (k, v) ∈ m → ∀ r, k = '@' :: r →
      r = "id".toList ∨ r = "language".toList ∨ r = "type".toList ∨ r = "value".toList := by
    simp only [List.all_eq_true, Dict.keys, List.mem_map, Bool.or_eq_true, Bool.not_eq_true', decide_eq_true_eq]
    constructor
    · rintro h k v hkv r rfl
      have := h _ ⟨_, hkv, rfl⟩
      simpa [List.isPrefixOf, or_assoc] using this
    · rintro h k ⟨⟨k', v⟩, hkv, rfl⟩
      cases hp : ['@'].isPrefixOf k' with
      | false => simp
      | true =>
        obtain ⟨r, rfl⟩ := singleton_prefix.1 (isPrefixOf_iff.1 hp)
        have := h _ v hkv r rfl
        simpa [or_assoc] using this
  have hval : (∀ v, ("@value".toList, v) ∈ m → (decide (m.length ≤ 1) || (decide (m.length = 2) &&
      (Dict.has "@language".toList m || Dict.has "@type".toList m) && isLiteral v)) = true) ↔
      ∀ v, ("@value".toList, v) ∈ m → m = [("@value".toList, v)] ∨
      (∃ w, m.Perm [("@value".toList, v), ("@language".toList, w)] ∨ m.Perm [("@value".toList, v), ("@type".toList, w)]) ∧
      ((∃ s, v = .str s) ∨ (∃ b, v = .bool b) ∨ (∃ i, v = .int i)) := by
    refine forall_congr' fun v => forall_congr' fun hv => ?_
    simp only [Bool.or_eq_true, Bool.and_eq_true, decide_eq_true_eq, singleton_of_mem hv, isLiteral_iff]
    refine or_congr_right (and_congr_left fun _ => ?_)
    have e1 : "@value".toList ≠ "@language".toList := by decide
    have e2 : "@value".toList ≠ "@type".toList := by decide
    constructor
    · rintro ⟨h2, h | h⟩
      · obtain ⟨w, hw⟩ := (perm_pair hn e1 hv h2).1 h; exact ⟨w, .inl hw⟩
      · obtain ⟨w, hw⟩ := (perm_pair hn e2 hv h2).1 h; exact ⟨w, .inr hw⟩
    · rintro ⟨w, h | h⟩
      · have h2 : m.length = 2 := h.length_eq
        exact ⟨h2, .inl ((perm_pair hn e1 hv h2).2 ⟨w, h⟩)⟩
      · have h2 : m.length = 2 := h.length_eq
        exact ⟨h2, .inr ((perm_pair hn e2 hv h2).2 ⟨w, h⟩)⟩
  have hlang : (!Dict.has "@language".toList m || Dict.has "@value".toList m) = true ↔
      ∀ w, ("@language".toList, w) ∈ m → ∃ v, ("@value".toList, v) ∈ m := by
    rw [← has_iff]
    cases h : Dict.has "@language".toList m with
    | false =>
      simp only [Bool.not_false, Bool.true_or, true_iff]
      intro w hw
      rw [(has_iff _).2 ⟨w, hw⟩] at h
      cases h
    | true =>
      obtain ⟨w, hw⟩ := (has_iff _).1 h
      simp only [Bool.not_true, Bool.false_or]
      exact ⟨fun h _ _ => h, fun h => h w hw⟩
  have hid : (∀ v, ("@id".toList, v) ∈ m → idOk v = true) ↔
      ∀ s, ("@id".toList, .str s) ∈ m → ∀ r, s ≠ '_' :: r := by
    constructor
    · rintro h s hs r rfl
      have := h _ hs
      simp [idOk, validId, List.isPrefixOf] at this
    · intro h v hv
      cases v with
      | str s =>
        have hp : ['_'].isPrefixOf s = false := by
          cases hp : ['_'].isPrefixOf s with
          | false => rfl
          | true =>
            obtain ⟨r, rfl⟩ := singleton_prefix.1 (isPrefixOf_iff.1 hp)
            exact absurd rfl (h _ hv r)
        simp only [idOk, validId, hp, Bool.false_eq_true, if_false]
      | _ => rfl
  have hty : (∀ v, ("@type".toList, v) ∈ m → typeOk v = true) ↔ ∀ t, ("@type".toList, t) ∈ m →
      (∃ l, t = .arr l) ∨ (∃ o, t = .obj o) ∨
      ∃ s, t = .str s ∧ (AbsoluteUrl s ∨ PrefixedName s ∨ ∃ w ∈ csvwTerms, s = w.toList) :=
    forall_congr' fun v => forall_congr' fun _ => typeOk_iff v
  rw [hkeys, hval, hlang, hid, hty]
  constructor
  · rintro ⟨⟨⟨⟨h1, h2⟩, h3⟩, h4⟩, h5⟩
    exact ⟨h1, h2, h3, h4, h5⟩
  · rintro ⟨h1, h2, h3, h4, h5⟩
    exact ⟨⟨⟨⟨h1, h2⟩, h3⟩, h4⟩, h5⟩

theorem Except.map_eq_ok {α β ε : Type} {f : α → β} {r : Except ε α} {b : β} :
    r.map f = .ok b ↔ ∃ a, r = .ok a ∧ f a = b := by
  cases r <;> simp [Except.map]

mutual
theorem validCommon_iff (x : MExt) : ∀ j : J, DistinctKeys j →
    ((∃ j', validCommon x j = .ok j') ↔ ∀ o, Nested o j → ObjectOk o)
  | .null, _ => by
    simp only [validCommon]; exact ⟨(fun _ _ h => by cases h), fun _ => ⟨_, rfl⟩⟩
  | .bool _, _ => by
    simp only [validCommon]; exact ⟨(fun _ _ h => by cases h), fun _ => ⟨_, rfl⟩⟩
  | .int _, _ => by
    simp only [validCommon]; exact ⟨(fun _ _ h => by cases h), fun _ => ⟨_, rfl⟩⟩
  | .flt _, _ => by
    simp only [validCommon]; exact ⟨(fun _ _ h => by cases h), fun _ => ⟨_, rfl⟩⟩
  | .str _, _ => by
    simp only [validCommon]; exact ⟨(fun _ _ h => by cases h), fun _ => ⟨_, rfl⟩⟩
  | .arr l, h => by
    have hl : ∀ v ∈ l, DistinctKeys v := by cases h with | arr h => exact h
    have := validCommonList_iff x l hl
    constructor
    · rintro ⟨j', hj⟩ o ho
      simp only [validCommon, Except.map_eq_ok] at hj
      obtain ⟨l', hl', _⟩ := hj
      cases ho with
      | elem hv ho => exact this.1 ⟨l', hl'⟩ _ hv _ ho
    · intro hall
      obtain ⟨l', hl'⟩ := this.2 fun v hv o ho => hall o (.elem hv ho)
      exact ⟨.arr l', by simp only [validCommon, hl', Except.map]⟩
  | .obj m, h => by
    have hn : (Dict.keys m).Nodup := by cases h with | obj h _ => exact h
    have hm : ∀ k v, (k, v) ∈ m → DistinctKeys v := by cases h with | obj _ h => exact h
    have := validCommonMap_iff x m hm
    rw [validCommon]
    constructor
    · rintro ⟨j', hj⟩ o ho
      split at hj
      · rename_i hok
        obtain ⟨m', hm', _⟩ := Except.map_eq_ok.1 hj
        cases ho with
        | here => exact (commonObjOk_iff hn).1 hok
        | item hv h1 h2 ho => exact this.1 ⟨m', hm'⟩ _ _ hv h1 h2 _ ho
      · cases hj
    · intro hall
      have hok := (commonObjOk_iff hn).2 (hall m (.here m))
      obtain ⟨m', hm'⟩ := this.2 fun k v hv h1 h2 o ho => hall o (.item hv h1 h2 ho)
      exact ⟨.obj m', by simp only [hok, if_true, hm', Except.map]⟩
theorem validCommonMap_iff (x : MExt) : ∀ m : List (Str × J), (∀ k v, (k, v) ∈ m → DistinctKeys v) →
    ((∃ m', validCommonMap x m = .ok m') ↔
      ∀ k v, (k, v) ∈ m → k ≠ "@id".toList → k ≠ "@language".toList → ∀ o, Nested o v → ObjectOk o)
  | [], _ => by simp [validCommonMap]
  | (k, v) :: r, h => by
    have ihr := validCommonMap_iff x r fun k v hkv => h k v (List.mem_cons_of_mem _ hkv)
    have ihv := validCommon_iff x v (h k v (List.mem_cons_self ..))
    have hsplit : (∀ k' v', (k', v') ∈ (k, v) :: r → k' ≠ "@id".toList → k' ≠ "@language".toList →
        ∀ o, Nested o v' → ObjectOk o) ↔
        (k ≠ "@id".toList → k ≠ "@language".toList → ∀ o, Nested o v → ObjectOk o) ∧
        ∀ k v, (k, v) ∈ r → k ≠ "@id".toList → k ≠ "@language".toList → ∀ o, Nested o v → ObjectOk o := by
      constructor
      · exact fun h => ⟨h k v (List.mem_cons_self ..), fun k' v' h' => h k' v' (List.mem_cons_of_mem _ h')⟩
      · rintro ⟨h1, h2⟩ k' v' h'
        rcases List.mem_cons.1 h' with h' | h'
        · cases h'; exact h1
        · exact h2 k' v' h'
    rw [hsplit, ← ihr, validCommonMap]
    by_cases hid : k = "@id".toList
    · subst hid
      simp only [if_true, ne_eq, not_true_eq_false, false_implies, true_and]
      cases hr : validCommonMap x r with
      | ok r' => simp
      | error e => simp
    · rw [if_neg hid]
      by_cases hlk : (k = "@language".toList && !langKept x v) = true
      · rw [if_pos hlk]
        have hl : k = "@language".toList := of_decide_eq_true ((Bool.and_eq_true _ _).mp hlk).1
        simp only [hl, ne_eq, not_true_eq_false, false_implies, implies_true, true_and]
      · rw [if_neg hlk]
        by_cases hl : k = "@language".toList
        · have hkept : langKept x v = true := by
            cases hh : langKept x v with
            | true => rfl
            | false => simp [hl, hh] at hlk
          obtain ⟨s, rfl⟩ : ∃ s, v = .str s := by
            cases v with
            | str s => exact ⟨s, rfl⟩
            | _ => simp [langKept] at hkept
          simp only [hl, ne_eq, not_true_eq_false, false_implies, implies_true, true_and, validCommon]
          cases hr : validCommonMap x r with
          | ok r' => simp
          | error e => simp
        · simp only [ne_eq, hid, hl, not_false_eq_true, true_implies]
          rw [← ihv]
          cases hv : validCommon x v with
          | error e => simp
          | ok v' => cases hr : validCommonMap x r <;> simp
theorem validCommonList_iff (x : MExt) : ∀ l : List J, (∀ v ∈ l, DistinctKeys v) →
    ((∃ l', validCommonList x l = .ok l') ↔ ∀ v ∈ l, ∀ o, Nested o v → ObjectOk o)
  | [], _ => by simp [validCommonList]
  | v :: r, h => by
    have ihr := validCommonList_iff x r fun v hv => h v (List.mem_cons_of_mem _ hv)
    have ihv := validCommon_iff x v (h v (List.mem_cons_self ..))
    rw [validCommonList]
    simp only [List.mem_cons, forall_eq_or_imp]
    rw [← ihv, ← ihr]
    cases hv : validCommon x v with
    | error e => simp
    | ok v' => cases hr : validCommonList x r <;> simp
end

mutual
theorem validCommon_error (x : MExt) : ∀ (j : J) (e : PyErr), validCommon x j = .error e → e = .valueError
  | .null, _, h => by simp [validCommon] at h
  | .bool _, _, h => by simp [validCommon] at h
  | .int _, _, h => by simp [validCommon] at h
  | .flt _, _, h => by simp [validCommon] at h
  | .str _, _, h => by simp [validCommon] at h
  | .arr l, e, h => by
    rw [validCommon] at h
    cases hl : validCommonList x l with
    | ok l' => rw [hl] at h; simp [Except.map] at h
    | error e' => rw [hl] at h; simp [Except.map] at h; exact h ▸ validCommonList_error x l e' hl
  | .obj m, e, h => by
    rw [validCommon] at h
    split at h
    · cases hm : validCommonMap x m with
      | ok l' => rw [hm] at h; simp [Except.map] at h
      | error e' => rw [hm] at h; simp [Except.map] at h; exact h ▸ validCommonMap_error x m e' hm
    · cases h; rfl
theorem validCommonMap_error (x : MExt) : ∀ (m : List (Str × J)) (e : PyErr),
    validCommonMap x m = .error e → e = .valueError
  | [], _, h => by simp [validCommonMap] at h
  | (k, v) :: r, e, h => by
    have ihr := validCommonMap_error x r
    have ihv := validCommon_error x v
    rw [validCommonMap] at h
    cases hv : validCommon x v with
    | error e1 =>
      cases hr : validCommonMap x r with
      | error e2 =>
        simp only [hv, hr] at h
        split at h
        · cases h; exact ihr _ hr
        · split at h
          · cases h; exact ihr _ hr
          · cases h; exact ihv _ hv
      | ok r' =>
        simp only [hv, hr] at h
        split at h
        · cases h
        · split at h
          · cases h
          · cases h; exact ihv _ hv
    | ok v' =>
      cases hr : validCommonMap x r with
      | error e2 =>
        simp only [hv, hr] at h
        split at h
        · cases h; exact ihr _ hr
        · split at h
          · cases h; exact ihr _ hr
          · cases h; exact ihr _ hr
      | ok r' =>
        simp only [hv, hr] at h
        split at h
        · cases h
        · split at h <;> cases h
theorem validCommonList_error (x : MExt) : ∀ (l : List J) (e : PyErr),
    validCommonList x l = .error e → e = .valueError
  | [], _, h => by simp [validCommonList] at h
  | v :: r, e, h => by
    have ihr := validCommonList_error x r
    have ihv := validCommon_error x v
    rw [validCommonList] at h
    cases hv : validCommon x v with
    | error e1 => simp only [hv] at h; cases h; exact ihv _ hv
    | ok v' =>
      cases hr : validCommonList x r with
      | error e2 => simp only [hv, hr] at h; cases h; exact ihr _ hr
      | ok r' => simp only [hv, hr] at h; cases h
end

mutual
theorem validCommon_cleaned (x : MExt) : ∀ (j j' : J), validCommon x j = .ok j' →
    Cleaned (fun s => x.tagOk s = true) j j'
  | .null, _, h => by simp [validCommon] at h; exact h ▸ .null
  | .bool _, _, h => by simp [validCommon] at h; exact h ▸ .bool _
  | .int _, _, h => by simp [validCommon] at h; exact h ▸ .int _
  | .flt _, _, h => by simp [validCommon] at h; exact h ▸ .flt _
  | .str _, _, h => by simp [validCommon] at h; exact h ▸ .str _
  | .arr l, j', h => by
    rw [validCommon] at h
    obtain ⟨l', hl, hj⟩ := Except.map_eq_ok.1 h
    exact hj ▸ validCommonList_cleaned x l l' hl
  | .obj m, j', h => by
    rw [validCommon] at h
    split at h
    · obtain ⟨l', hl, hj⟩ := Except.map_eq_ok.1 h
      exact hj ▸ validCommonMap_cleaned x m l' hl
    · cases h
theorem validCommonMap_cleaned (x : MExt) : ∀ (m m' : List (Str × J)), validCommonMap x m = .ok m' →
    Cleaned (fun s => x.tagOk s = true) (.obj m) (.obj m')
  | [], m', h => by simp [validCommonMap] at h; subst h; exact .empty
  | (k, v) :: r, m', h => by
    have ihr := validCommonMap_cleaned x r
    have ihv := validCommon_cleaned x v
    rw [validCommonMap] at h
    by_cases hid : k = "@id".toList
    · subst hid
      rw [if_pos rfl] at h
      cases hr : validCommonMap x r with
      | error e => simp only [hr] at h; cases h
      | ok r' =>
        simp only [hr] at h; cases h
        cases v with
        | str s => exact .idStr (ihr _ hr)
        | _ => exact .idOther (by simp) (ihr _ hr)
    · rw [if_neg hid] at h
      by_cases hlk : (k = "@language".toList && !langKept x v) = true
      · rw [if_pos hlk] at h
        simp only [Bool.and_eq_true, decide_eq_true_eq, Bool.not_eq_true'] at hlk
        obtain ⟨rfl, hkept⟩ := hlk
        refine .langOther ?_ (ihr _ h)
        rintro s rfl hs
        rw [langKept, hs] at hkept
        cases hkept
      · rw [if_neg hlk] at h
        cases hv : validCommon x v with
        | error e => simp only [hv] at h; cases h
        | ok v' =>
          cases hr : validCommonMap x r with
          | error e => simp only [hv, hr] at h; cases h
          | ok r' =>
            simp only [hv, hr] at h; cases h
            by_cases hl : k = "@language".toList
            · have hkept : langKept x v = true := by
                cases hh : langKept x v with
                | true => rfl
                | false => simp [hl, hh] at hlk
              cases v with
              | str s =>
                simp [validCommon] at hv
                subst hv hl
                exact .langStr hkept (ihr _ hr)
              | _ => simp [langKept] at hkept
            · exact .item hid hl (ihv _ hv) (ihr _ hr)
theorem validCommonList_cleaned (x : MExt) : ∀ (l l' : List J), validCommonList x l = .ok l' →
    Cleaned (fun s => x.tagOk s = true) (.arr l) (.arr l')
  | [], l', h => by simp [validCommonList] at h; subst h; exact .nil
  | v :: r, l', h => by
    have ihr := validCommonList_cleaned x r
    have ihv := validCommon_cleaned x v
    rw [validCommonList] at h
    cases hv : validCommon x v with
    | error e => simp only [hv] at h; cases h
    | ok v' =>
      cases hr : validCommonList x r with
      | error e => simp only [hv, hr] at h; cases h
      | ok r' => simp only [hv, hr] at h; cases h; exact .cons (ihv _ hv) (ihr _ hr)
end

end Csvw
