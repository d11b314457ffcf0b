import Verif.Lemmas.Common
import Verif.Spec.Dsv
/-!
# C52, C53, C55: common properties, partitioning of descriptions, titles
-/

namespace Csvw.Props
open Spec

/-! ## C55 -/

/-- **C55.** `valid_common_property` accepts a JSON value iff all objects in it, at all depths (outside the values of `@id`
and `@language`), obey the restrictions. -/
theorem C55_accepts_iff (x : MExt) (j : J) (hj : DistinctKeys j) :
    (∃ j', validCommon x j = .ok j') ↔ ∀ o, Nested o j → ObjectOk o :=
  validCommon_iff x j hj

/-- **C55.** It raises nothing but `ValueError`. -/
theorem C55_error (x : MExt) (j : J) (e : PyErr) (h : validCommon x j = .error e) : e = .valueError :=
  validCommon_error x j e h

/-- **C55.** The result is the value, where `@id`s which are not strings are replaced by `null` and `@language`s which are
not language tags are left out. -/
theorem C55_result (x : MExt) (j j' : J) (h : validCommon x j = .ok j') : Cleaned (fun s => x.tagOk s = true) j j' :=
  validCommon_cleaned x j j' h

/-- Nothing has to be cleaned in a value whose `@id`s are strings and whose `@language`s are language tags. -/
theorem Cleaned.unchanged {tag : Str → Prop} {j j' : J} (h : Cleaned tag j j')
    (hid : ∀ o, Nested o j → ∀ v, ("@id".toList, v) ∈ o → ∃ s, v = .str s)
    (hlang : ∀ o, Nested o j → ∀ v, ("@language".toList, v) ∈ o → ∃ s, v = .str s ∧ tag s) : j' = j := by
  have arrTail : ∀ {v l o}, Nested o (.arr l) → Nested o (.arr (v :: l)) := by
    intro v l o h
    cases h with | elem hv ho => exact .elem (List.mem_cons_of_mem _ hv) ho
  suffices H : ∀ {j j' : J}, Cleaned tag j j' →
      (∀ o, Nested o j → ∀ v, ("@id".toList, v) ∈ o → ∃ s, v = .str s) →
      (∀ o, Nested o j → ∀ v, ("@language".toList, v) ∈ o → ∃ s, v = .str s ∧ tag s) → j' = j from H h hid hlang
  clear h hid hlang j j'
  intro j j' h
  induction h with
  | null | bool | int | flt | str | nil | empty => intros; rfl
  | cons h1 h2 ih1 ih2 =>
    intro hid hlang
    rw [ih1 (fun o ho => hid o (.elem (List.mem_cons_self ..) ho)) (fun o ho => hlang o (.elem (List.mem_cons_self ..) ho))]
    have := ih2 (fun o ho => hid o (arrTail ho)) (fun o ho => hlang o (arrTail ho))
    cases this; rfl
  | idStr h ih =>
    intro hid hlang
    have := ih (objTail hid) (objTail hlang)
    cases this; rfl
  | idOther hv h ih =>
    intro hid hlang
    obtain ⟨s, hs⟩ := hid _ (.here _) _ (List.mem_cons_self ..)
    exact absurd hs (hv s)
  | langStr ht h ih =>
    intro hid hlang
    have := ih (objTail hid) (objTail hlang)
    cases this; rfl
  | langOther hv h ih =>
    intro hid hlang
    obtain ⟨s, hs, ht⟩ := hlang _ (.here _) _ (List.mem_cons_self ..)
    exact absurd ht (hv s hs)
  | item hk1 hk2 h1 h2 ih1 ih2 =>
    intro hid hlang
    rw [ih1 (fun o ho => hid o (.item (List.mem_cons_self ..) hk1 hk2 ho))
      (fun o ho => hlang o (.item (List.mem_cons_self ..) hk1 hk2 ho))]
    have := ih2 (objTail hid) (objTail hlang)
    cases this; rfl
where
  /-- The tail of an object is not an object of the value, but its items and their parts are. -/
  objTail {k : Str} {v : J} {m : List (Str × J)} {key : Str} {P : J → Prop}
      (h : ∀ o, Nested o (.obj ((k, v) :: m)) → ∀ v, (key, v) ∈ o → P v) :
      ∀ o, Nested o (.obj m) → ∀ v, (key, v) ∈ o → P v := by
    intro o ho w hw
    cases ho with
    | here => exact h _ (.here _) w (List.mem_cons_of_mem _ hw)
    | item hv h1 h2 ho => exact h o (.item (List.mem_cons_of_mem _ hv) h1 h2 ho) w hw

/-- **C55.** A value whose `@id`s are strings and whose `@language`s are language tags is returned unchanged. -/
theorem C55_unchanged (x : MExt) (j j' : J) (h : validCommon x j = .ok j')
    (hid : ∀ o, Nested o j → ∀ v, ("@id".toList, v) ∈ o → ∃ s, v = .str s)
    (hlang : ∀ o, Nested o j → ∀ v, ("@language".toList, v) ∈ o → ∃ s, v = .str s ∧ x.tagOk s = true) : j' = j :=
  Cleaned.unchanged (C55_result x j j' h) hid hlang

/-- **C55, deviation.** Objects inside the value of `@id` are not checked: the value is accepted although a nested object
has an unknown `@`-property (the `@id` is replaced by `null`). -/
theorem C55_violated_inside_id (x : MExt) :
    validCommon x (.obj [("@id".toList, .obj [("@bad".toList, .null)])]) = .ok (.obj [("@id".toList, .null)]) := by
  simp [validCommon, validCommonMap, commonObjOk, onKey, idOk, validId, idValue, Dict.keys, Dict.get, Dict.has,
    Except.map]

/-- **C55, deviation.** Members of a list of `@type`s may be blank nodes. -/
theorem C55_violated_type_list (x : MExt) :
    validCommon x (.obj [("@type".toList, .arr [.str "_:b".toList])]) =
      .ok (.obj [("@type".toList, .arr [.str "_:b".toList])]) := by
  simp [validCommon, validCommonMap, validCommonList, commonObjOk, onKey, typeOk, Dict.keys, Dict.get, Dict.has,
    Except.map]

/-- The hypotheses of C55 are met by a nested value which is accepted, and by one which is rejected. -/
example (x : MExt) : DistinctKeys (.arr [.obj [("@value".toList, .str "a".toList), ("@type".toList, .str "xsd:string".toList)]]) ∧
    (∃ j', validCommon x (.arr [.obj [("@value".toList, .str "a".toList), ("@type".toList, .str "xsd:string".toList)]]) = .ok j') ∧
    (¬ ∃ j', validCommon x (.arr [.obj [("a".toList, .obj [("@id".toList, .str "_:b".toList)])]]) = .ok j') := by
  refine ⟨.arr fun v hv => ?_, ⟨.arr [.obj [("@value".toList, .str "a".toList), ("@type".toList, .str "xsd:string".toList)]], ?_⟩, ?_⟩
  · simp only [List.mem_singleton] at hv
    subst hv
    refine .obj (by decide) ?_
    intro k v h
    simp only [List.mem_cons, Prod.mk.injEq, List.not_mem_nil, or_false] at h
    rcases h with ⟨_, rfl⟩ | ⟨_, rfl⟩ <;> exact .str _
  · have h : commonObjOk [("@value".toList, .str "a".toList), ("@type".toList, .str "xsd:string".toList)] = true := by
      decide +kernel
    simp only [validCommon, validCommonList, h, if_true]
    simp [validCommon, validCommonMap, Except.map]
  · have h1 : commonObjOk [("a".toList, .obj [("@id".toList, .str "_:b".toList)])] = true := by decide +kernel
    have h2 : commonObjOk [("@id".toList, .str "_:b".toList)] = false := by decide +kernel
    simp only [validCommonList, validCommon, h1, if_true, validCommonMap, h2]
    simp [Except.map]

/-! ## C52 -/

theorem isAt_iff (k : Str) : ['@'].isPrefixOf k = true ↔ AtProperty k := by
  rw [isPrefixOf_iff, singleton_prefix]; rfl

theorem isAt_false (k : Str) : ['@'].isPrefixOf k = false ↔ ¬ AtProperty k := by
  rw [← isAt_iff]; cases ['@'].isPrefixOf k <;> simp

/-- The value stored for an `@`-property. -/
def atValue (k : Str) (v : J) : J := if k = "@id".toList then idValue v else v

/-- The conditions on one item for which `partition_properties` does not raise. -/
def ItemOk (typeName : Str) (k : Str) (v : J) : Prop :=
  (k = "@id".toList → ∀ s, v = .str s → ∀ r, s ≠ '_' :: r) ∧ (k = "@type".toList → v = .str typeName) ∧
  (CommonProperty k → CommonValueOk v)

theorem validId_ok {v v' : J} (h : validId v = .ok v') : v' = idValue v ∧ ∀ s, v = .str s → ∀ r, s ≠ '_' :: r := by
  cases v with
  | str s =>
    rw [validId] at h
    split at h
    · cases h
    · rename_i hp
      cases h
      refine ⟨rfl, ?_⟩
      rintro s' hs r rfl
      cases hs
      exact hp (by simp [List.isPrefixOf])
  | _ => cases h; exact ⟨rfl, by simp⟩

theorem validId_of {v : J} (h : ∀ s, v = .str s → ∀ r, s ≠ '_' :: r) : validId v = .ok (idValue v) := by
  cases v with
  | str s =>
    rw [validId, if_neg]
    · rfl
    · intro hp
      obtain ⟨r, hr⟩ := singleton_prefix.1 (isPrefixOf_iff.1 hp)
      exact h s rfl r hr
  | _ => rfl

/-- Keys which are still free in the result. -/
def Free (p : Parts) (k : Str) : Prop :=
  k ∉ Dict.keys p.own ∧ k ∉ Dict.keys p.common ∧ ∀ r, k = '@' :: r → r ∉ Dict.keys p.atProps

theorem partitionLoop_spec (x : MExt) (fields : List Str) (tn : Str) (strict : Bool) (m : List (Str × J)) :
    ∀ p q, (m.map Prod.fst).Nodup → (∀ k ∈ m.map Prod.fst, Free p k) →
      partitionLoop x fields tn strict m p = .ok q →
      q.own = p.own ++ m.filter (fun e => decide (OwnProperty e.1 ∧ (strict = true → e.1 ∈ fields))) ∧
      q.warned = p.warned ++ (m.filter (fun e => decide (OwnProperty e.1 ∧ strict = true ∧ e.1 ∉ fields))).map Prod.fst ∧
      q.atProps = p.atProps ++
        (m.filter (fun e => decide (AtProperty e.1))).map (fun e => (e.1.drop 1, atValue e.1 e.2)) ∧
      (∃ l, q.common = p.common ++ l ∧ All2 (fun e e' => e'.1 = e.1 ∧ validCommon x e.2 = .ok e'.2)
        (m.filter (fun e => decide (CommonProperty e.1))) l) := by
  induction m with
  | nil =>
    intro p q _ _ h
    cases h
    exact ⟨by simp, by simp, by simp, [], by simp, .nil⟩
  | cons e r ih =>
    obtain ⟨k, v⟩ := e
    intro p q hn hf h
    simp only [List.map_cons, List.nodup_cons] at hn
    have hfk := hf k (by simp)
    have hfr : ∀ k' ∈ r.map Prod.fst, Free p k' := fun k' hk' => hf k' (by simp [hk'])
    rw [partitionLoop] at h
    by_cases hat : AtProperty k
    · rw [if_pos ((isAt_iff k).2 hat)] at h
      have hno : ¬ OwnProperty k := fun h => h.1 hat
      have hnc : ¬ CommonProperty k := fun h => h.1 hat
      obtain ⟨rk, rfl⟩ := hat
      have hv : ∀ v', (if '@' :: rk = "@id".toList then validId v else .ok v) = .ok v' → v' = atValue ('@' :: rk) v := by
        intro v' hv'
        unfold atValue
        split at hv'
        · rename_i hid; rw [if_pos hid]; exact (validId_ok hv').1
        · rename_i hid; rw [if_neg hid]; cases hv'; rfl
      split at h
      · cases h
      · rename_i v' hv'
        obtain rfl := hv v' hv'
        split at h
        · cases h
        · have hset : Dict.set (List.drop 1 ('@' :: rk)) (atValue ('@' :: rk) v) p.atProps =
              p.atProps ++ [(rk, atValue ('@' :: rk) v)] := Dict.set_eq_append_of_not_mem (hfk.2.2 rk rfl)
          rw [hset] at h
          have := ih _ q hn.2 ?_ h
          · obtain ⟨h1, h2, h3, h4⟩ := this
            refine ⟨?_, ?_, ?_, ?_⟩
            · rw [h1]; simp [hno]
            · rw [h2]; simp [hno]
            · rw [h3]
              have : AtProperty ('@' :: rk) := ⟨rk, rfl⟩
              simp [this]
            · obtain ⟨l, hl, hall⟩ := h4
              refine ⟨l, hl, ?_⟩
              simpa [hnc] using hall
          · intro k' hk'
            have := hfr k' hk'
            refine ⟨this.1, this.2.1, ?_⟩
            rintro r' rfl
            simp only [Dict.keys, List.map_append, List.map_cons, List.map_nil, List.mem_append, List.mem_singleton]
            rintro (h | h)
            · exact this.2.2 r' rfl h
            · subst h; exact hn.1 hk'
    · have hat' := (isAt_false k).2 hat
      rw [hat'] at h
      simp only [Bool.false_eq_true, if_false] at h
      by_cases hc : ':' ∈ k
      · have hcp : CommonProperty k := ⟨hat, hc⟩
        have hno : ¬ OwnProperty k := fun h => h.2 hc
        have : k.contains ':' = true := by simpa using hc
        rw [if_pos this] at h
        cases hvc : validCommon x v with
        | error e => rw [hvc] at h; cases h
        | ok v' =>
          simp only [hvc] at h
          rw [Dict.set_eq_append_of_not_mem hfk.2.1] at h
          have := ih _ q hn.2 ?_ h
          · obtain ⟨h1, h2, h3, l, hl, hall⟩ := this
            refine ⟨?_, ?_, ?_, (k, v') :: l, ?_, ?_⟩
            · rw [h1]; simp [hno]
            · rw [h2]; simp [hno]
            · rw [h3]; simp [hat]
            · rw [hl]; simp
            · rw [List.filter_cons_of_pos (by simp [hcp])]
              exact .cons ⟨rfl, hvc⟩ hall
          · intro k' hk'
            have := hfr k' hk'
            refine ⟨this.1, ?_, this.2.2⟩
            simp only [Dict.keys, List.map_append, List.map_cons, List.map_nil, List.mem_append, List.mem_singleton]
            rintro (h | h)
            · exact this.2.1 h
            · subst h; exact hn.1 hk'
      · have hown : OwnProperty k := ⟨hat, hc⟩
        have hnc : ¬ CommonProperty k := fun h => hc h.2
        have : k.contains ':' = false := by simpa using hc
        rw [this] at h
        simp only [Bool.false_eq_true, if_false] at h
        by_cases hs : (strict && !fields.contains k) = true
        · rw [if_pos hs] at h
          simp only [Bool.and_eq_true, Bool.not_eq_true', List.contains_eq_mem, decide_eq_false_iff_not] at hs
          have := ih { p with warned := p.warned ++ [k] } q hn.2 (fun k' hk' => hfr k' hk') h
          obtain ⟨h1, h2, h3, l, hl, hall⟩ := this
          refine ⟨?_, ?_, ?_, l, hl, ?_⟩
          · rw [h1]; simp [hown, hs.1, hs.2]
          · rw [h2]; simp [hown, hs.1, hs.2]
          · rw [h3]; simp [hat]
          · simpa [hnc] using hall
        · rw [if_neg hs] at h
          simp only [Bool.and_eq_true, Bool.not_eq_true', List.contains_eq_mem, decide_eq_false_iff_not, not_and,
            Decidable.not_not] at hs
          rw [Dict.set_eq_append_of_not_mem hfk.1] at h
          have := ih _ q hn.2 ?_ h
          · obtain ⟨h1, h2, h3, l, hl, hall⟩ := this
            refine ⟨?_, ?_, ?_, l, hl, ?_⟩
            · rw [h1]
              rw [List.filter_cons_of_pos (by exact decide_eq_true ⟨hown, hs⟩)]
              simp
            · rw [h2]
              rw [List.filter_cons_of_neg (by simpa using fun _ h => hs h)]
            · rw [h3]; simp [hat]
            · simpa [hnc] using hall
          · intro k' hk'
            have := hfr k' hk'
            refine ⟨?_, this.2⟩
            simp only [Dict.keys, List.map_append, List.map_cons, List.map_nil, List.mem_append, List.mem_singleton]
            rintro (h | h)
            · exact this.1 h
            · subst h; exact hn.1 hk'

/-- **C52.** `partition_properties` distributes the properties of a description: those beginning with `@`, with the `@`
dropped; those with a colon, after validation; the others. In strict mode exactly the others which are no fields of the class
are dropped, each with a warning. Nothing else is in the result, and the order is kept. -/
theorem C52_partition (x : MExt) (fields : List Str) (tn : Str) (strict : Bool) (m : List (Str × J)) (p : Parts)
    (hn : (m.map Prod.fst).Nodup) (h : partitionProperties x fields tn strict (.obj m) = .ok (some p)) :
    p.own = m.filter (fun e => decide (OwnProperty e.1 ∧ (strict = true → e.1 ∈ fields))) ∧
    p.warned = (m.filter (fun e => decide (OwnProperty e.1 ∧ strict = true ∧ e.1 ∉ fields))).map Prod.fst ∧
    p.atProps = (m.filter (fun e => decide (AtProperty e.1))).map (fun e => (e.1.drop 1, atValue e.1 e.2)) ∧
    All2 (fun e e' => e'.1 = e.1 ∧ Cleaned (fun s => x.tagOk s = true) e.2 e'.2)
      (m.filter (fun e => decide (CommonProperty e.1))) p.common := by
  simp only [partitionProperties] at h
  split at h
  · cases h
  · rename_i q hq
    split at h
    · cases h
    · cases h
      obtain ⟨h1, h2, h3, l, hl, hall⟩ := partitionLoop_spec x fields tn strict m {} p hn
        (fun k _ => ⟨by simp [Dict.keys], by simp [Dict.keys], by simp [Dict.keys]⟩) hq
      refine ⟨by simpa using h1, by simpa using h2, by simpa using h3, ?_⟩
      simp only [List.nil_append] at hl
      rw [hl]
      clear hl h1 h2 h3 hq hn
      revert hall
      generalize m.filter (fun e => decide (CommonProperty e.1)) = a
      intro hall
      induction hall with
      | nil => exact .nil
      | cons h _ ih => exact .cons ⟨h.1, validCommon_cleaned x _ _ h.2⟩ ih

/-- **C52.** Each property is of exactly one of the three kinds. -/
theorem C52_exactly_one (k : Str) :
    (AtProperty k ∧ ¬ CommonProperty k ∧ ¬ OwnProperty k) ∨ (¬ AtProperty k ∧ CommonProperty k ∧ ¬ OwnProperty k) ∨
    (¬ AtProperty k ∧ ¬ CommonProperty k ∧ OwnProperty k) := by
  unfold CommonProperty OwnProperty
  by_cases h : AtProperty k <;> by_cases h' : ':' ∈ k <;> simp [h, h']

theorem partitionLoop_ok_iff (x : MExt) (fields : List Str) (tn : Str) (strict : Bool) (m : List (Str × J))
    (hd : ∀ k v, (k, v) ∈ m → DistinctKeys v) :
    ∀ p, (∃ q, partitionLoop x fields tn strict m p = .ok q) ↔ ∀ k v, (k, v) ∈ m → ItemOk tn k v := by
  induction m with
  | nil => intro p; simp [partitionLoop]
  | cons e r ih =>
    obtain ⟨k, v⟩ := e
    intro p
    have ihr := ih fun k v h => hd k v (List.mem_cons_of_mem _ h)
    have hsplit : (∀ k' v', (k', v') ∈ (k, v) :: r → ItemOk tn k' v') ↔
        ItemOk tn k v ∧ ∀ k' v', (k', v') ∈ r → ItemOk tn k' v' := by
      constructor
      · exact fun h => ⟨h k v (List.mem_cons_self ..), fun k' v' h' => h k' v' (List.mem_cons_of_mem _ h')⟩
      · rintro ⟨h1, h2⟩ k' v' h'
        rcases List.mem_cons.1 h' with h' | h'
        · cases h'; exact h1
        · exact h2 k' v' h'
    rw [hsplit, partitionLoop]
    by_cases hat : AtProperty k
    · rw [if_pos ((isAt_iff k).2 hat)]
      have hnc : ¬ CommonProperty k := fun h => h.1 hat
      by_cases hid : k = "@id".toList
      · subst hid
        have hnt : ¬ "@id".toList = "@type".toList := by decide
        simp only [if_true, hnt, decide_false, Bool.false_and, Bool.false_eq_true, if_false]
        by_cases hg : ∀ s, v = .str s → ∀ r, s ≠ '_' :: r
        · simp only [validId_of hg]
          rw [ihr]
          constructor
          · exact fun h => ⟨⟨fun _ => hg, fun h => absurd h hnt, fun h => absurd h hnc⟩, h⟩
          · exact fun h => h.2
        · constructor
          · rintro ⟨q, hq⟩
            split at hq
            · cases hq
            · rename_i v' hv'
              exact absurd (validId_ok hv').2 hg
          · exact fun h => absurd (h.1.1 rfl) hg
      · simp only [if_neg hid]
        by_cases hty : (k = "@type".toList && decide (v ≠ .str tn)) = true
        · rw [if_pos hty]
          simp only [Bool.and_eq_true, decide_eq_true_eq] at hty
          constructor
          · rintro ⟨q, hq⟩; cases hq
          · exact fun h => absurd (h.1.2.1 hty.1) hty.2
        · rw [if_neg hty, ihr]
          simp only [Bool.and_eq_true, decide_eq_true_eq, not_and, Decidable.not_not] at hty
          constructor
          · exact fun h => ⟨⟨fun h => absurd h hid, hty, fun h => absurd h hnc⟩, h⟩
          · exact fun h => h.2
    · have hat' := (isAt_false k).2 hat
      rw [hat']
      simp only [Bool.false_eq_true, if_false]
      have hid : k ≠ "@id".toList := by rintro rfl; exact hat ⟨_, rfl⟩
      have hty : k ≠ "@type".toList := by rintro rfl; exact hat ⟨_, rfl⟩
      by_cases hc : ':' ∈ k
      · have hcp : CommonProperty k := ⟨hat, hc⟩
        have : k.contains ':' = true := by simpa using hc
        rw [if_pos this]
        have hv := validCommon_iff x v (hd k v (List.mem_cons_self ..))
        cases hvc : validCommon x v with
        | error e =>
          constructor
          · rintro ⟨q, hq⟩; cases hq
          · intro h
            obtain ⟨j', hj'⟩ := hv.2 (h.1.2.2 hcp)
            rw [hvc] at hj'; cases hj'
        | ok v' =>
          simp only
          rw [ihr]
          constructor
          · exact fun h => ⟨⟨fun h => absurd h hid, fun h => absurd h hty, fun _ => hv.1 ⟨v', hvc⟩⟩, h⟩
          · exact fun h => h.2
      · have hnc : ¬ CommonProperty k := fun h => hc h.2
        have : k.contains ':' = false := by simpa using hc
        rw [this]
        simp only [Bool.false_eq_true, if_false]
        have hitem : ItemOk tn k v := ⟨fun h => absurd h hid, fun h => absurd h hty, fun h => absurd h hnc⟩
        split
        · rw [ihr]; exact ⟨fun h => ⟨hitem, h⟩, fun h => h.2⟩
        · rw [ihr]; exact ⟨fun h => ⟨hitem, h⟩, fun h => h.2⟩

/-- **C52.** When `partition_properties` succeeds on an object: `@id` is not a string beginning with `_`, `@type` is the name of
the class, the common properties are valid, and no own property which is kept is called `common_props` or `at_props`. -/
theorem C52_succeeds_iff (x : MExt) (fields : List Str) (tn : Str) (strict : Bool) (m : List (Str × J))
    (hj : DistinctKeys (.obj m)) :
    (∃ p, partitionProperties x fields tn strict (.obj m) = .ok (some p)) ↔
    (∀ k v, (k, v) ∈ m → ItemOk tn k v) ∧
    ∀ n ∈ ["common_props".toList, "at_props".toList], (strict = true → n ∈ fields) → ∀ v, (n, v) ∉ m := by
  have hn : (m.map Prod.fst).Nodup := by cases hj with | obj h _ => exact h
  have hd : ∀ k v, (k, v) ∈ m → DistinctKeys v := by cases hj with | obj _ h => exact h
  rw [← partitionLoop_ok_iff x fields tn strict m hd {}]
  simp only [partitionProperties]
  cases hl : partitionLoop x fields tn strict m {} with
  | error e => simp
  | ok q =>
    have howned := (partitionLoop_spec x fields tn strict m {} q hn
      (fun k _ => ⟨by simp [Dict.keys], by simp [Dict.keys], by simp [Dict.keys]⟩) hl).1
    simp only [List.nil_append] at howned
    have hkey : (q.own.any fun e => partNames.contains e.1) = false ↔
        ∀ n ∈ ["common_props".toList, "at_props".toList], (strict = true → n ∈ fields) → ∀ v, (n, v) ∉ m := by
      rw [howned]
      simp only [List.any_eq_false, List.mem_filter, decide_eq_true_eq, Bool.not_eq_true, List.contains_eq_mem,
        decide_eq_false_iff_not]
      constructor
      · intro h n hn hs v hv
        refine h (n, v) ⟨hv, ?_, hs⟩ hn
        have : ∀ n ∈ ["common_props".toList, "at_props".toList], OwnProperty n := by decide
        exact this n hn
      · rintro h ⟨n, v⟩ ⟨hv, ho, hs⟩ hn
        exact h n hn hs v hv
    simp only [Except.ok.injEq, exists_eq', true_and]
    rw [← hkey]
    cases q.own.any fun e => partNames.contains e.1 <;> simp

/-- A description with all kinds of properties. -/
example (x : MExt) : partitionProperties x ["name".toList] "Column".toList true
    (.obj [("name".toList, .str "a".toList), ("@type".toList, .str "Column".toList), ("dc:title".toList, .str "T".toList),
      ("foo".toList, .null)]) =
    .ok (some ⟨[("dc:title".toList, .str "T".toList)], [("type".toList, .str "Column".toList)],
      [("name".toList, .str "a".toList)], ["foo".toList]⟩) := by
  simp [partitionProperties, partitionLoop, validCommon, Dict.set, partNames, List.isPrefixOf]

/-! ## C53 -/

theorem strsOf_map_str (l : List Str) : strsOf (l.map J.str) = l := by
  induction l with
  | nil => rfl
  | cons s r ih => simp [strsOf, ih]

theorem titlesOf_unlist (l : List Str) : titlesOf (unlist l) = l := by
  unfold unlist
  split
  · rfl
  · exact strsOf_map_str l

theorem construct_unlist (x : MExt) (l : List Str) : NatLang.construct x (unlist l) = .ok [(none, l)] := by
  unfold unlist
  split
  · rfl
  · have : (l.map J.str).all J.isStr = true := by simp [J.isStr]
    simp only [NatLang.construct, this, if_true, strsOf_map_str]

theorem keys_map_snd {κ α β : Type} (f : α → β) (g : κ → κ) (m : List (κ × α)) :
    Dict.keys (m.map fun p => (g p.1, f p.2)) = (Dict.keys m).map g := by
  simp [Dict.keys, Function.comp_def]

theorem nodup_map_some {l : List Str} : (l.map some).Nodup ↔ l.Nodup := by
  simp only [List.nodup_iff_pairwise_ne, List.pairwise_map]
  refine ⟨fun h => h.imp fun h h' => h (by rw [h']), fun h => h.imp fun h h' => h (by cases h'; rfl)⟩

/-- A map of languages gives the map back. -/
theorem construct_asdict_langs (x : MExt) (ps : List (Str × List Str)) (hn : (ps.map Prod.fst).Nodup)
    (ht : ∀ p ∈ ps, x.tagOk p.1 = true) :
    NatLang.construct x (NatLang.asdict (ps.map fun p => (some p.1, p.2))) = .ok (ps.map fun p => (some p.1, p.2)) := by
  have hshape : NatLang.asdict (ps.map fun p => (some p.1, p.2)) =
      .obj (Dict.ofPairs (ps.map fun p => (p.1, unlist p.2))) := by
    unfold NatLang.asdict
    split
    · rename_i l h
      cases ps with
      | nil => simp at h
      | cons p r => simp at h
    · simp [List.map_map, Function.comp_def]
  have hk : (Dict.keys (ps.map fun p => (p.1, unlist p.2))).Nodup := by
    simpa [Dict.keys, Function.comp_def] using hn
  rw [hshape, Dict.ofPairs_of_nodup hk, NatLang.construct]
  rw [if_pos (by simpa [Function.comp_def] using fun a b h => ht (a, b) h)]
  simp only [List.map_map, Function.comp_def, titlesOf_unlist]
  rw [Dict.ofPairs_of_nodup]
  have : Dict.keys (ps.map fun p => (some p.1, p.2)) = (ps.map Prod.fst).map some := by
    simp [Dict.keys, Function.comp_def]
  rw [this]
  exact nodup_map_some.2 hn

/-- **C53.** Reading back `asdict()` of a natural language property gives an equal object, whatever it was created from. -/
theorem C53_roundtrip (x : MExt) (v : J) (hv : DistinctKeys v) (n : NatLang) (h : NatLang.construct x v = .ok n) :
    NatLang.construct x n.asdict = .ok n := by
  cases v with
  | str s => cases h; rfl
  | arr l =>
    rw [NatLang.construct] at h
    split at h
    · cases h; exact construct_unlist x _
    · cases h; simp [NatLang.asdict, NatLang.construct, Dict.ofPairs, Dict.update]
  | obj m =>
    rw [NatLang.construct] at h
    split at h
    · rename_i ht
      cases h
      have hn : (m.map Prod.fst).Nodup := by cases hv with | obj h _ => exact h
      have hk : (Dict.keys (m.map fun p => (some p.1, titlesOf p.2))).Nodup := by
        have : Dict.keys (m.map fun p => (some p.1, titlesOf p.2)) = (m.map Prod.fst).map some := by
          simp [Dict.keys, Function.comp_def]
        rw [this]; exact nodup_map_some.2 hn
      rw [Dict.ofPairs_of_nodup hk]
      have := construct_asdict_langs x (m.map fun p => (p.1, titlesOf p.2)) (by simpa [Function.comp_def] using hn)
        (by
          intro p hp
          obtain ⟨q, hq, rfl⟩ := List.mem_map.1 hp
          exact List.all_eq_true.1 ht q hq)
      simpa [List.map_map, Function.comp_def] using this
    · cases h
  | null | bool | int | flt => simp [NatLang.construct] at h

/-- **C53, what is stored.** A string is kept without language, an array of strings likewise, a map of languages as it is. -/
theorem C53_stored (x : MExt) (s : Str) (l : List Str) (ps : List (Str × List Str)) (hn : (ps.map Prod.fst).Nodup)
    (ht : ∀ p ∈ ps, x.tagOk p.1 = true) :
    NatLang.construct x (.str s) = .ok [(none, [s])] ∧
    NatLang.construct x (.arr (l.map .str)) = .ok [(none, l)] ∧
    NatLang.construct x (.obj (ps.map fun p => (p.1, .arr (p.2.map .str)))) = .ok (ps.map fun p => (some p.1, p.2)) := by
  refine ⟨rfl, ?_, ?_⟩
  · have : (l.map J.str).all J.isStr = true := by simp [J.isStr]
    simp only [NatLang.construct, this, if_true, strsOf_map_str]
  · rw [NatLang.construct, if_pos (by simpa [Function.comp_def] using fun a b h => ht (a, b) h)]
    simp only [List.map_map, Function.comp_def, titlesOf, strsOf_map_str]
    rw [Dict.ofPairs_of_nodup]
    have : Dict.keys (ps.map fun p => (some p.1, p.2)) = (ps.map Prod.fst).map some := by
      simp [Dict.keys, Function.comp_def]
    rw [this]
    exact nodup_map_some.2 hn

/-- **C53, add.** Adding a string appends it to the strings of its language, and changes nothing else; `getfirst` gives the first string. -/
theorem C53_add (n : NatLang) (s : Str) (lang lang' : Option Str) :
    Dict.get lang' (n.add s lang) = (if lang' = lang then some ((Dict.get lang n).getD [] ++ [s]) else Dict.get lang' n) ∧
    (∀ a l, Dict.get lang' n = some (a :: l) → n.getfirst lang' = .ok (some a) ∧ (n.add s lang).getfirst lang' = .ok (some a)) ∧
    (Dict.get lang n = none → (n.add s lang).getfirst lang = .ok (some s)) := by
  have h1 : Dict.get lang' (n.add s lang) = (if lang' = lang then some ((Dict.get lang n).getD [] ++ [s]) else Dict.get lang' n) := by
    unfold NatLang.add
    rw [Dict.get_set]
    by_cases h : lang = lang'
    · rw [if_pos h, if_pos h.symm]
    · rw [if_neg h, if_neg (Ne.symm h)]
  refine ⟨h1, ?_, ?_⟩
  · intro a l hl
    refine ⟨by simp [NatLang.getfirst, hl], ?_⟩
    unfold NatLang.getfirst
    rw [h1]
    by_cases h : lang' = lang
    · subst h; simp [hl]
    · simp [h, hl]
  · intro hn
    simp [NatLang.getfirst, NatLang.add, hn]

/-- **C53, deviation.** After `add` of a title without language to an object with languages, `asdict` uses the language
`und`, and reading back gives another object. -/
theorem C53_violated_add (x : MExt) (hx : x.tagOk "en".toList = true) (hu : x.tagOk "und".toList = true) :
    ∃ n, NatLang.construct x (.obj [("en".toList, .str "a".toList)]) = .ok n ∧
      NatLang.construct x (n.add "b".toList none).asdict ≠ .ok (n.add "b".toList none) := by
  refine ⟨[(some "en".toList, ["a".toList])], ?_, ?_⟩
  · have hx' : x.tagOk ['e', 'n'] = true := hx
    simp [NatLang.construct, hx', titlesOf, strsOf, Dict.ofPairs, Dict.update, Dict.set]
  · have hx' : x.tagOk ['e', 'n'] = true := hx
    have hu' : x.tagOk ['u', 'n', 'd'] = true := hu
    simp [NatLang.add, Dict.get, Dict.set, NatLang.asdict, NatLang.construct, Dict.ofPairs, Dict.update, unlist, hx', hu',
      titlesOf, strsOf]

/-- Non-vacuity: titles in two languages. -/
example (x : MExt) (hx : x.tagOk "en".toList = true) (hd : x.tagOk "de".toList = true) :
    NatLang.construct x (.obj [("en".toList, .arr [.str "a".toList, .str "b".toList]), ("de".toList, .str "c".toList)]) =
      .ok [(some "en".toList, ["a".toList, "b".toList]), (some "de".toList, ["c".toList])] := by
  have hx' : x.tagOk ['e', 'n'] = true := hx
  have hd' : x.tagOk ['d', 'e'] = true := hd
  simp [NatLang.construct, hx', hd', titlesOf, strsOf, Dict.ofPairs, Dict.update, Dict.set]

end Csvw.Props
