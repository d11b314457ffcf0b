import Verif.Model.JsonLd
import Verif.Spec.JsonLd
import Verif.Lemmas.Metadata
/-!
# C50: simplification of JSON-LD
-/

namespace Csvw.Props
open Csvw.JsonLd Csvw.Spec.JsonLd

theorem resultsMap_eq (f : Bool) (m : List (Str × J)) : resultsMap f m = m.map fun p => (p.1, results f p.2) := by
  induction m with
  | nil => simp only [resultsMap, List.map_nil]
  | cons a r ih => obtain ⟨k, v⟩ := a; simp only [resultsMap, ih, List.map_cons]

theorem resultsList_eq (f : Bool) (l : List J) : resultsList f l = l.map (results f) := by
  induction l with
  | nil => simp only [resultsList, List.map_nil]
  | cons a r ih => simp only [resultsList, ih, List.map_cons]

theorem get_map_results (f : Bool) (k : Str) (m : List (Str × J)) :
    Dict.get k (m.map fun p => (p.1, results f p.2)) = (Dict.get k m).map (results f) := by
  induction m with
  | nil => rfl
  | cons a r ih =>
    obtain ⟨k', v⟩ := a
    simp only [List.map_cons, Dict.get]
    split
    · rfl
    · exact ih

/-- The dict comprehension. -/
theorem collectMap_ok (f : Bool) : ∀ {m m' : List (Str × J)}, collectMap (resultsMap f m) = .ok m' ↔
    Dict.keys m' = (Dict.keys m).map renamed ∧ m'.length = m.length ∧
    ∀ i (h : i < m.length) (h' : i < m'.length), toJson f m[i].2 = .ok m'[i].2
  | [], m' => by
    simp only [resultsMap, collectMap, Except.ok.injEq]
    constructor
    · rintro rfl; exact ⟨rfl, rfl, fun i h => absurd h (by simp)⟩
    · rintro ⟨-, h, -⟩; exact (List.length_eq_zero_iff.1 h).symm
  | (k, v) :: r, m' => by
    simp only [resultsMap, collectMap]
    cases hv : (results f v).whole with
    | error e =>
      simp only [reduceCtorEq, false_iff]
      rintro ⟨-, hl, h⟩
      have := h 0 (by simp) (by rw [hl]; simp)
      simp only [List.getElem_cons_zero] at this
      unfold toJson at this
      rw [hv] at this
      cases this
    | ok w =>
      simp only
      rw [Except.map_eq_ok]
      constructor
      · rintro ⟨t, ht, rfl⟩
        obtain ⟨h1, h2, h3⟩ := collectMap_ok f |>.1 ht
        refine ⟨?_, by simp [h2], ?_⟩
        · simp only [Dict.keys, List.map_cons, List.cons.injEq, true_and] at h1 ⊢
          exact h1
        · intro i h h'
          cases i with
          | zero => exact hv
          | succ i => exact h3 i (by simpa using h) (by simpa using h')
      · rintro ⟨h1, h2, h3⟩
        cases m' with
        | nil => simp at h2
        | cons a t =>
          obtain ⟨k', w'⟩ := a
          simp only [Dict.keys, List.map_cons, List.cons.injEq] at h1
          refine ⟨t, (collectMap_ok f).2 ⟨h1.2, by simpa using h2, fun i h h' => ?_⟩, ?_⟩
          · exact h3 (i + 1) (by simpa using h) (by simpa using h')
          · have h0 := h3 0 (by simp) (by simp)
            simp only [List.getElem_cons_zero] at h0
            have := hv.symm.trans h0
            rw [Except.ok.inj this, h1.1]

/-- The list comprehension. -/
theorem collectList_ok (f : Bool) : ∀ {l l' : List J}, collectList (resultsList f l) = .ok l' ↔
    l'.length = l.length ∧ ∀ i (h : i < l.length) (h' : i < l'.length), toJson f l[i] = .ok l'[i]
  | [], l' => by
    simp only [resultsList, collectList, Except.ok.injEq]
    constructor
    · rintro rfl; exact ⟨rfl, fun i h => absurd h (by simp)⟩
    · rintro ⟨h, -⟩; exact (List.length_eq_zero_iff.1 h).symm
  | v :: r, l' => by
    simp only [resultsList, collectList]
    cases hv : (results f v).whole with
    | error e =>
      simp only [reduceCtorEq, false_iff]
      rintro ⟨hl, h⟩
      have := h 0 (by simp) (by rw [hl]; simp)
      simp only [List.getElem_cons_zero] at this
      unfold toJson at this
      rw [hv] at this
      cases this
    | ok w =>
      simp only
      rw [Except.map_eq_ok]
      constructor
      · rintro ⟨t, ht, rfl⟩
        obtain ⟨h2, h3⟩ := collectList_ok f |>.1 ht
        refine ⟨by simp [h2], ?_⟩
        intro i h h'
        cases i with
        | zero => exact hv
        | succ i => exact h3 i (by simpa using h) (by simpa using h')
      · rintro ⟨h2, h3⟩
        cases l' with
        | nil => simp at h2
        | cons w' t =>
          refine ⟨t, (collectList_ok f).2 ⟨by simpa using h2, fun i h h' => ?_⟩, ?_⟩
          · exact h3 (i + 1) (by simpa using h) (by simpa using h')
          · have h0 := h3 0 (by simp) (by simp)
            simp only [List.getElem_cons_zero] at h0
            have := hv.symm.trans h0
            rw [Except.ok.inj this]

theorem renamed_eq : renamed = fun k => if k = keyRdfType then keyType else k := rfl

theorem renamed_nodup {l : List Str} (hn : l.Nodup) (ht : keyType ∈ l → keyRdfType ∉ l) : (l.map renamed).Nodup := by
  refine List.pairwise_map.2 (List.Pairwise.imp_of_mem ?_ hn)
  intro a b ha hb hab h
  rw [renamed_eq] at h
  simp only at h
  by_cases h1 : a = keyRdfType
  · by_cases h2 : b = keyRdfType
    · exact hab (h1.trans h2.symm)
    · rw [if_pos h1, if_neg h2] at h
      exact ht (h ▸ hb) (h1 ▸ ha)
  · by_cases h2 : b = keyRdfType
    · rw [if_neg h1, if_pos h2] at h
      exact ht (h ▸ ha) (h2 ▸ hb)
    · rw [if_neg h1, if_neg h2] at h
      exact hab h

/-- An object which is neither a value object nor a reference. -/
theorem toJson_obj (f : Bool) {m : List (Str × J)} (hv : keyValue ∉ Dict.keys m) (hi : Dict.keys m ≠ [keyId]) :
    toJson f (.obj m) = mapFrom123 (resultsMap f m) := by
  unfold toJson
  simp only [results, mapWhole]
  have h1 : Dict.get "@value".toList (resultsMap f m) = none := by
    rw [resultsMap_eq, get_map_results, show Dict.get "@value".toList m = none from (Dict.get_eq_none_iff _ _).2 hv]; rfl
  rw [h1]
  simp only [mapFrom121]
  split
  · next k r he =>
    rw [if_neg]
    intro hk
    rw [resultsMap_eq] at he
    apply hi
    have := congrArg (List.map Prod.fst) he
    simp only [List.map_map, List.map_cons, List.map_nil] at this
    rw [hk] at this
    exact this
  · rfl

theorem ofPairs_nodup {m : List (Str × J)} (h : (Dict.keys m).Nodup) : Dict.ofPairs m = m := Dict.ofPairs_of_nodup h

/-- **C50** (exactly the simplified document) -/
theorem toJson_iff (f : Bool) {j : J} (h : Doc j) : ∃ j', toJson f j = .ok j' ∧ Simplified f j j' ∧ Simple f j' := by
  induction h with
  | null => exact ⟨_, rfl, .null, .null⟩
  | bool b => exact ⟨_, rfl, .bool b, .bool b⟩
  | int b => exact ⟨_, rfl, .int b, .int b⟩
  | flt b => exact ⟨_, rfl, .flt b, .flt b⟩
  | str b => exact ⟨_, rfl, .str b, .str b⟩
  | @value m s h =>
    refine ⟨.str s, ?_, .value h, .str s⟩
    unfold toJson
    simp only [results, mapWhole]
    rw [resultsMap_eq, get_map_results, show Dict.get "@value".toList m = some (.str s) from h]
    rfl
  | ref s => exact ⟨_, rfl, .ref s, .str s⟩
  | @arr l h ih =>
    by_cases hf : f = true ∧ l.length = 1
    · obtain ⟨hf, hl⟩ := hf
      obtain ⟨v, rfl⟩ := List.length_eq_one_iff.1 hl
      obtain ⟨j', h1, h2, h3⟩ := ih v (by simp)
      refine ⟨j', ?_, .single hf h2, h3⟩
      unfold toJson at h1 ⊢
      simp only [results, resultsList, listFrom123, hf, if_true]
      rw [← hf]; exact h1
    · have hcol : ∃ l', collectList (resultsList f l) = .ok l' := by
        clear hf h
        induction l with
        | nil => exact ⟨[], by simp only [resultsList, collectList]⟩
        | cons a r ihr =>
          obtain ⟨a', ha, -⟩ := ih a (by simp)
          obtain ⟨r', hr⟩ := ihr fun j hj => ih j (by simp [hj])
          refine ⟨a' :: r', ?_⟩
          simp only [resultsList, collectList]
          unfold toJson at ha
          rw [ha, hr]
          rfl
      obtain ⟨l', hl'⟩ := hcol
      obtain ⟨h1, h2⟩ := (collectList_ok f).1 hl'
      have hw : toJson f (.arr l) = .ok (.arr l') := by
        unfold toJson
        simp only [results, listFrom123]
        split
        · next r he =>
          have hlen : l.length = 1 := by
            have := congrArg List.length he
            rw [resultsList_eq] at this
            simpa using this
          have : f = false := by
            cases f
            · rfl
            · exact absurd ⟨rfl, hlen⟩ hf
          rw [this, if_neg (by simp), ← this, hl']
          rfl
        · rw [hl']; rfl
      have key : ∀ i (h : i < l.length) (h' : i < l'.length), Simplified f l[i] l'[i] ∧ Simple f l'[i] := by
        intro i hi hi'
        obtain ⟨j', e1, e2, e3⟩ := ih l[i] (List.getElem_mem _)
        have := (h2 i hi hi').symm.trans e1
        rw [Except.ok.inj this]
        exact ⟨e2, e3⟩
      refine ⟨.arr l', hw, .arr hf h1 fun i hi hi' => (key i hi hi').1, .arr (by rw [h1]; exact hf) ?_⟩
      intro j hj
      obtain ⟨i, hi, rfl⟩ := List.getElem_of_mem hj
      exact (key i (h1 ▸ hi) hi).2
  | @obj m hn hv hi ht h ih =>
    have hcol : ∃ m', collectMap (resultsMap f m) = .ok m' := by
      clear hn hv hi ht h
      induction m with
      | nil => exact ⟨[], by simp only [resultsMap, collectMap]⟩
      | cons a r ihr =>
        obtain ⟨k, v⟩ := a
        obtain ⟨a', ha, -⟩ := ih (k, v) (by simp)
        obtain ⟨r', hr⟩ := ihr fun j hj => ih j (by simp [hj])
        refine ⟨(renamed k, a') :: r', ?_⟩
        simp only [resultsMap, collectMap]
        unfold toJson at ha
        rw [ha, hr]
        rfl
    obtain ⟨m', hm'⟩ := hcol
    obtain ⟨h1, h2, h3⟩ := (collectMap_ok f).1 hm'
    have hnd : (Dict.keys m').Nodup := by rw [h1]; exact renamed_nodup hn ht
    have key : ∀ i (h : i < m.length) (h' : i < m'.length), Simplified f m[i].2 m'[i].2 ∧ Simple f m'[i].2 := by
      intro i hi hi'
      obtain ⟨j', e1, e2, e3⟩ := ih m[i] (List.getElem_mem _)
      have := (h3 i hi hi').symm.trans e1
      rw [Except.ok.inj this]
      exact ⟨e2, e3⟩
    refine ⟨.obj m', ?_, .obj hv hi h1 h2 fun i hi hi' => (key i hi hi').1, .obj hnd ?_ ?_ ?_ ?_⟩
    · rw [toJson_obj f hv hi, mapFrom123, hm']
      simp only [Except.map, ofPairs_nodup hnd]
    · rw [h1]
      intro hm
      obtain ⟨k, hk, he⟩ := List.mem_map.1 hm
      rw [renamed_eq] at he
      simp only at he
      split at he
      · revert he; decide
      · exact hv (he ▸ hk)
    · intro hk
      rw [h1] at hk
      cases hkm : Dict.keys m with
      | nil => rw [hkm] at hk; simp at hk
      | cons a r =>
        rw [hkm, List.map_cons, List.cons.injEq, List.map_eq_nil_iff] at hk
        obtain ⟨ha, hr⟩ := hk
        rw [renamed_eq] at ha
        simp only at ha
        split at ha
        · revert ha; decide
        · exact hi (by rw [hkm, ha, hr])
    · rw [h1]
      intro hm
      obtain ⟨k, hk, he⟩ := List.mem_map.1 hm
      rw [renamed_eq] at he
      simp only at he
      split at he
      · revert he; decide
      · next hne => exact hne he
    · intro p hp
      obtain ⟨i, hi, rfl⟩ := List.getElem_of_mem hp
      exact (key i (h2 ▸ hi) hi).2

/-- **C50** `to_json` of a JSON-LD document is the simplified document. -/
theorem C50_simplified (f : Bool) {j : J} (h : Doc j) : ∃ j', toJson f j = .ok j' ∧ Simplified f j j' := by
  obtain ⟨j', h1, h2, -⟩ := toJson_iff f h
  exact ⟨j', h1, h2⟩

/-- **C50** There are no value objects, references, or `rdf:type` (or lists with one item, if these are flattened) in the result. -/
theorem C50_simple (f : Bool) {j j' : J} (h : Doc j) (hj : toJson f j = .ok j') : Simple f j' := by
  obtain ⟨j'', h1, -, h3⟩ := toJson_iff f h
  rw [Except.ok.inj (hj.symm.trans h1)]
  exact h3

/-- **C50** What is simple is not changed. -/
theorem C50_unchanged (f : Bool) {j : J} (h : Simple f j) : toJson f j = .ok j := by
  induction h with
  | null => rfl
  | bool b => rfl
  | int b => rfl
  | flt b => rfl
  | str b => rfl
  | @arr l hf h ih =>
    have hl' := (collectList_ok f (l := l) (l' := l)).2 ⟨rfl, fun i hi _ => ih _ (List.getElem_mem _)⟩
    unfold toJson
    simp only [results, listFrom123]
    split
    · next r he =>
      have hlen : l.length = 1 := by
        have := congrArg List.length he
        rw [resultsList_eq] at this
        simpa using this
      have : f = false := by
        cases f
        · rfl
        · exact absurd ⟨rfl, hlen⟩ hf
      rw [this, if_neg (by simp), ← this, hl']
      rfl
    · rw [hl']; rfl
  | @obj m hn hv hi ht h ih =>
    have hm' := (collectMap_ok f (m := m) (m' := m)).2 ⟨?_, rfl, fun i hi _ => ih _ (List.getElem_mem _)⟩
    · rw [toJson_obj f hv hi, mapFrom123, hm']
      simp only [Except.map, ofPairs_nodup hn]
    · rw [← List.map_id (Dict.keys m), List.map_map]
      apply List.map_congr_left
      intro k hk
      rw [renamed_eq]
      simp only [id, Function.comp]
      rw [if_neg fun he : k = keyRdfType => ht (he ▸ hk)]

/-- **C50** Simplifying again changes nothing. -/
theorem C50_idempotent (f : Bool) {j j' : J} (h : Doc j) (hj : toJson f j = .ok j') : toJson f j' = .ok j' :=
  C50_unchanged f (C50_simple f h hj)

/-- **C50 does not hold** for numbers: a common property `{"@value": 5}` is accepted in a description of a table, but `to_json` raises
`TypeError`, and so does the conversion of the table. -/
theorem C50_number_violated (x : MExt) (f : Bool) (i : Int) :
    validCommon x (.obj [("@value".toList, .int i)]) = .ok (.obj [("@value".toList, .int i)]) ∧
    toJson f (.obj [("@value".toList, .int i)]) = .error .typeError := ⟨rfl, rfl⟩

/-- Nor for nested references, which are not JSON-LD: the result can be simplified further. -/
theorem C50_nested_violated (f : Bool) :
    toJson f (.obj [("@id".toList, .obj [("@id".toList, .str "x".toList)])]) = .ok (.obj [("@id".toList, .str "x".toList)]) ∧
    toJson f (.obj [("@id".toList, .str "x".toList)]) = .ok (.str "x".toList) := ⟨rfl, rfl⟩

/-- One of the values is lost if an object has both `@type` and `rdf:type`. -/
theorem C50_type_violated (f : Bool) :
    toJson f (.obj [("@type".toList, .str "a".toList), ("rdf:type".toList, .str "b".toList)]) = .ok (.obj [("@type".toList, .str "b".toList)]) := rfl

/-- A document which meets the hypotheses. -/
def docExample : J := .obj
  [("@id".toList, .str "http://x/1".toList),
   ("rdf:type".toList, .obj [("@id".toList, .str "schema:Person".toList)]),
   ("schema:name".toList, .arr [.obj [("@value".toList, .str "A".toList), ("@language".toList, .str "en".toList)]]),
   ("schema:knows".toList, .arr [.obj [("@id".toList, .str "http://x/2".toList)], .obj [("schema:age".toList, .int 3)]])]

example : Doc docExample ∧ toJson true docExample = .ok (.obj
    [("@id".toList, .str "http://x/1".toList), ("@type".toList, .str "schema:Person".toList), ("schema:name".toList, .str "A".toList),
     ("schema:knows".toList, .arr [.str "http://x/2".toList, .obj [("schema:age".toList, .int 3)]])]) := by
  refine ⟨?_, rfl⟩
  refine .obj (by decide +kernel) (by decide +kernel) (by decide +kernel) (by decide +kernel) ?_
  intro p hp
  simp only [List.mem_cons, List.not_mem_nil, or_false] at hp
  rcases hp with rfl | rfl | rfl | rfl
  · exact .str _
  · exact .ref _
  · exact .arr fun j hj => by
      rcases List.mem_singleton.1 hj with rfl
      exact .value (s := "A".toList) rfl
  · exact .arr fun j hj => by
      simp only [List.mem_cons, List.not_mem_nil, or_false] at hj
      rcases hj with rfl | rfl
      · exact .ref _
      · refine .obj (by decide +kernel) (by decide +kernel) (by decide +kernel) (by decide +kernel) ?_
        intro p hp
        rcases List.mem_singleton.1 hp with rfl
        exact .int _

end Csvw.Props
