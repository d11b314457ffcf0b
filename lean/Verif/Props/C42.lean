import Verif.Props.C37
/-!
# C42: unknown fields when writing tables
-/

namespace Csvw.Props
open Csvw.Spec Csvw.Table Csvw.Datatypes

/-- The item is a dict with a key which is not the header of a (non-virtual) column. -/
def HasUnknownKey (t : Table) : Item → Prop
  | .dict d => ∃ k ∈ Dict.keys d, ∀ c ∈ t.schema.columns, c.virtual = false → c.header ≠ k
  | .seq _ => False

/-- Two items are dicts with the same value (`None` if missing) for every (non-virtual) column, or the same sequence. -/
def SameColumns (t : Table) : Item → Item → Prop
  | .dict d, .dict d' => ∀ c ∈ t.schema.columns, c.virtual = false → valueOf d c.header = valueOf d' c.header
  | .seq l, .seq l' => l = l'
  | _, _ => False

section
variable {ext : Ext} {x : MExt} {t : Table} {v : CsvLib.CsvVer}

theorem mem_colnames_iff {k : Str} : k ∈ t.colnames ↔ ∃ c ∈ t.schema.columns, c.virtual = false ∧ c.header = k := by
  constructor
  · intro h
    unfold colnames dataCols ccols at h
    obtain ⟨cc, hcc, rfl⟩ := List.mem_map.1 h
    obtain ⟨h1, h2⟩ := List.mem_filter.1 hcc
    obtain ⟨c, hc, rfl⟩ := List.mem_map.1 h1
    exact ⟨c, hc, by simpa using h2, rfl⟩
  · rintro ⟨c, hc, hv, rfl⟩
    exact mem_colnames hc hv

theorem rowOf_strict (i : Item) :
    (HasUnknownKey t i → rowOf ext t true i = .error .valueError) ∧
    (¬ HasUnknownKey t i → rowOf ext t true i = rowOf ext t false i) := by
  cases i with
  | seq l => exact ⟨fun h => h.elim, fun _ => rfl⟩
  | dict d =>
    simp only [rowOf, Bool.true_and, Bool.false_and, Bool.false_eq_true, if_false]
    have hiff : ((Dict.keys d).any fun k => !t.colnames.contains k) = true ↔ HasUnknownKey t (.dict d) := by
      simp only [HasUnknownKey, List.any_eq_true, Bool.not_eq_true', List.contains_eq_mem, decide_eq_false_iff_not, mem_colnames_iff]
      constructor
      · rintro ⟨k, hk, h⟩; exact ⟨k, hk, fun c hc hv he => h ⟨c, hc, hv, he⟩⟩
      · rintro ⟨k, hk, h⟩; exact ⟨k, hk, fun ⟨c, hc, hv, he⟩ => h c hc hv he⟩
    exact ⟨fun h => if_pos (hiff.2 h), fun h => if_neg fun h' => h (hiff.1 h')⟩

theorem writeItems_strict_same {cfg : Dsv.Cfg} {items : List Item} (h : ∀ i ∈ items, ¬ HasUnknownKey t i) (s : Dsv.WState) :
    writeItems ext x v cfg t true s items = writeItems ext x v cfg t false s items := by
  induction items generalizing s with
  | nil => rfl
  | cons i r ih =>
    unfold writeItems
    rw [(rowOf_strict i).2 (h i (List.mem_cons_self ..))]
    cases rowOf ext t false i with
    | error e => rfl
    | ok ws =>
      simp only
      cases Dsv.writerow v cfg s (ws.map (cellOf x)) with
      | error e => rfl
      | ok s' => exact ih (fun i hi => h i (List.mem_cons_of_mem _ hi)) s'

theorem writeItems_strict_error {cfg : Dsv.Cfg} {items : List Item} (h : ∃ i ∈ items, HasUnknownKey t i) {s s' : Dsv.WState}
    (hs : writeItems ext x v cfg t false s items = .ok s') :
    writeItems ext x v cfg t true s items = .error .valueError := by
  induction items generalizing s with
  | nil => obtain ⟨i, hi, _⟩ := h; simp at hi
  | cons i r ih =>
    unfold writeItems at hs ⊢
    by_cases hu : HasUnknownKey t i
    · rw [(rowOf_strict i).1 hu]
    · rw [(rowOf_strict i).2 hu]
      cases hr : rowOf ext t false i with
      | error e => rw [hr] at hs; simp at hs
      | ok ws =>
        rw [hr] at hs
        simp only at hs ⊢
        cases hw : Dsv.writerow v cfg s (ws.map (cellOf x)) with
        | error e => rw [hw] at hs; simp at hs
        | ok s1 =>
          rw [hw] at hs
          simp only at hs ⊢
          refine ih ?_ hs
          obtain ⟨j, hj, hu'⟩ := h
          rcases List.mem_cons.1 hj with rfl | hj
          · exact absurd hu' hu
          · exact ⟨j, hj, hu'⟩

/-- **C42** Without unknown keys, strict writing does the same as non-strict writing. -/
theorem C42_known {items : List Item} (h : ∀ i ∈ items, ¬ HasUnknownKey t i) :
    t.write ext x v true items = t.write ext x v false items := by
  unfold Table.write
  cases Dsv.Cfg.ofDialect t.getDialect with
  | error e => rfl
  | ok cfg =>
    simp only
    cases (if t.getDialect.header = true then Dsv.writerow v cfg {} (t.colnames.map some) else .ok {}) with
    | error e => rfl
    | ok s => simp only [writeItems_strict_same h]

/-- **C42** If some item has an unknown key, strict writing raises `ValueError` — or the exception non-strict writing raises. -/
theorem C42_unknown {items : List Item} (h : ∃ i ∈ items, HasUnknownKey t i) {text : Str}
    (hw : t.write ext x v false items = .ok text) : t.write ext x v true items = .error .valueError := by
  unfold Table.write at hw ⊢
  cases hc : Dsv.Cfg.ofDialect t.getDialect with
  | error e => rw [hc] at hw; simp at hw
  | ok cfg =>
    rw [hc] at hw
    simp only at hw ⊢
    cases hh : (if t.getDialect.header = true then Dsv.writerow v cfg {} (t.colnames.map some) else .ok {}) with
    | error e => rw [hh] at hw; simp at hw
    | ok s =>
      rw [hh] at hw
      simp only at hw ⊢
      cases hi : writeItems ext x v cfg t false s items with
      | error e => rw [hi] at hw; simp [Except.map] at hw
      | ok s' => rw [writeItems_strict_error h hi]; rfl

/-- An unknown key is reported when its row is reached: what comes after does not matter. -/
theorem writeItems_unknown_first {cfg : Dsv.Cfg} {pre rest : List Item} {i : Item} (hi : HasUnknownKey t i) {s s' : Dsv.WState}
    (hs : writeItems ext x v cfg t true s pre = .ok s') :
    writeItems ext x v cfg t true s (pre ++ i :: rest) = .error .valueError := by
  induction pre generalizing s with
  | nil => simp only [List.nil_append]; unfold writeItems; rw [(rowOf_strict i).1 hi]
  | cons j r ih =>
    rw [List.cons_append]
    unfold writeItems at hs ⊢
    cases hr : rowOf ext t true j with
    | error e => rw [hr] at hs; simp at hs
    | ok ws =>
      rw [hr] at hs
      simp only at hs ⊢
      cases hw : Dsv.writerow v cfg s (ws.map (cellOf x)) with
      | error e => rw [hw] at hs; simp at hs
      | ok s1 => rw [hw] at hs; exact ih hs

/-- **C42** Strict writing raises `ValueError` at the first item with an unknown key: if the items before can be written (in
strict mode), nothing which follows can prevent it. -/
theorem C42_first {pre rest : List Item} {i : Item} (hi : HasUnknownKey t i) {text : Str}
    (hw : t.write ext x v true pre = .ok text) : t.write ext x v true (pre ++ i :: rest) = .error .valueError := by
  unfold Table.write at hw ⊢
  cases hc : Dsv.Cfg.ofDialect t.getDialect with
  | error e => rw [hc] at hw; simp at hw
  | ok cfg =>
    rw [hc] at hw
    simp only at hw ⊢
    cases hh : (if t.getDialect.header = true then Dsv.writerow v cfg {} (t.colnames.map some) else .ok {}) with
    | error e => rw [hh] at hw; simp at hw
    | ok s =>
      rw [hh] at hw
      simp only at hw ⊢
      cases hi' : writeItems ext x v cfg t true s pre with
      | error e => rw [hi'] at hw; simp [Except.map] at hw
      | ok s' => rw [writeItems_unknown_first hi hi']; rfl

theorem rowOf_same {i j : Item} (h : SameColumns t i j) : rowOf ext t false i = rowOf ext t false j := by
  cases i with
  | seq l => cases j with
    | seq l' => cases h; rfl
    | dict d => exact h.elim
  | dict d => cases j with
    | seq l => exact h.elim
    | dict d' =>
      simp only [rowOf, Bool.false_and, Bool.false_eq_true, if_false]
      congr 1
      apply List.map_congr_left
      intro cc hcc
      unfold dataCols ccols at hcc
      obtain ⟨h1, h2⟩ := List.mem_filter.1 hcc
      obtain ⟨c, hc, rfl⟩ := List.mem_map.1 h1
      have := h c hc (by simpa using h2)
      unfold valueOf at this
      rw [this]

/-- **C42** Otherwise the output depends only on the values of the columns: neither on unknown keys nor on the order of keys. -/
theorem C42_ignored {items items' : List Item} (h : All2 (SameColumns t) items items') :
    t.write ext x v false items = t.write ext x v false items' := by
  have : ∀ cfg s, writeItems ext x v cfg t false s items = writeItems ext x v cfg t false s items' := by
    intro cfg
    induction h with
    | nil => intro s; rfl
    | cons h _ ih =>
      intro s
      unfold writeItems
      rw [rowOf_same h]
      rename_i i' _ _ _
      cases rowOf ext t false i' with
      | error e => rfl
      | ok ws =>
        simp only
        cases Dsv.writerow v cfg s (ws.map (cellOf x)) with
        | error e => rfl
        | ok s' => exact ih s'
  unfold Table.write
  simp only [this]
end

/-- Non-vacuity: a row with unknown key `b`. -/
example (ext : Ext) (x : MExt) (v : CsvLib.CsvVer) :
    HasUnknownKey intTable (.dict [(['b'], .one .none), (['a'], .one (.int 5))]) ∧
    ¬ HasUnknownKey intTable (.dict [(['a'], .one (.int 5))]) ∧
    SameColumns intTable (.dict [(['b'], .one .none), (['a'], .one (.int 5))]) (.dict [(['a'], .one (.int 5))]) ∧
    (∃ text, intTable.write ext x v false [.dict [(['b'], .one .none), (['a'], .one (.int 5))]] = .ok text) ∧
    intTable.write ext x v true [.dict [(['b'], .one .none), (['a'], .one (.int 5))]] = .error .valueError := by
  have hu : HasUnknownKey intTable (.dict [(['b'], .one .none), (['a'], .one (.int 5))]) := by
    refine ⟨['b'], by decide, ?_⟩
    intro c hc _
    simp only [intTable, List.mem_singleton] at hc
    subst hc; decide
  have hs : SameColumns intTable (.dict [(['b'], .one .none), (['a'], .one (.int 5))]) (.dict [(['a'], .one (.int 5))]) := by
    intro c hc _
    simp only [intTable, List.mem_singleton] at hc
    subst hc; decide
  have hw : ∃ text, intTable.write ext x v false [.dict [(['b'], .one .none), (['a'], .one (.int 5))]] = .ok text := by
    cases v with
    | mk a b => cases a <;> cases b <;> exact ⟨_, rfl⟩
  refine ⟨hu, ?_, hs, hw, ?_⟩
  · rintro ⟨k, hk, h⟩
    simp only [Dict.keys, List.map_cons, List.map_nil, List.mem_singleton] at hk
    subst hk
    exact h _ (List.mem_cons_self ..) rfl rfl
  · obtain ⟨text, ht⟩ := hw
    exact C42_unknown ⟨_, List.mem_singleton.2 rfl, hu⟩ ht

end Csvw.Props
