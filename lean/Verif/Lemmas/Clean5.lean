import Verif.Lemmas.Clean4
import Verif.Props.C34
/-!
# Warnings about schemas
-/

namespace Csvw
open Csvw.Spec

/-! ## The columns of a schema -/

theorem names_true (seen : List Str) : ∀ cs : List Column, Warn.names true seen cs = false ↔ ∀ c ∈ cs, Warn.badName c = false
  | [] => by simp [Warn.names]
  | c :: r => by simp [Warn.names, names_true seen r]

/-- The loop over the columns issues no warning. -/
theorem names_iff : ∀ (cs : List Column) (seen : List Str), cs.Pairwise (fun c c' => c.virtual = true → c'.virtual = true) →
    (Warn.names false seen cs = false ↔ (∀ c ∈ cs, Warn.badName c = false) ∧ (∀ c ∈ cs, c.virtual = false → Warn.rawHeader c ∉ seen) ∧
      cs.Pairwise fun c c' => c'.virtual = false → Warn.rawHeader c ≠ Warn.rawHeader c')
  | [], seen, _ => by simp [Warn.names]
  | c :: r, seen, h => by
    rw [List.pairwise_cons] at h
    unfold Warn.names
    rw [Bool.or_eq_false_iff]
    cases hv : c.virtual with
    | true =>
      have hr : ∀ c' ∈ r, c'.virtual = true := fun c' hc' => h.1 c' hc' hv
      simp only [Bool.false_or, if_pos, names_true, List.mem_cons, forall_eq_or_imp, hv, List.pairwise_cons]
      constructor
      · rintro ⟨a, b⟩
        refine ⟨⟨a, b⟩, ⟨by simp, fun c' hc' h' => ?_⟩, fun c' hc' h' => ?_, ?_⟩
        · rw [hr _ hc'] at h'; cases h'
        · rw [hr _ hc'] at h'; cases h'
        · refine List.Pairwise.imp_of_mem (R := fun _ _ => True) (fun _ hb _ h' => ?_) (List.pairwise_of_forall fun _ _ => trivial)
          rw [hr _ hb] at h'; cases h'
      · rintro ⟨⟨a, b⟩, -⟩; exact ⟨a, b⟩
    | false =>
      rw [if_neg (by simp), Bool.or_eq_false_iff, names_iff r _ h.2]
      simp only [List.mem_cons, forall_eq_or_imp, hv, List.pairwise_cons, not_or, List.contains_eq_mem, decide_eq_false_iff_not, forall_const]
      constructor
      · rintro ⟨a, b, c1, d, e⟩
        exact ⟨⟨a, c1⟩, ⟨b, fun c' hc' h' => (d c' hc' h').2⟩, fun c' hc' h' h2 => (d c' hc' h').1 h2.symm, e⟩
      · rintro ⟨⟨a, c1⟩, ⟨b, d⟩, d', e⟩
        exact ⟨a, b, c1, fun c' hc' h' => ⟨fun h2 => d' c' hc' h' h2.symm, d c' hc' h'⟩, e⟩

theorem get_first {α : Type} (f : α → Str) {r : Str} {c : α} : ∀ {l : List α}, Dict.get r (l.map fun c => (f c, c)) = some c ↔
    ∃ a b, l = a ++ c :: b ∧ f c = r ∧ ∀ c' ∈ a, f c' ≠ r
  | [] => by simp
  | c0 :: l => by
    simp only [List.map_cons, Dict.get]
    split
    · next h =>
      constructor
      · intro h'; cases h'
        exact ⟨[], l, rfl, h, by simp⟩
      · rintro ⟨a, b, e, h1, h2⟩
        cases a with
        | nil => simp only [List.nil_append, List.cons.injEq] at e; rw [e.1]
        | cons a0 a => simp only [List.cons_append, List.cons.injEq] at e; exact absurd (e.1 ▸ h) (h2 a0 (by simp))
    · next h =>
      rw [get_first]
      constructor
      · rintro ⟨a, b, rfl, h1, h2⟩
        refine ⟨c0 :: a, b, rfl, h1, fun c' hc' => ?_⟩
        rcases List.mem_cons.1 hc' with rfl | hc'
        · exact h
        · exact h2 _ hc'
      · rintro ⟨a, b, e, h1, h2⟩
        cases a with
        | nil => simp only [List.nil_append, List.cons.injEq] at e; exact absurd (e.1 ▸ h1) h
        | cons a0 a =>
          simp only [List.cons_append, List.cons.injEq] at e
          exact ⟨a, b, e.2, h1, fun c' hc' => h2 _ (List.mem_cons_of_mem _ hc')⟩

theorem columndict_iff {s : Schema} {r : Str} {c : Column} : Dict.get r s.columndict = some c ↔
    ∃ i : Nat, s.columns[i]? = some c ∧ c.header = r ∧ ∀ (j : Nat) (c' : Column), i < j → s.columns[j]? = some c' → c'.header ≠ r := by
  unfold Schema.columndict Dict.ofPairs
  rw [Dict.get_update, ← List.map_reverse]
  simp only [Dict.get, Option.or_none]
  rw [get_first]
  constructor
  · rintro ⟨a, b, e, h1, h2⟩
    have e' : s.columns = b.reverse ++ c :: a.reverse := by
      rw [← List.reverse_reverse s.columns, e]; simp
    refine ⟨b.length, by rw [e']; simp, h1, fun j c' hj hc' => ?_⟩
    rw [e', List.getElem?_append_right (by simp; omega)] at hc'
    obtain ⟨k, hk⟩ : ∃ k, j - b.reverse.length = k + 1 := ⟨j - b.length - 1, by simp; omega⟩
    rw [hk, List.getElem?_cons_succ] at hc'
    exact h2 c' (List.mem_reverse.1 (List.mem_of_getElem? hc'))
  · rintro ⟨i, hi, h1, h2⟩
    obtain ⟨hl, hi⟩ := List.getElem?_eq_some_iff.1 hi
    refine ⟨(s.columns.drop (i + 1)).reverse, (s.columns.take i).reverse, ?_, h1, fun c' hc' => ?_⟩
    · rw [← List.reverse_reverse (_ ++ _)]
      congr 1
      simp only [List.reverse_append, List.reverse_cons, List.reverse_reverse, List.append_assoc, List.singleton_append]
      rw [← hi, ← List.drop_eq_getElem_cons, List.take_append_drop]
    · rw [List.mem_reverse] at hc'
      obtain ⟨k, hk⟩ := List.getElem?_of_mem hc'
      rw [List.getElem?_drop] at hk
      exact h2 _ _ (by omega) hk


/-! ## The description and the columns -/

section
variable {ext : Ext} {x : MExt} {other : Base → Derived → J → Res Val}

theorem schemaNames_fields : (∀ n ∈ Spec.schemaNames, n.toList ∈ schemaFields) ∧
    ∀ k ∈ schemaFields, (∃ n ∈ Spec.schemaNames, k = n.toList) ∨ k ∈ privNames := by
  constructor <;> decide +kernel

theorem mapObjs_left {α : Type} {f : List (Str × J) → Res α} : ∀ {l : List J} {as : List α}, mapObjs f l = .ok as →
    ∀ m, J.obj m ∈ l → ∃ a, f m = .ok a
  | [], _, _, m, hm => by cases hm
  | j :: r, as, h, m, hm => by
    have hr : ∃ as', mapObjs f r = .ok as' := by
      cases j with
      | obj o =>
        simp only [mapObjs] at h
        split at h
        · cases h
        · obtain ⟨as', h', -⟩ := Except.map_eq_ok.1 h
          exact ⟨as', h'⟩
      | _ => exact ⟨as, h⟩
    obtain ⟨as', hr⟩ := hr
    rcases List.mem_cons.1 hm with rfl | hm
    · simp only [mapObjs] at h
      split at h
      · cases h
      next b hb => exact ⟨b, hb⟩
    · exact mapObjs_left hr m hm

theorem objs_iff {l : List J} {P : List (Str × J) → Prop} :
    (∀ j ∈ l, ∃ m, j = .obj m ∧ P m) ↔ ∃ cs : List (List (Str × J)), l = cs.map .obj ∧ ∀ c ∈ cs, P c := by
  constructor
  · intro h
    induction l with
    | nil => exact ⟨[], rfl, by simp⟩
    | cons j r ih =>
      obtain ⟨m, rfl, hm⟩ := h j (by simp)
      obtain ⟨cs, rfl, hc⟩ := ih fun j hj => h j (List.mem_cons_of_mem _ hj)
      exact ⟨m :: cs, rfl, by simpa using ⟨hm, hc⟩⟩
  · rintro ⟨cs, rfl, h⟩ j hj
    obtain ⟨c, hc, rfl⟩ := List.mem_map.1 hj
    exact ⟨c, rfl, h c hc⟩

theorem Spec.DistinctKeys.item {l : List J} (h : DistinctKeys (.arr l)) {j : J} (hj : j ∈ l) : DistinctKeys j := by
  cases h with
  | arr h => exact h j hj

theorem columns_iff {j : J} (hj : DistinctKeys j) {cols : List Column} (h : convColumns ext x other j = .ok cols) :
    Warn.columns ext x j = false ↔ ∃ cs : List (List (Str × J)), j = .arr (cs.map .obj) ∧ ∀ c ∈ cs, ColumnClean ext (tagOf x) c := by
  cases j with
  | arr l =>
    simp only [convColumns] at h
    split at h
    · cases h
    simp only [Warn.columns, List.any_eq_false, J.arr.injEq, Bool.not_eq_true]
    rw [← objs_iff]
    refine forall_congr' fun j => forall_congr' fun hm => ?_
    cases j with
    | obj m =>
      obtain ⟨c, hc⟩ := mapObjs_left h m hm
      simp [column_iff (hj.item hm) hc]
    | _ => simp
  | _ => simp [Warn.columns]

theorem mapObjs_objs {α : Type} {f : List (Str × J) → Res α} : ∀ {cs : List (List (Str × J))} {as : List α}, mapObjs f (cs.map .obj) = .ok as →
    All2 (fun c a => f c = .ok a) cs as
  | [], as, h => by cases h; exact .nil
  | c :: cs, as, h => by
    simp only [List.map_cons, mapObjs] at h
    split at h
    · cases h
    next a ha =>
    obtain ⟨as', h', rfl⟩ := Except.map_eq_ok.1 h
    exact .cons ha (mapObjs_objs h')

theorem isObj_iff {j : J} : Warn.isObj j = true ↔ ∃ m, j = .obj m := by
  cases j <;> simp [Warn.isObj]

theorem foreignKeys_iff {j : J} {fks : List ForeignKey} (h : convForeignKeys j = .ok fks) :
    Warn.foreignKeys j = false ↔ j = .null ∨ j = .obj [] ∨ ∃ fs : List (List (Str × J)), j = .arr (fs.map .obj) := by
  cases j with
  | arr l =>
    have := objs_iff (l := l) (P := fun _ => True)
    simp only [and_true, implies_true] at this
    simp only [Warn.foreignKeys, List.any_eq_false, reduceCtorEq, false_or, J.arr.injEq, ← this, Bool.not_eq_true, Bool.not_eq_false', isObj_iff]
  | obj m => simp [Warn.foreignKeys]
  | null => simp [Warn.foreignKeys]
  | _ => simp [convForeignKeys] at h

theorem mem_strsOf {r : Str} : ∀ {l : List J}, r ∈ strsOf l ↔ J.str r ∈ l
  | [] => by simp [strsOf]
  | j :: l => by cases j <;> simp [strsOf, mem_strsOf (l := l)]

theorem convKey_iff {j : J} {k : Option (List Str)} (h : convKey j = .ok k) (r : Str) :
    r ∈ k.getD [] ↔ j = .str r ∨ ∃ l, j = .arr l ∧ .str r ∈ l := by
  cases j with
  | null => cases h; simp
  | str s =>
    simp only [convKey, convColref, Except.map, Except.ok.injEq] at h
    subst h; simp [eq_comm]
  | arr l =>
    simp only [convKey, convColref] at h
    split at h
    · cases h
      simp only [Option.getD_some, reduceCtorEq, J.arr.injEq, exists_eq_left', false_or]
      exact mem_strsOf
    · cases h
  | _ => simp [convKey, convColref, Except.map] at h

theorem badName_iff {m : List (Str × J)} {c : Column} (h : ColumnOf m c) :
    Warn.badName c = false ↔ ∀ n, Named m n → (∀ r, n ≠ '_' :: r) ∧ ∀ a ∈ n, ¬ Blank a := by
  unfold Warn.badName
  simp only [← h.name]
  cases nonEmpty c.name with
  | none => simp
  | some n =>
    simp only [Bool.or_eq_false_iff, decide_eq_false_iff_not, List.any_eq_false, Option.some.injEq, forall_eq', Blank]
    refine and_congr ?_ Iff.rfl
    cases n with
    | nil => simp
    | cons c r => simp [eq_comm]

end

end Csvw
