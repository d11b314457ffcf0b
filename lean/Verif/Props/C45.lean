import Verif.Props.C43_C45
import Verif.Spec.Database
import Verif.Lemmas.StrLe
/-!
# C45: composite foreign keys in SQL
-/

namespace Csvw.Props
open Csvw.Spec Csvw.Db Csvw.TableGroup

theorem strLe_iff {a b : Str} : strLe a b = true ↔ StrLE a b := by
  unfold StrLE
  induction a generalizing b with
  | nil => simp [strLe]
  | cons c r ih =>
    cases b with
    | nil =>
      simp only [strLe, Bool.false_eq_true, false_iff, List.prefix_nil, reduceCtorEq, false_or]
      rintro ⟨p, c, d, a', b', -, h, -⟩
      cases p <;> simp at h
    | cons d s =>
      unfold strLe
      by_cases h : c = d
      · subst h
        simp only [if_true]
        rw [ih, List.cons_prefix_cons]
        constructor
        · rintro (h | ⟨p, x, y, a', b', h1, h2, h3⟩)
          · exact .inl ⟨rfl, h⟩
          · exact .inr ⟨c :: p, x, y, a', b', by rw [h1]; rfl, by rw [h2]; rfl, h3⟩
        · rintro (⟨-, h⟩ | ⟨p, x, y, a', b', h1, h2, h3⟩)
          · exact .inl h
          · cases p with
            | nil =>
              simp only [List.nil_append, List.cons.injEq] at h1 h2
              obtain ⟨rfl, -⟩ := h1
              obtain ⟨rfl, -⟩ := h2
              omega
            | cons e p =>
              simp only [List.cons_append, List.cons.injEq] at h1 h2
              exact .inr ⟨p, x, y, a', b', h1.2, h2.2, h3⟩
      · rw [if_neg h, decide_eq_true_eq, List.cons_prefix_cons]
        constructor
        · intro hlt
          exact .inr ⟨[], c, d, r, s, rfl, rfl, hlt⟩
        · rintro (⟨rfl, -⟩ | ⟨p, x, y, a', b', h1, h2, h3⟩)
          · exact absurd rfl h
          · cases p with
            | nil =>
              simp only [List.nil_append, List.cons.injEq] at h1 h2
              rw [h1.1, h2.1]
              exact h3
            | cons e p =>
              simp only [List.cons_append, List.cons.injEq] at h1 h2
              exact absurd (h1.1.trans h2.1.symm) h

/-- The lexicographic order of pairs. -/
def pairLe (p q : Str × Str) : Bool := if p.1 = q.1 then strLe p.2 q.2 else strLe p.1 q.1

theorem pairLe_total (p q : Str × Str) : (pairLe p q || pairLe q p) = true := by
  unfold pairLe
  by_cases h : p.1 = q.1
  · rw [if_pos h, if_pos h.symm]; exact StrLe.total _ _
  · rw [if_neg h, if_neg (Ne.symm h)]; exact StrLe.total _ _

theorem pairLe_trans (p q r : Str × Str) (h1 : pairLe p q = true) (h2 : pairLe q r = true) : pairLe p r = true := by
  unfold pairLe at *
  by_cases hpq : p.1 = q.1
  · rw [if_pos hpq] at h1
    by_cases hqr : q.1 = r.1
    · rw [if_pos hqr] at h2
      rw [if_pos (hpq.trans hqr)]
      exact StrLe.trans h1 h2
    · rw [if_neg hqr] at h2
      rw [if_neg (by rw [hpq]; exact hqr), hpq]
      exact h2
  · rw [if_neg hpq] at h1
    by_cases hqr : q.1 = r.1
    · rw [if_neg (by rw [← hqr]; exact hpq), ← hqr]
      exact h1
    · rw [if_neg hqr] at h2
      by_cases hpr : p.1 = r.1
      · rw [hpr] at h1 hpq
        exact absurd (StrLe.antisymm h1 h2) (Ne.symm hqr)
      · rw [if_neg hpr]
        exact StrLe.trans h1 h2

theorem sorted_perm (l : List Str) : (sorted l).Perm l := List.mergeSort_perm _ _

theorem sorted_pairwise (l : List Str) : (sorted l).Pairwise fun a b => strLe a b = true :=
  List.pairwise_mergeSort (le := strLe) (fun _ _ _ => StrLe.trans) StrLe.total l

theorem sorted_unique {l m : List Str} (hp : m.Perm l) (hm : m.Pairwise fun a b => strLe a b = true) : sorted l = m :=
  List.Perm.eq_of_pairwise (fun _ _ _ _ h1 h2 => StrLe.antisymm h1 h2) (sorted_pairwise l) hm ((sorted_perm l).trans hp.symm)

theorem zip_sorted_perm_iff {as bs : List Str} (hl : as.length = bs.length) :
    ((sorted as).zip (sorted bs)).Perm (as.zip bs) ↔ OrderPreserving (as.zip bs) := by
  constructor
  · intro hp p hpm q hqm hne hle
    have h1 : ((sorted as).zip (sorted bs)).Pairwise fun p q => strLe p.1 q.1 = true ∧ strLe p.2 q.2 = true := by
      rw [List.pairwise_iff_getElem]
      intro i j hi hj hij
      simp only [List.getElem_zip]
      simp only [List.length_zip] at hi hj
      exact ⟨List.pairwise_iff_getElem.1 (sorted_pairwise as) i j (by omega) (by omega) hij,
        List.pairwise_iff_getElem.1 (sorted_pairwise bs) i j (by omega) (by omega) hij⟩
    rw [← strLe_iff] at hle ⊢
    obtain ⟨i, hi, rfl⟩ := List.mem_iff_getElem.1 (hp.mem_iff.2 hpm)
    obtain ⟨j, hj, rfl⟩ := List.mem_iff_getElem.1 (hp.mem_iff.2 hqm)
    rw [List.pairwise_iff_getElem] at h1
    rcases Nat.lt_trichotomy i j with h | h | h
    · exact (h1 i j hi hj h).2
    · subst h; exact StrLe.refl _
    · exact absurd (StrLe.antisymm hle (h1 j i hj hi h).1) hne
  · intro hop
    have hsp : ((as.zip bs).mergeSort pairLe).Perm (as.zip bs) := List.mergeSort_perm _ _
    have hpw := List.pairwise_mergeSort pairLe_trans pairLe_total (as.zip bs)
    have h1 : sorted as = ((as.zip bs).mergeSort pairLe).map Prod.fst := by
      apply sorted_unique
      · have := hsp.map Prod.fst
        rwa [List.map_fst_zip (by omega)] at this
      · rw [List.pairwise_map]
        apply hpw.imp
        intro p q h
        unfold pairLe at h
        split at h
        · rename_i he; rw [he]; exact StrLe.refl _
        · exact h
    have h2 : sorted bs = ((as.zip bs).mergeSort pairLe).map Prod.snd := by
      apply sorted_unique
      · have := hsp.map Prod.snd
        rwa [List.map_snd_zip (by omega)] at this
      · rw [List.pairwise_map]
        apply hpw.imp_of_mem
        intro p q hp hq h
        unfold pairLe at h
        split at h
        · exact h
        · rename_i hne
          exact strLe_iff.2 (hop p (hsp.mem_iff.1 hp) q (hsp.mem_iff.1 hq) hne (strLe_iff.1 h))
    rw [h1, h2, ← List.unzip_fst, ← List.unzip_snd, List.zip_unzip]
    exact hsp

/-! ## Foreign keys of a table -/

theorem listValuedKey_iff {t : Table} {fk : ForeignKey} :
    ListValuedKey t fk ↔ ∃ c, fk.columnReference = [c] ∧ c ∈ listValued t := by
  unfold ListValuedKey listValued
  constructor
  · rintro ⟨col, hc, he, hs⟩
    exact ⟨col.header, he, List.mem_map_of_mem (List.mem_filter.2 ⟨hc, hs⟩)⟩
  · rintro ⟨c, he, hc⟩
    obtain ⟨col, hm, rfl⟩ := List.mem_map.1 hc
    obtain ⟨h1, h2⟩ := List.mem_filter.1 hm
    exact ⟨col, h1, he, h2⟩

/-- What `addForeignKey` does. -/
theorem addForeignKey_cases {t : Table} {drop : Bool} {s s' : TableSpec} {fk : ForeignKey} (hn : s.name = t.url)
    (h : addForeignKey t drop s fk = .ok s') :
    (PlainKey t drop fk ∧ ∃ r, fk.resource = some r ∧ s'.manyToMany = s.manyToMany ∧
      s'.foreignKeys = s.foreignKeys ++ [(sorted fk.columnReference, r, sorted fk.refColumns)]) ∨
    (¬ PlainKey t drop fk ∧ (fk.schemaReference ≠ none ∨ ¬ ListValuedKey t fk) ∧ s' = s) ∨
    (¬ PlainKey t drop fk ∧ fk.schemaReference = none ∧ ∃ c pk rc r, ListValuedKey t fk ∧ fk.columnReference = [c] ∧
      s.primaryKey = some [pk] ∧ fk.refColumns = [rc] ∧ fk.resource = some r ∧ s'.foreignKeys = s.foreignKeys ∧
      s'.manyToMany = Dict.set c (associationTable t.url pk r rc) s.manyToMany) := by
  unfold addForeignKey at h
  split at h
  · rename_i hsr
    cases h
    exact .inr (.inl ⟨fun hp => hsr hp.1, .inl hsr, rfl⟩)
  · rename_i hsr
    simp only [ne_eq, Decidable.not_not] at hsr
    simp only at h
    split at h
    · rename_i c hb
      have hc : fk.columnReference = [c] ∧ c ∈ listValued t := by
        split at hb
        · rename_i c' he
          split at hb
          · rename_i hm
            cases hb
            exact ⟨he, hm⟩
          · cases hb
        · cases hb
      have hlv : ListValuedKey t fk := listValuedKey_iff.2 ⟨c, hc⟩
      split at h
      · rename_i rc pk h1 h2
        split at h
        · cases h
        · rename_i r hr
          cases h
          exact .inr (.inr ⟨fun hp => hp.2.1 hlv, hsr, c, pk, rc, r, hlv, hc.1, h2, h1, hr, rfl, by rw [← hn]⟩)
      · cases h
    · rename_i hb
      have hlv : ¬ ListValuedKey t fk := by
        rw [listValuedKey_iff]
        rintro ⟨c, he, hm⟩
        rw [he] at hb
        simp [hm] at hb
      split at h
      · cases h
      · rename_i r hr
        split at h
        · rename_i hd
          simp only [Bool.and_eq_true, decide_eq_true_eq] at hd
          cases h
          exact .inr (.inl ⟨fun hp => hp.2.2 ⟨hd.1, by rw [hr, hd.2, hn]⟩, .inr hlv, rfl⟩)
        · rename_i hd
          simp only [Bool.and_eq_true, decide_eq_true_eq] at hd
          cases h
          refine .inl ⟨⟨hsr, hlv, ?_⟩, r, hr, rfl, rfl⟩
          rintro ⟨h1, h2⟩
          rw [hr] at h2
          cases h2
          exact hd ⟨h1, hn.symm⟩

/-- The keys of a list which become foreign keys in SQL. -/
inductive PlainKeys (t : Table) (drop : Bool) : List ForeignKey → List ForeignKey → Prop where
  | nil : PlainKeys t drop [] []
  | take {fk : ForeignKey} {l m : List ForeignKey} (h : PlainKey t drop fk) (r : PlainKeys t drop l m) :
      PlainKeys t drop (fk :: l) (fk :: m)
  | skip {fk : ForeignKey} {l m : List ForeignKey} (h : ¬ PlainKey t drop fk) (r : PlainKeys t drop l m) :
      PlainKeys t drop (fk :: l) m

theorem addForeignKeys_plain {t : Table} {drop : Bool} {fks : List ForeignKey} {s s' : TableSpec} (hn : s.name = t.url)
    (h : addForeignKeys t drop s fks = .ok s') :
    ∃ plain new, PlainKeys t drop fks plain ∧ s'.foreignKeys = s.foreignKeys ++ new ∧
      All2 (fun fk e => fk.resource = some e.2.1 ∧ e.1 = sorted fk.columnReference ∧ e.2.2 = sorted fk.refColumns) plain new := by
  induction fks generalizing s with
  | nil =>
    unfold addForeignKeys at h
    cases h
    exact ⟨[], [], .nil, by simp, .nil⟩
  | cons fk r ih =>
    unfold addForeignKeys at h
    cases hf : addForeignKey t drop s fk with
    | error e => rw [hf] at h; simp at h
    | ok s1 =>
      rw [hf] at h
      simp only at h
      have hn1 := (addForeignKey_name hf).1.trans hn
      obtain ⟨plain, new, h1, h2, h3⟩ := ih hn1 h
      rcases addForeignKey_cases hn hf with ⟨hp, r, hr, -, he⟩ | ⟨hp, -, rfl⟩ | ⟨hp, -, c, pk, rc, r, -, -, -, -, -, he, -⟩
      · exact ⟨fk :: plain, _ :: new, .take hp h1, by rw [h2, he, List.append_assoc]; rfl, .cons ⟨hr, rfl, rfl⟩ h3⟩
      · exact ⟨plain, new, .skip hp h1, h2, h3⟩
      · exact ⟨plain, new, .skip hp h1, by rw [h2, he], h3⟩

theorem all2_imp {α β : Type} {R S : α → β → Prop} (h : ∀ a b, R a b → S a b) {as : List α} {bs : List β} (h2 : All2 R as bs) :
    All2 S as bs := by
  induction h2 with
  | nil => exact .nil
  | cons h1 _ ih => exact .cons (h _ _ h1) ih

/-- **C45** The foreign keys of a table become, one by one and in order, foreign keys of the SQL table, with the same columns on both
sides (`e.1` references `e.2.2` of table `e.2.1`); and columns are paired as in the metadata if and only if the pairing respects the
order of the names. -/
theorem C45_iff {t : Table} {drop : Bool} {s : TableSpec} (h : fromTable t drop = .ok s) :
    ∃ plain, PlainKeys t drop t.schema.foreignKeys plain ∧
      All2 (fun (fk : ForeignKey) e => fk.resource = some e.2.1 ∧ e.1.Perm fk.columnReference ∧ e.2.2.Perm fk.refColumns ∧
        (fk.columnReference.length = fk.refColumns.length →
          ((e.1.zip e.2.2).Perm (fk.columnReference.zip fk.refColumns) ↔
            OrderPreserving (fk.columnReference.zip fk.refColumns)))) plain s.foreignKeys := by
  unfold fromTable at h
  cases hf : addForeignKeys t drop { name := t.url, primaryKey := t.schema.primaryKey } t.schema.foreignKeys with
  | error e => rw [hf] at h; simp at h
  | ok s1 =>
    rw [hf] at h
    simp only at h
    obtain ⟨plain, new, h1, h2, h3⟩ := addForeignKeys_plain rfl hf
    rw [(addColumns_same h).2.1, h2]
    refine ⟨plain, h1, all2_imp ?_ h3⟩
    rintro fk ⟨a, r, b⟩ ⟨hr, ha, hb⟩
    simp only at ha hb hr
    subst ha hb
    exact ⟨hr, sorted_perm _, sorted_perm _, zip_sorted_perm_iff⟩

/-- A pairing of one column respects the order. -/
theorem orderPreserving_single (p : Str × Str) : OrderPreserving [p] := by
  intro a ha b hb hne
  rw [List.mem_singleton] at ha hb
  rw [ha, hb] at hne
  exact absurd rfl hne

/-- **C45** (keys of one column) The column is paired with the referenced column. -/
theorem C45_single {t : Table} {drop : Bool} {s : TableSpec} (h : fromTable t drop = .ok s) {fk : ForeignKey} {c rc : Str}
    (hfk : fk ∈ t.schema.foreignKeys) (hp : PlainKey t drop fk) (hc : fk.columnReference = [c]) (hr : fk.refColumns = [rc]) :
    ∃ r, fk.resource = some r ∧ ([c], r, [rc]) ∈ s.foreignKeys := by
  obtain ⟨plain, h1, h2⟩ := C45_iff h
  have hm : fk ∈ plain := by
    clear h2 h
    generalize t.schema.foreignKeys = fks at hfk h1
    induction h1 with
    | nil => exact hfk
    | take h r ih =>
      rcases List.mem_cons.1 hfk with rfl | hfk
      · exact List.mem_cons_self ..
      · exact List.mem_cons_of_mem _ (ih hfk)
    | skip h r ih =>
      rcases List.mem_cons.1 hfk with rfl | hfk
      · exact absurd hp h
      · exact ih hfk
  obtain ⟨⟨a, r, b⟩, he, h3, h4, h5, -⟩ := all2_mem_left h2 hm
  simp only at h3 h4 h5
  rw [hc, List.perm_singleton] at h4
  rw [hr, List.perm_singleton] at h5
  subst h4 h5
  exact ⟨r, h3, he⟩

/-- **C45 does not hold** for arbitrary keys: a foreign key of columns `x` and `y`, which reference `b` and `a`, becomes one where `x`
references `a` and `y` references `b`. -/
theorem C45_violated :
    ∃ t s, t.schema.foreignKeys =
        [{ columnReference := ["x".toList, "y".toList], resource := some "u".toList, refColumns := ["b".toList, "a".toList] }] ∧
      fromTable t true = .ok s ∧ s.foreignKeys = [(["x".toList, "y".toList], "u".toList, ["a".toList, "b".toList])] := by
  refine ⟨{ url := "t".toList, schema := { columns := [{ name := some "x".toList, number := 1 }, { name := some "y".toList, number := 2 }], foreignKeys :=
    [{ columnReference := ["x".toList, "y".toList], resource := some "u".toList, refColumns := ["b".toList, "a".toList] }] } }, ?_⟩
  have h1 : sorted ["x".toList, "y".toList] = ["x".toList, "y".toList] := sorted_unique (List.Perm.refl _) (by decide)
  have h2 : sorted ["b".toList, "a".toList] = ["a".toList, "b".toList] :=
    sorted_unique (List.Perm.swap _ _ _) (by decide)
  refine ⟨?_, ?_, ?_, ?_⟩
  rotate_left
  · rfl
  · simp [fromTable, addForeignKeys, addForeignKey]
    rfl
  · show [(sorted ["x".toList, "y".toList], "u".toList, sorted ["b".toList, "a".toList])] = _
    rw [h1, h2]

/-- The case which meets the hypotheses of `C45_iff`: a key of two columns whose names are in the same order on both sides. -/
theorem C45_example :
    ∃ t s, fromTable t true = .ok s ∧ s.foreignKeys = [(["x".toList, "y".toList], "u".toList, ["a".toList, "b".toList])] ∧
      ∃ fk, t.schema.foreignKeys = [fk] ∧ PlainKey t true fk ∧ fk.columnReference = ["y".toList, "x".toList] ∧
        fk.refColumns = ["b".toList, "a".toList] ∧ OrderPreserving (fk.columnReference.zip fk.refColumns) := by
  refine ⟨{ url := "t".toList, schema := { columns := [{ name := some "x".toList, number := 1 }, { name := some "y".toList, number := 2 }], foreignKeys :=
    [{ columnReference := ["y".toList, "x".toList], resource := some "u".toList, refColumns := ["b".toList, "a".toList] }] } }, ?_⟩
  have h1 : sorted ["y".toList, "x".toList] = ["x".toList, "y".toList] := sorted_unique (List.Perm.swap _ _ _) (by decide)
  have h2 : sorted ["b".toList, "a".toList] = ["a".toList, "b".toList] :=
    sorted_unique (List.Perm.swap _ _ _) (by decide)
  refine ⟨?_, ?_, ?_, { columnReference := ["y".toList, "x".toList], resource := some "u".toList, refColumns := ["b".toList, "a".toList] },
    rfl, ⟨rfl, ?_, ?_⟩, rfl, rfl, ?_⟩
  rotate_left
  · simp [fromTable, addForeignKeys, addForeignKey]
    rfl
  · show [(sorted ["y".toList, "x".toList], "u".toList, sorted ["b".toList, "a".toList])] = _
    rw [h1, h2]
  · rintro ⟨col, -, he, -⟩
    simp at he
  · rintro ⟨-, h⟩
    simp at h
  · intro p hp q hq hne hle
    rw [← strLe_iff] at hle ⊢
    simp only [List.zip_cons_cons, List.zip_nil_right, List.mem_cons, List.not_mem_nil, or_false] at hp hq
    rcases hp with rfl | rfl <;> rcases hq with rfl | rfl <;> revert hle hne <;> decide

/-! ## The order of tables, in terms of the metadata -/

theorem mem_of_plain {t : Table} {drop : Bool} {fks plain : List ForeignKey} (h1 : PlainKeys t drop fks plain) {fk : ForeignKey}
    (hfk : fk ∈ fks) (hp : PlainKey t drop fk) : fk ∈ plain := by
  induction h1 with
  | nil => exact hfk
  | take h r ih =>
    rcases List.mem_cons.1 hfk with rfl | hfk
    · exact List.mem_cons_self ..
    · exact List.mem_cons_of_mem _ (ih hfk)
  | skip h r ih =>
    rcases List.mem_cons.1 hfk with rfl | hfk
    · exact absurd hp h
    · exact ih hfk

/-- The table for a table of the group. -/
theorem spec_of_table {g : TableGroup} {drop : Bool} {specs : List TableSpec} (h : schema g drop = .ok specs)
    (hdist : ∀ s s', IsSqlTable g drop s → IsSqlTable g drop s' → s.name = s'.name → s = s') {t : Table} (ht : TableNamed g t.url t) :
    ∃ s ∈ specs, fromTable t drop = .ok s := by
  obtain ⟨d, res, hc, hd, hp, ho, _, rfl⟩ := schema_spec h
  obtain ⟨_, hk, hall⟩ := collect_spec hc
  obtain ⟨s, hs⟩ := hall t ht
  exact ⟨s, (C43_exact h hdist s).2 (.table ht hs), hs⟩

/-- **C43** In terms of the metadata: a table comes after the tables which its foreign keys reference. -/
theorem C43_references {g : TableGroup} {drop : Bool} {specs : List TableSpec} (h : schema g drop = .ok specs)
    (hdist : ∀ s s', IsSqlTable g drop s → IsSqlTable g drop s' → s.name = s'.name → s = s') {t : Table} (ht : TableNamed g t.url t)
    {fk : ForeignKey} (hfk : fk ∈ t.schema.foreignKeys) (hp : PlainKey t drop fk) :
    ∃ r pre s post, fk.resource = some r ∧ specs = pre ++ s :: post ∧ s.name = t.url ∧ (r = t.url ∨ ∃ u ∈ pre, u.name = r) := by
  obtain ⟨s, hs, hf⟩ := spec_of_table h hdist ht
  obtain ⟨plain, h1, h2⟩ := C45_iff hf
  obtain ⟨⟨a, r, b⟩, he, h3, -⟩ := all2_mem_left h2 (mem_of_plain h1 hfk hp)
  obtain ⟨pre, post, hpp⟩ := List.append_of_mem hs
  refine ⟨r, pre, s, post, h3, hpp, fromTable_name hf, ?_⟩
  have := C43_order h hpp _ he
  rwa [fromTable_name hf] at this

theorem addForeignKeys_many {t : Table} {drop : Bool} {fks : List ForeignKey} {s s' : TableSpec} (hn : s.name = t.url)
    (h : addForeignKeys t drop s fks = .ok s') {c rc r : Str}
    (hfk : (∃ fk ∈ fks, fk.schemaReference = none ∧ ListValuedKey t fk ∧ fk.columnReference = [c]) ∨
      ∃ pk, s.primaryKey = some [pk] ∧ Dict.get c s.manyToMany = some (associationTable t.url pk r rc))
    (hu : ∀ fk ∈ fks, fk.schemaReference = none → fk.columnReference = [c] → fk.refColumns = [rc] ∧ fk.resource = some r) :
    ∃ pk, s.primaryKey = some [pk] ∧ Dict.get c s'.manyToMany = some (associationTable t.url pk r rc) := by
  induction fks generalizing s with
  | nil =>
    unfold addForeignKeys at h
    cases h
    rcases hfk with ⟨fk, hm, -⟩ | h
    · simp at hm
    · exact h
  | cons fk rest ih =>
    unfold addForeignKeys at h
    cases hf : addForeignKey t drop s fk with
    | error e => rw [hf] at h; simp at h
    | ok s1 =>
      rw [hf] at h
      simp only at h
      have hnm := addForeignKey_name hf
      have hn1 := hnm.1.trans hn
      have hu' := fun fk' hm => hu fk' (List.mem_cons_of_mem _ hm)
      rw [← hnm.2.2]
      apply ih hn1 h ?_ hu'
      rcases addForeignKey_cases hn hf with ⟨hp, r', hr, hmm, he⟩ | ⟨hp, hor, rfl⟩ | ⟨hp, hsr, c', pk, rc', r', hlv, hc', hpk, hrc, hr, he, hmm⟩
      · rcases hfk with ⟨fk', hm, h1, h2, h3⟩ | hg
        · rcases List.mem_cons.1 hm with rfl | hm
          · exact absurd h2 hp.2.1
          · exact .inl ⟨fk', hm, h1, h2, h3⟩
        · rw [hnm.2.2, hmm]
          exact .inr hg
      · rcases hfk with ⟨fk', hm, h1, h2, h3⟩ | hg
        · rcases List.mem_cons.1 hm with rfl | hm
          · rcases hor with h | h
            · exact absurd h1 h
            · exact absurd h2 h
          · exact .inl ⟨fk', hm, h1, h2, h3⟩
        · exact .inr hg
      · by_cases hcc : c' = c
        · subst hcc
          obtain ⟨e1, e2⟩ := hu fk (List.mem_cons_self ..) hsr hc'
          rw [hrc] at e1
          rw [hr] at e2
          cases e1
          cases e2
          refine .inr ⟨pk, hnm.2.2.trans hpk, ?_⟩
          rw [hmm, Dict.get_set]
          simp
        · rcases hfk with ⟨fk', hm, h1, h2, h3⟩ | ⟨pk', hpk', hg⟩
          · rcases List.mem_cons.1 hm with rfl | hm
            · rw [hc'] at h3
              cases h3
              exact absurd rfl hcc
            · exact .inl ⟨fk', hm, h1, h2, h3⟩
          · refine .inr ⟨pk', hnm.2.2.trans hpk', ?_⟩
            rw [hmm, Dict.get_set, if_neg hcc]
            exact hg

/-- **C43** For a list-valued foreign key there is an association table, after both tables. -/
theorem C43_association {g : TableGroup} {drop : Bool} {specs : List TableSpec} (h : schema g drop = .ok specs)
    (hdist : ∀ s s', IsSqlTable g drop s → IsSqlTable g drop s' → s.name = s'.name → s = s') {t : Table} (ht : TableNamed g t.url t)
    {fk : ForeignKey} (hfk : fk ∈ t.schema.foreignKeys) (hsr : fk.schemaReference = none) (hl : ListValuedKey t fk)
    (hu : ∀ fk' ∈ t.schema.foreignKeys, fk'.columnReference = fk.columnReference → fk' = fk) :
    ∃ r pre s post, fk.resource = some r ∧ specs = pre ++ s :: post ∧ s.name = t.url ++ '_' :: r ∧
      (t.url = s.name ∨ ∃ u ∈ pre, u.name = t.url) ∧ (r = s.name ∨ ∃ u ∈ pre, u.name = r) := by
  obtain ⟨s, hs, hf⟩ := spec_of_table h hdist ht
  have hf' := hf
  unfold fromTable at hf
  cases hfks : addForeignKeys t drop { name := t.url, primaryKey := t.schema.primaryKey } t.schema.foreignKeys with
  | error e => rw [hfks] at hf; simp at hf
  | ok s1 =>
    rw [hfks] at hf
    simp only at hf
    obtain ⟨rc, r, hrc, hr⟩ : ∃ rc r, fk.refColumns = [rc] ∧ fk.resource = some r := by
      have key : ∀ (fks : List ForeignKey) (s0 : TableSpec), s0.name = t.url → addForeignKeys t drop s0 fks = .ok s1 → fk ∈ fks →
          ∃ rc r, fk.refColumns = [rc] ∧ fk.resource = some r := by
        intro fks
        induction fks with
        | nil => intro s0 _ _ hm; simp at hm
        | cons fk0 rest ih =>
          intro s0 hn0 h0 hm
          unfold addForeignKeys at h0
          cases hf0 : addForeignKey t drop s0 fk0 with
          | error e => rw [hf0] at h0; simp at h0
          | ok s2 =>
            rw [hf0] at h0
            simp only at h0
            rcases List.mem_cons.1 hm with rfl | hm
            · rcases addForeignKey_cases hn0 hf0 with ⟨hp, -⟩ | ⟨-, hor, -⟩ | ⟨-, -, c, pk, rc, r, -, -, -, h1, h2, -⟩
              · exact absurd hl hp.2.1
              · rcases hor with h | h
                · exact absurd hsr h
                · exact absurd hl h
              · exact ⟨rc, r, h1, h2⟩
            · exact ih s2 ((addForeignKey_name hf0).1.trans hn0) h0 hm
      exact key _ _ rfl hfks hfk
    obtain ⟨c, hc, -⟩ := listValuedKey_iff.1 hl
    obtain ⟨pk, hpk, hg⟩ := addForeignKeys_many (c := c) (rc := rc) (r := r) rfl hfks (.inl ⟨fk, hfk, hsr, hl, hc⟩) (by
      intro fk' hm _ hc'
      rw [hu fk' hm (hc'.trans hc.symm)]
      exact ⟨hrc, hr⟩)
    have hmem : (c, associationTable t.url pk r rc) ∈ s.manyToMany := by
      rw [(addColumns_same hf).2.2.1]
      exact Dict.get_mem hg
    have hin := (C43_exact h hdist _).2 (.assoc ht hf' hmem)
    obtain ⟨pre, post, hpp⟩ := List.append_of_mem hin
    refine ⟨r, pre, _, post, hr, hpp, rfl, ?_, ?_⟩
    · exact C43_order h hpp _ (List.mem_cons_self ..)
    · exact C43_order h hpp _ (List.mem_cons_of_mem _ (List.mem_cons_self ..))

end Csvw.Props
