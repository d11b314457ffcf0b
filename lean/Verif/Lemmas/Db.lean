import Verif.Model.Db
/-!
# Lemmas about databases
-/

namespace Csvw.Db
open Csvw.Datatypes Csvw.Py

/-- The table with the given name. -/
def lookup (n : Str) (db : Database) : Option DbTable := db.find? fun t => foldName t.name = foldName n

/-- The columns of the SQL table. -/
def sqlColumns (tr : Translator) (t : TableSpec) : List (Str × DbType) := t.columns.map fun c => (tr t.name (some c.name), c.dbType)

/-- The empty SQL table. -/
def emptyTable (tr : Translator) (t : TableSpec) : DbTable := { name := tr t.name none, columns := sqlColumns tr t }

section
variable {sx : SqlExt} {tr : Translator}

theorem lookup_cons (n : Str) (t : DbTable) (db : Database) : lookup n (t :: db) = if foldName t.name = foldName n then some t else lookup n db := by
  unfold lookup
  rw [List.find?_cons]
  by_cases h : foldName t.name = foldName n <;> simp [h]

theorem lookup_name {n : Str} {db : Database} {t : DbTable} (h : lookup n db = some t) : foldName t.name = foldName n := by
  simpa using List.find?_some h

theorem insertRow_ok {all : Database} {keys : List Str} {vs : List Sql} {t t' : DbTable} (h : insertRow sx all keys vs t = .ok t') :
    vs.length = keys.length ∧ keys ≠ [] ∧ keys.Nodup ∧ (∀ k ∈ keys, Dict.has k t.columns = true) ∧
      t' = { t with rows := t.rows ++ [newRow sx t.columns keys vs] } := by
  unfold insertRow at h
  split at h
  · cases h
  · rename_i hc
    simp only [not_or, ne_eq, Decidable.not_not, List.any_eq_true, Bool.not_eq_true', not_exists, not_and, Bool.not_eq_false] at hc
    simp only at h
    split at h
    · cases h
    · cases h
      exact ⟨hc.1, hc.2.1, hc.2.2.1, fun k hk => hc.2.2.2 k hk, rfl⟩

theorem insertRows_ok {all : Database} {keys : List Str} {rows : List (List Sql)} {t t' : DbTable} (h : insertRows sx all keys rows t = .ok t') :
    t'.name = t.name ∧ t'.columns = t.columns ∧ t'.rows = t.rows ++ rows.map (newRow sx t.columns keys) ∧
      ∀ vs ∈ rows, vs.length = keys.length ∧ keys ≠ [] ∧ keys.Nodup ∧ (∀ k ∈ keys, Dict.has k t.columns = true) := by
  induction rows generalizing t with
  | nil => unfold insertRows at h; cases h; simp
  | cons v r ih =>
    unfold insertRows at h
    cases hi : insertRow sx all keys v t with
    | error e => rw [hi] at h; cases h
    | ok t1 =>
      rw [hi] at h
      simp only at h
      obtain ⟨h1, h2, h3, h4⟩ := ih h
      obtain ⟨a1, a2, a3, a4, rfl⟩ := insertRow_ok hi
      refine ⟨h1, h2, ?_, ?_⟩
      · rw [h3]; simp
      · intro vs hvs
        rcases List.mem_cons.1 hvs with rfl | hvs
        · exact ⟨a1, a2, a3, a4⟩
        · exact h4 vs hvs

theorem insertIn_other {all : Database} {n m : Str} {keys : List Str} {rows : List (List Sql)} {db db' : Database}
    (h : insertIn sx all n keys rows db = .ok db') (hm : foldName m ≠ foldName n) : lookup m db' = lookup m db := by
  induction db generalizing db' with
  | nil =>
    unfold insertIn at h
    split at h <;> cases h
    rfl
  | cons t r ih =>
    unfold insertIn at h
    split at h
    · rename_i hn
      cases hi : insertRows sx all keys rows t with
      | error e => rw [hi] at h; cases h
      | ok t1 =>
        rw [hi] at h
        cases h
        obtain ⟨h1, -⟩ := insertRows_ok hi
        rw [lookup_cons, lookup_cons, if_neg, if_neg]
        · rw [hn]; exact Ne.symm hm
        · rw [h1, hn]; exact Ne.symm hm
    · cases hi : insertIn sx all n keys rows r with
      | error e => rw [hi] at h; cases h
      | ok r' =>
        rw [hi] at h
        cases h
        rw [lookup_cons, lookup_cons, ih hi]

theorem insert_other {n m : Str} {keys : List Str} {rows : List (List Sql)} {db db' : Database}
    (h : insert sx n keys rows db = .ok db') (hm : foldName m ≠ foldName n) : lookup m db' = lookup m db := insertIn_other h hm

theorem insertIn_same {all : Database} {n : Str} {keys : List Str} {rows : List (List Sql)} {db db' : Database} {t : DbTable}
    (h : insertIn sx all n keys rows db = .ok db') (ht : lookup n db = some t) :
    ∃ t', lookup n db' = some t' ∧ insertRows sx all keys rows t = .ok t' := by
  induction db generalizing db' with
  | nil => simp [lookup] at ht
  | cons t0 r ih =>
    unfold insertIn at h
    rw [lookup_cons] at ht
    split at h
    · rename_i hn
      rw [if_pos hn] at ht
      cases ht
      cases hi : insertRows sx all keys rows t with
      | error e => rw [hi] at h; cases h
      | ok t1 =>
        rw [hi] at h
        cases h
        obtain ⟨h1, -⟩ := insertRows_ok hi
        exact ⟨t1, by rw [lookup_cons, if_pos ((congrArg foldName h1).trans hn)], rfl⟩
    · rename_i hn
      rw [if_neg hn] at ht
      cases hi : insertIn sx all n keys rows r with
      | error e => rw [hi] at h; cases h
      | ok r' =>
        rw [hi] at h
        cases h
        obtain ⟨t', h1, h2⟩ := ih hi ht
        exact ⟨t', by rw [lookup_cons, if_neg hn]; exact h1, h2⟩

theorem insert_same {n : Str} {keys : List Str} {rows : List (List Sql)} {db db' : Database} {t : DbTable}
    (h : insert sx n keys rows db = .ok db') (ht : lookup n db = some t) :
    ∃ t', lookup n db' = some t' ∧ insertRows sx db keys rows t = .ok t' := insertIn_same h ht

theorem nodup_of_map {α β : Type} {f : α → β} {l : List α} (h : (l.map f).Nodup) : l.Nodup := by
  rw [List.Nodup, List.pairwise_map] at h
  exact h.imp fun hne he => hne (congrArg f he)

theorem createAll_ok {ts : List TableSpec} {db0 db : Database} (h : createAll tr db0 ts = .ok db)
    (hn : ((db0.map fun u => foldName u.name) ++ ts.map fun t => foldName (tr t.name none)).Nodup) :
    db = db0 ++ ts.map (emptyTable tr) ∧ ∀ t ∈ ts, (Dict.keys (sqlColumns tr t)).Nodup := by
  induction ts generalizing db0 with
  | nil => unfold createAll at h; cases h; simp
  | cons t r ih =>
    unfold createAll at h
    cases hc : create tr db0 t with
    | error e => rw [hc] at h; cases h
    | ok db1 =>
      rw [hc] at h
      simp only at h
      unfold create at hc
      simp only at hc
      have hnot : ¬ (db0.any fun u => foldName u.name = foldName (tr t.name none)) = true := by
        rw [List.any_eq_true]
        rintro ⟨u, hu, he⟩
        simp only [decide_eq_true_eq] at he
        rw [List.map_cons, List.nodup_append] at hn
        exact hn.2.2 (foldName u.name) (List.mem_map_of_mem (f := fun u : DbTable => foldName u.name) hu) (foldName (tr t.name none)) (List.mem_cons_self ..) he
      rw [if_neg hnot] at hc
      split at hc
      · cases hc
      split at hc
      · cases hc
      · rename_i hcols
        cases hc
        have hcols : (Dict.keys (sqlColumns tr t)).Nodup := by
          unfold badTable at hcols
          simp only [Bool.or_eq_true, not_or, Bool.not_eq_true', decide_eq_false_iff_not, Decidable.not_not] at hcols
          have := hcols.1.1.1.1.1.2
          unfold Dict.keys sqlColumns
          rw [List.map_map]
          refine nodup_of_map (f := foldName) ?_
          rw [List.map_map]
          exact this
        obtain ⟨h1, h2⟩ := ih h (by simpa using hn)
        refine ⟨?_, ?_⟩
        · rw [h1]
          simp [emptyTable, sqlColumns]
        · intro t' ht'
          rcases List.mem_cons.1 ht' with rfl | ht'
          · exact hcols
          · exact h2 t' ht'

theorem lookup_created {ts : List TableSpec} (hn : (ts.map fun t => foldName (tr t.name none)).Nodup) {t : TableSpec} (ht : t ∈ ts) :
    lookup (tr t.name none) (ts.map (emptyTable tr)) = some (emptyTable tr t) := by
  induction ts with
  | nil => simp at ht
  | cons t0 r ih =>
    rw [List.map_cons, lookup_cons]
    rw [List.map_cons, List.nodup_cons] at hn
    rcases List.mem_cons.1 ht with rfl | ht
    · exact if_pos rfl
    · rw [if_neg]
      · exact ih hn.2 ht
      · intro he
        apply hn.1
        show foldName (tr t0.name none) ∈ _
        rw [show foldName (tr t0.name none) = foldName (tr t.name none) from he]
        exact List.mem_map_of_mem (f := fun t : TableSpec => foldName (tr t.name none)) ht

end

section
variable {ext : Ext} {sx : SqlExt} {tr : Translator} {skip : Bool}

/-- The rows inserted for a table. -/
def inserted (sx : SqlExt) (tr : Translator) (t : TableSpec) (sts : List RowState) : List Row :=
  sts.map fun st => newRow sx (sqlColumns tr t) (((sts.head?.map RowState.keys).getD []).map fun k => tr t.name (some k)) st.values

theorem writeTables_other {items : List (Str × List RowDict)} {ts : List TableSpec} {db db' : Database} {refs refs' : Refs}
    (h : writeTables ext sx tr skip items db refs ts = .ok (db', refs')) {n : Str} (hn : ∀ t ∈ ts, foldName (tr t.name none) ≠ foldName n) :
    lookup n db' = lookup n db := by
  induction ts generalizing db refs with
  | nil => unfold writeTables at h; cases h; rfl
  | cons t r ih =>
    unfold writeTables at h
    have hr := fun t ht => hn t (List.mem_cons_of_mem _ ht)
    split at h
    · exact ih h hr
    · rename_i rows hg
      cases hw : writeTable ext sx tr skip t rows db with
      | error e => rw [hw] at h; cases h
      | ok p =>
        rw [hw] at h
        simp only at h
        rw [ih h hr]
        unfold writeTable at hw
        cases hl : rowLoop ext sx t skip rows with
        | error e => rw [hl] at hw; cases hw
        | ok sts =>
          rw [hl] at hw
          simp only at hw
          split at hw
          · cases hw
          · rename_i db1 hi
            cases hw
            exact insert_other hi (Ne.symm (hn t (List.mem_cons_self ..)))

/-- What is written into the table `t`. -/
theorem writeTables_same {items : List (Str × List RowDict)} {ts : List TableSpec} {db db' : Database} {refs refs' : Refs}
    (h : writeTables ext sx tr skip items db refs ts = .ok (db', refs')) (hn : (ts.map fun t => foldName (tr t.name none)).Nodup)
    {t : TableSpec} (ht : t ∈ ts) (hl : lookup (tr t.name none) db = some (emptyTable tr t)) {rows : List RowDict}
    (hg : Dict.get t.name items = some rows) :
    ∃ sts u, rowLoop ext sx t skip rows = .ok sts ∧ lookup (tr t.name none) db' = some u ∧ u.name = tr t.name none ∧
      u.columns = sqlColumns tr t ∧ u.rows = inserted sx tr t sts ∧
      ∀ st ∈ sts, let keys := (((sts.head?.map RowState.keys).getD []).map fun k => tr t.name (some k))
        st.values.length = keys.length ∧ keys ≠ [] ∧ keys.Nodup ∧ (∀ k ∈ keys, Dict.has k (sqlColumns tr t) = true) := by
  induction ts generalizing db refs with
  | nil => simp at ht
  | cons t0 r ih =>
    unfold writeTables at h
    rw [List.map_cons, List.nodup_cons] at hn
    rcases List.mem_cons.1 ht with rfl | htr
    · rw [hg] at h
      simp only at h
      cases hw : writeTable ext sx tr skip t rows db with
      | error e => rw [hw] at h; cases h
      | ok p =>
        rw [hw] at h
        simp only at h
        have hrest := writeTables_other h (n := tr t.name none) (by
          intro t' ht' he
          exact hn.1 (by rw [← he]; exact List.mem_map_of_mem ht'))
        unfold writeTable at hw
        cases hlp : rowLoop ext sx t skip rows with
        | error e => rw [hlp] at hw; cases hw
        | ok sts =>
          rw [hlp] at hw
          simp only at hw
          split at hw
          · cases hw
          · rename_i db1 hi
            cases hw
            obtain ⟨t', h1, h2⟩ := insert_same hi hl
            obtain ⟨b1, b2, b3, b4⟩ := insertRows_ok h2
            refine ⟨sts, t', rfl, hrest.trans h1, b1, b2, ?_, ?_⟩
            · rw [b3]
              simp only [emptyTable, List.nil_append, List.map_map]
              rfl
            · intro st hst
              have := b4 st.values (List.mem_map_of_mem hst)
              exact this
    · have hne : foldName (tr t.name none) ≠ foldName (tr t0.name none) := by
        intro he
        exact hn.1 (by rw [← he]; exact List.mem_map_of_mem (f := fun t : TableSpec => foldName (tr t.name none)) htr)
      split at h
      · exact ih h hn.2 htr hl
      · rename_i rows0 hg0
        cases hw : writeTable ext sx tr skip t0 rows0 db with
        | error e => rw [hw] at h; cases h
        | ok p =>
          rw [hw] at h
          simp only at h
          apply ih h hn.2 htr
          unfold writeTable at hw
          cases hlp : rowLoop ext sx t0 skip rows0 with
          | error e => rw [hlp] at hw; cases hw
          | ok sts =>
            rw [hlp] at hw
            simp only at hw
            split at hw
            · cases hw
            · rename_i db1 hi
              cases hw
              rw [← hl]
              exact insert_other hi hne

theorem writeRefs_other {refs : Refs} {db db' : Database} (h : writeRefs sx tr refs db = .ok db') {n : Str}
    (hn : ∀ p ∈ refs, foldName (tr p.1.name none) ≠ foldName n) : lookup n db' = lookup n db := by
  induction refs generalizing db with
  | nil => unfold writeRefs at h; cases h; rfl
  | cons p r ih =>
    obtain ⟨a, row⟩ := p
    unfold writeRefs at h
    split at h
    · cases h
    · split at h
      · cases h
      · rename_i db1 hi
        rw [ih h fun p hp => hn p (List.mem_cons_of_mem _ hp)]
        exact insert_other hi (Ne.symm (hn (a, row) (List.mem_cons_self ..)))

theorem itemLoop_refs {t : TableSpec} {pk : CVal} {st st' : RowState} {row : RowDict}
    (h : itemLoop ext sx t skip pk st row = .ok st') :
    ∀ p ∈ st'.refs, p ∈ st.refs ∨ ∃ k, (k, p.1) ∈ t.manyToMany := by
  induction row generalizing st with
  | nil => unfold itemLoop at h; cases h; exact fun p hp => .inl hp
  | cons kv r ih =>
    obtain ⟨k, v⟩ := kv
    unfold itemLoop at h
    cases hs : itemStep ext sx t skip pk st k v with
    | error e => rw [hs] at h; cases h
    | ok st1 =>
      rw [hs] at h
      simp only at h
      intro p hp
      rcases ih h p hp with hp | hp
      · unfold itemStep at hs
        split at hs
        · rename_i a ha
          split at hs
          · cases hs
          · split at hs
            · cases hs
            · cases hs
              simp only [List.mem_append, List.mem_map] at hp
              rcases hp with hp | ⟨i, -, rfl⟩
              · exact .inl hp
              · exact .inr ⟨k, Dict.get_mem ha⟩
        · split at hs
          · split at hs <;> cases hs
            exact .inl hp
          · split at hs <;> cases hs
            exact .inl hp
      · exact .inr hp

theorem rowLoop_refs {t : TableSpec} {rows : List RowDict} {sts : List RowState} (h : rowLoop ext sx t skip rows = .ok sts) :
    ∀ st ∈ sts, ∀ p ∈ st.refs, ∃ k, (k, p.1) ∈ t.manyToMany := by
  induction rows generalizing sts with
  | nil => unfold rowLoop at h; cases h; simp
  | cons row r ih =>
    unfold rowLoop at h
    cases hs : rowStep ext sx t skip row with
    | error e => rw [hs] at h; cases h
    | ok st0 =>
      rw [hs] at h
      simp only at h
      cases hr : rowLoop ext sx t skip r with
      | error e => rw [hr] at h; cases h
      | ok sts0 =>
        rw [hr] at h
        cases h
        intro st hst p hp
        rcases List.mem_cons.1 hst with rfl | hst
        · unfold rowStep at hs
          split at hs
          · cases hs
          · rcases itemLoop_refs hs p hp with hp | hp
            · simp at hp
            · exact hp
        · exact ih hr st hst p hp

theorem writeTables_refs {items : List (Str × List RowDict)} {ts : List TableSpec} {db db' : Database} {refs refs' : Refs}
    (h : writeTables ext sx tr skip items db refs ts = .ok (db', refs')) :
    ∀ p ∈ refs', p ∈ refs ∨ ∃ t ∈ ts, ∃ k, (k, p.1) ∈ t.manyToMany := by
  induction ts generalizing db refs with
  | nil => unfold writeTables at h; cases h; exact fun p hp => .inl hp
  | cons t r ih =>
    unfold writeTables at h
    have lift : (∀ p ∈ refs', p ∈ refs ∨ ∃ t ∈ r, ∃ k, (k, p.1) ∈ t.manyToMany) →
        ∀ p ∈ refs', p ∈ refs ∨ ∃ t' ∈ t :: r, ∃ k, (k, p.1) ∈ t'.manyToMany := by
      intro hh p hp
      rcases hh p hp with h | ⟨t', ht', h⟩
      · exact .inl h
      · exact .inr ⟨t', List.mem_cons_of_mem _ ht', h⟩
    split at h
    · exact lift (ih h)
    · rename_i rows hg
      cases hw : writeTable ext sx tr skip t rows db with
      | error e => rw [hw] at h; cases h
      | ok p =>
        rw [hw] at h
        simp only at h
        unfold writeTable at hw
        cases hlp : rowLoop ext sx t skip rows with
        | error e => rw [hlp] at hw; cases hw
        | ok sts =>
          rw [hlp] at hw
          simp only at hw
          split at hw
          · cases hw
          · cases hw
            intro q hq
            rcases ih h q hq with hq | ⟨t', ht', hq⟩
            · rcases List.mem_append.1 hq with hq | hq
              · exact .inl hq
              · obtain ⟨st, hst, hq⟩ := List.mem_flatMap.1 hq
                exact .inr ⟨t, List.mem_cons_self .., rowLoop_refs hlp st hst q hq⟩
            · exact .inr ⟨t', List.mem_cons_of_mem _ ht', hq⟩

/-- The content of the table `t` after `write`. -/
theorem write_table {tables : List TableSpec} {items : List (Str × List RowDict)} {db : Database}
    (h : write ext sx tr skip tables items = .ok db) (hn : (tables.map fun t => foldName (tr t.name none)).Nodup)
    {t : TableSpec} (ht : t ∈ tables) (ha : ∀ t' ∈ tables, ∀ p ∈ t'.manyToMany, foldName (tr p.2.name none) ≠ foldName (tr t.name none))
    {rows : List RowDict} (hg : Dict.get t.name items = some rows) :
    ∃ sts u, rowLoop ext sx t skip rows = .ok sts ∧ lookup (tr t.name none) db = some u ∧ u.name = tr t.name none ∧
      u.columns = sqlColumns tr t ∧ u.rows = inserted sx tr t sts ∧ (Dict.keys (sqlColumns tr t)).Nodup ∧
      ∀ st ∈ sts, let keys := (((sts.head?.map RowState.keys).getD []).map fun k => tr t.name (some k))
        st.values.length = keys.length ∧ keys ≠ [] ∧ keys.Nodup ∧ (∀ k ∈ keys, Dict.has k (sqlColumns tr t) = true) := by
  unfold write at h
  cases hc : createAll tr [] tables with
  | error e => rw [hc] at h; cases h
  | ok db0 =>
    rw [hc] at h
    simp only at h
    obtain ⟨h1, h2⟩ := createAll_ok hc (by simpa using hn)
    simp only [List.nil_append] at h1
    subst h1
    cases hw : writeTables ext sx tr skip items (tables.map (emptyTable tr)) [] tables with
    | error e => rw [hw] at h; cases h
    | ok p =>
      obtain ⟨db1, refs⟩ := p
      rw [hw] at h
      simp only at h
      obtain ⟨sts, u, a1, a2, a3, a4, a5, a6⟩ := writeTables_same hw hn ht (lookup_created hn ht) hg
      refine ⟨sts, u, a1, ?_, a3, a4, a5, h2 t ht, a6⟩
      rw [← a2]
      apply writeRefs_other h
      intro p hp
      rcases writeTables_refs hw p hp with hp | ⟨t', ht', k, hk⟩
      · simp at hp
      · exact ha t' ht' _ hk

end
end Csvw.Db
