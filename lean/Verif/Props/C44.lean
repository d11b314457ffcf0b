import Verif.Props.C45
/-!
# C44: which table groups have a database schema, in terms of the metadata
-/

namespace Csvw.Props
open Csvw.Spec Csvw.Db Csvw.TableGroup

/-! ## Specification -/

/-- The name of the association table for a list-valued foreign key of table `t`, which references `r`. -/
def assocName (t : Table) (r : Str) : Str := t.url ++ '_' :: r

/-- The foreign keys of the tables are such that SQL tables can be made from them: they reference tables of the group, and list-valued
ones relate tables with primary keys of one column. -/
structure Expressible (g : TableGroup) : Prop where
  table : ∀ t fk, TableNamed g t.url t → fk ∈ t.schema.foreignKeys → fk.schemaReference = none →
    ∃ r u, fk.resource = some r ∧ TableNamed g r u
  list : ∀ t fk, TableNamed g t.url t → fk ∈ t.schema.foreignKeys → fk.schemaReference = none → ListValuedKey t fk →
    (∃ pk, t.schema.primaryKey = some [pk]) ∧ ∃ rc, fk.refColumns = [rc]
  separator : ∀ t c, TableNamed g t.url t → c ∈ t.ccols → ∃ s, c.separator = .ok s

/-- There are no cycles: there is an order such that tables referenced by other tables come first. -/
def NoCycles (g : TableGroup) (drop : Bool) : Prop :=
  ∃ rank : Str → Nat, ∀ t fk r, TableNamed g t.url t → fk ∈ t.schema.foreignKeys → PlainKey t drop fk → fk.resource = some r →
    r ≠ t.url → rank r < rank t.url

/-- `names` contains the names of the tables and association tables. -/
def CoversNames (g : TableGroup) (names : List Str) : Prop :=
  (∀ t ∈ g.tables, t.url ∈ names) ∧
  ∀ t fk r, t ∈ g.tables → fk ∈ t.schema.foreignKeys → fk.schemaReference = none → ListValuedKey t fk → fk.resource = some r →
    assocName t r ∈ names

/-- The name of an association table is not the name of a table. -/
def FreshNames (g : TableGroup) : Prop :=
  ∀ t fk r, t ∈ g.tables → fk ∈ t.schema.foreignKeys → fk.schemaReference = none → ListValuedKey t fk → fk.resource = some r →
    ∀ u ∈ g.tables, u.url ≠ assocName t r

/-! ## Proof -/

section
variable {g : TableGroup} {drop : Bool}

theorem addForeignKey_ok {t : Table} {s : TableSpec} {fk : ForeignKey}
    (h1 : fk.schemaReference = none → ∃ r, fk.resource = some r)
    (h2 : fk.schemaReference = none → ListValuedKey t fk → (∃ pk, s.primaryKey = some [pk]) ∧ ∃ rc, fk.refColumns = [rc]) :
    ∃ s', addForeignKey t drop s fk = .ok s' := by
  unfold addForeignKey
  split
  · exact ⟨s, rfl⟩
  · rename_i hsr
    simp only [ne_eq, Decidable.not_not] at hsr
    obtain ⟨r, hr⟩ := h1 hsr
    simp only
    split
    · rename_i c hb
      have hlv : ListValuedKey t fk := by
        apply listValuedKey_iff.2
        split at hb
        · rename_i c' he
          split at hb
          · rename_i hm
            exact ⟨c', he, hm⟩
          · cases hb
        · cases hb
      obtain ⟨⟨pk, hpk⟩, rc, hrc⟩ := h2 hsr hlv
      rw [hpk, hrc, hr]
      exact ⟨_, rfl⟩
    · rw [hr]
      simp only
      split
      · exact ⟨_, rfl⟩
      · exact ⟨_, rfl⟩

theorem addForeignKeys_ok {t : Table} {fks : List ForeignKey} {s : TableSpec}
    (h1 : ∀ fk ∈ fks, fk.schemaReference = none → ∃ r, fk.resource = some r)
    (h2 : ∀ fk ∈ fks, fk.schemaReference = none → ListValuedKey t fk →
      (∃ pk, s.primaryKey = some [pk]) ∧ ∃ rc, fk.refColumns = [rc]) :
    ∃ s', addForeignKeys t drop s fks = .ok s' := by
  induction fks generalizing s with
  | nil => exact ⟨s, rfl⟩
  | cons fk r ih =>
    obtain ⟨s1, hs1⟩ := addForeignKey_ok (drop := drop) (s := s) (h1 fk (List.mem_cons_self ..)) (h2 fk (List.mem_cons_self ..))
    unfold addForeignKeys
    rw [hs1]
    simp only
    apply ih
    · exact fun fk hm => h1 fk (List.mem_cons_of_mem _ hm)
    · rw [(addForeignKey_name hs1).2.2]
      exact fun fk hm => h2 fk (List.mem_cons_of_mem _ hm)

theorem addColumns_ok {cs : List CCol} {s : TableSpec} (h : ∀ c ∈ cs, ∃ sep, c.separator = .ok sep) :
    ∃ s', addColumns s cs = .ok s' := by
  induction cs generalizing s with
  | nil => exact ⟨s, rfl⟩
  | cons c r ih =>
    have ih' := fun s => ih (s := s) fun c hm => h c (List.mem_cons_of_mem _ hm)
    unfold addColumns
    split
    · exact ih' s
    · obtain ⟨sep, hsep⟩ := h c (List.mem_cons_self ..)
      unfold colSpec
      rw [hsep]
      exact ih' _

theorem fromTable_ok (h : Expressible g) {t : Table} (ht : TableNamed g t.url t) : ∃ s, fromTable t drop = .ok s := by
  obtain ⟨s1, hs1⟩ := addForeignKeys_ok (drop := drop) (t := t) (fks := t.schema.foreignKeys)
    (s := { name := t.url, primaryKey := t.schema.primaryKey })
    (fun fk hm hsr => by obtain ⟨r, _, hr, _⟩ := h.table t fk ht hm hsr; exact ⟨r, hr⟩)
    (fun fk hm hsr hl => h.list t fk ht hm hsr hl)
  unfold fromTable
  rw [hs1]
  exact addColumns_ok fun c hc => h.separator t c ht hc

theorem mem_dict_set {α β : Type} [DecidableEq α] {k : α} {v : β} {d : List (α × β)} {p : α × β} (h : p ∈ Dict.set k v d) :
    p ∈ d ∨ p = (k, v) := by
  induction d with
  | nil =>
    simp only [Dict.set, List.mem_singleton] at h
    exact .inr h
  | cons q r ih =>
    unfold Dict.set at h
    split at h
    · rename_i he
      rcases List.mem_cons.1 h with h | h
      · right
        rw [h]
        try rw [he]
      · exact .inl (List.mem_cons_of_mem _ h)
    · rcases List.mem_cons.1 h with h | h
      · exact .inl (h ▸ List.mem_cons_self ..)
      · rcases ih h with h | h
        · exact .inl (List.mem_cons_of_mem _ h)
        · exact .inr h

theorem addForeignKeys_many_mem {t : Table} {fks : List ForeignKey} {s s' : TableSpec} (hn : s.name = t.url)
    (h : addForeignKeys t drop s fks = .ok s') :
    ∀ p ∈ s'.manyToMany, p ∈ s.manyToMany ∨ ∃ fk ∈ fks, ∃ pk r rc, fk.schemaReference = none ∧ ListValuedKey t fk ∧
      fk.resource = some r ∧ p.2 = associationTable t.url pk r rc := by
  induction fks generalizing s with
  | nil =>
    unfold addForeignKeys at h
    cases h
    exact fun p hp => .inl hp
  | cons fk rest ih =>
    unfold addForeignKeys at h
    cases hf : addForeignKey t drop s fk with
    | error e => rw [hf] at h; simp at h
    | ok s1 =>
      rw [hf] at h
      simp only at h
      have hn1 := (addForeignKey_name hf).1.trans hn
      intro p hp
      rcases ih hn1 h p hp with hp | ⟨fk', hm, h'⟩
      · rcases addForeignKey_cases hn hf with ⟨-, r', hr, hmm, he⟩ | ⟨-, hor, rfl⟩ | ⟨-, hsr, c', pk, rc', r', hlv, hc', hpk, hrc, hr, he, hmm⟩
        · rw [hmm] at hp; exact .inl hp
        · exact .inl hp
        · rw [hmm] at hp
          rcases mem_dict_set hp with hp | rfl
          · exact .inl hp
          · exact .inr ⟨fk, List.mem_cons_self .., pk, r', rc', hsr, hlv, hr, rfl⟩
      · exact .inr ⟨fk', List.mem_cons_of_mem _ hm, h'⟩

theorem fromTable_many_mem {t : Table} {s : TableSpec} (h : fromTable t drop = .ok s) {p : Str × AssocSpec} (hp : p ∈ s.manyToMany) :
    ∃ fk ∈ t.schema.foreignKeys, ∃ pk r rc, fk.schemaReference = none ∧ ListValuedKey t fk ∧
      fk.resource = some r ∧ p.2 = associationTable t.url pk r rc := by
  unfold fromTable at h
  cases hf : addForeignKeys t drop { name := t.url, primaryKey := t.schema.primaryKey } t.schema.foreignKeys with
  | error e => rw [hf] at h; simp at h
  | ok s1 =>
    rw [hf] at h
    simp only at h
    rw [(addColumns_same h).2.2.1] at hp
    rcases addForeignKeys_many_mem rfl hf p hp with hp | h
    · simp at hp
    · exact h

theorem mem_plainKeys {t : Table} {fks plain : List ForeignKey} (h1 : PlainKeys t drop fks plain) {fk : ForeignKey}
    (hfk : fk ∈ plain) : fk ∈ fks ∧ PlainKey t drop fk := by
  induction h1 with
  | nil => simp at hfk
  | take h r ih =>
    rcases List.mem_cons.1 hfk with rfl | hfk
    · exact ⟨List.mem_cons_self .., h⟩
    · exact ⟨List.mem_cons_of_mem _ (ih hfk).1, (ih hfk).2⟩
  | skip h r ih => exact ⟨List.mem_cons_of_mem _ (ih hfk).1, (ih hfk).2⟩

/-- A bound for the values of a function on a list. -/
theorem exists_bound (f : Str → Nat) (l : List Str) : ∃ b, ∀ x ∈ l, f x < b := by
  induction l with
  | nil => exact ⟨0, by simp⟩
  | cons a r ih =>
    obtain ⟨b, hb⟩ := ih
    refine ⟨b + f a + 1, ?_⟩
    intro x hx
    rcases List.mem_cons.1 hx with rfl | hx
    · omega
    · have := hb x hx
      omega

theorem acyclic_of_noCycles (he : Expressible g) (hc : NoCycles g drop) (hf : FreshNames g) : Acyclic (IsSqlTable g drop) := by
  obtain ⟨rank, hrank⟩ := hc
  obtain ⟨b, hb⟩ := exists_bound rank (g.tables.map Table.url)
  refine ⟨fun n => if n ∈ g.tables.map Table.url then rank n else b, ?_⟩
  intro s hs fk hfk
  have hmem : ∀ {n : Str} {u : Table}, TableNamed g n u → n ∈ g.tables.map Table.url := by
    intro n u hu
    obtain ⟨h1, h2⟩ := tableNamed_mem hu
    rw [← h2]
    exact List.mem_map_of_mem h1
  have hex : ∀ {n : Str} {u : Table}, TableNamed g n u → ∃ s, IsSqlTable g drop s ∧ s.name = n := by
    intro n u hu
    have hun := (tableNamed_mem hu).2
    subst hun
    obtain ⟨s, hs⟩ := fromTable_ok (drop := drop) he hu
    exact ⟨s, .table hu hs, fromTable_name hs⟩
  cases hs with
  | @table t _ ht hs =>
    obtain ⟨plain, h1, h2⟩ := C45_iff hs
    obtain ⟨fk', hm, hr, -⟩ := all2_mem_right h2 hfk
    obtain ⟨hm, hp⟩ := mem_plainKeys h1 hm
    rw [fromTable_name hs]
    by_cases heq : fk.2.1 = t.url
    · exact .inl heq
    · right
      obtain ⟨r, u, hr', hu⟩ := he.table t fk' ht hm hp.1
      rw [hr] at hr'
      cases hr'
      obtain ⟨s', hs', hn'⟩ := hex hu
      refine ⟨s', hs', hn', ?_⟩
      simp only
      rw [hn', if_pos (hmem hu), if_pos (hmem ht)]
      exact hrank t fk' _ ht hm hp hr heq
  | @assoc t s0 ht hs c a ha =>
    obtain ⟨fk', hm, pk, r, rc, hsr, hl, hr, h'⟩ := fromTable_many_mem hs ha
    simp only at h'
    subst h'
    obtain ⟨r', u, hr', hu⟩ := he.table t fk' ht hm hsr
    rw [hr] at hr'
    cases hr'
    have hnot : (associationTable t.url pk r rc).toSpec.name ∉ g.tables.map Table.url := by
      intro hmm
      obtain ⟨w, hw, hwn⟩ := List.mem_map.1 hmm
      exact hf t fk' r (tableNamed_mem ht).1 hm hsr hl hr w hw hwn
    have key : ∀ {n : Str} {u : Table}, TableNamed g n u → ∃ s, IsSqlTable g drop s ∧ s.name = n ∧
        (if s.name ∈ g.tables.map Table.url then rank s.name else b) <
        (if (associationTable t.url pk r rc).toSpec.name ∈ g.tables.map Table.url
          then rank (associationTable t.url pk r rc).toSpec.name else b) := by
      intro n u hu
      obtain ⟨s', hs', hn'⟩ := hex hu
      refine ⟨s', hs', hn', ?_⟩
      rw [if_neg hnot, hn', if_pos (hmem hu)]
      exact hb _ (hmem hu)
    simp only [AssocSpec.toSpec, List.mem_cons, List.not_mem_nil, or_false] at hfk
    rcases hfk with rfl | rfl
    · exact .inr (key ht)
    · exact .inr (key hu)

/-- **C44** A group which can be expressed in SQL, without cycles and with at most 100 tables (including association tables), has a
database schema. -/
theorem C44_accepted (he : Expressible g) (hc : NoCycles g drop) (hf : FreshNames g) {names : List Str} (hn : CoversNames g names)
    (hlen : names.length ≤ 100) : ∃ specs, schema g drop = .ok specs := by
  apply C44_acyclic_accepted (fun t ht => fromTable_ok he ht) (acyclic_of_noCycles he hc hf)
  intro l hl hm
  refine Nat.le_trans (List.Nodup.length_le_of_subset hl ?_) hlen
  intro n hnl
  obtain ⟨s, hs, rfl⟩ := hm n hnl
  cases hs with
  | @table t _ ht hs =>
    rw [fromTable_name hs]
    exact hn.1 t (tableNamed_mem ht).1
  | @assoc t s0 ht hs c a ha =>
    obtain ⟨fk', hm, pk, r, rc, hsr, hl, hr, h'⟩ := fromTable_many_mem hs ha
    simp only at h'
    subst h'
    exact hn.2 t fk' r (tableNamed_mem ht).1 hm hsr hl hr

/-- **C44** Conversely: a group with a database schema can be expressed in SQL and has no cycles. -/
theorem C44_rejected {specs : List TableSpec} (h : schema g drop = .ok specs)
    (hdist : ∀ s s', IsSqlTable g drop s → IsSqlTable g drop s' → s.name = s'.name → s = s') : NoCycles g drop := by
  have hn := (C43_tables h).1
  refine ⟨fun n => (specs.map TableSpec.name).idxOf n, ?_⟩
  intro t fk r ht hfk hp hr hne
  obtain ⟨r', pre, s, post, hr', he, hsn, hor⟩ := C43_references h hdist ht hfk hp
  rw [hr] at hr'
  cases hr'
  rcases hor with h | ⟨u, hu, rfl⟩
  · exact absurd h hne
  · have hsn' : s.name ∉ pre.map TableSpec.name := by
      rw [he, List.map_append, List.nodup_append] at hn
      intro hm
      exact hn.2.2 _ hm s.name (by simp) rfl
    show List.idxOf u.name (specs.map TableSpec.name) < List.idxOf t.url (specs.map TableSpec.name)
    rw [he, List.map_append, List.map_cons, ← hsn]
    rw [List.idxOf_append, List.idxOf_append, if_pos (List.mem_map_of_mem hu), if_neg hsn']
    have : List.idxOf u.name (pre.map TableSpec.name) < (pre.map TableSpec.name).length :=
      List.idxOf_lt_length_of_mem (List.mem_map_of_mem hu)
    omega

end

/-! ## Example -/

theorem twoTables_named {n : Str} {t : Table} (h : TableNamed twoTables n t) :
    t = twoTables.tables[0] ∨ t = twoTables.tables[1] := by
  have := (tableNamed_mem h).1
  simp only [twoTables, List.mem_cons, List.not_mem_nil, or_false] at this
  exact this

theorem twoTables_b : TableNamed twoTables "b".toList twoTables.tables[1] :=
  ⟨[twoTables.tables[0]], [], rfl, rfl, by simp⟩

/-- The hypotheses of `C44_accepted` hold for the group `twoTables`. -/
theorem C44_example : Expressible twoTables ∧ NoCycles twoTables true ∧ FreshNames twoTables ∧
    CoversNames twoTables ["a".toList, "b".toList, "a_b".toList] := by
  have hfk : ∀ t fk, t ∈ twoTables.tables → fk ∈ t.schema.foreignKeys → t.url = "a".toList ∧ fk.resource = some "b".toList ∧
      (∃ pk, t.schema.primaryKey = some [pk]) ∧ ∃ rc, fk.refColumns = [rc] := by
    intro t fk ht hm
    simp only [twoTables, List.mem_cons, List.not_mem_nil, or_false] at ht
    rcases ht with rfl | rfl
    · simp only [List.mem_cons, List.not_mem_nil, or_false] at hm
      rcases hm with rfl | rfl
      · exact ⟨rfl, rfl, ⟨_, rfl⟩, _, rfl⟩
      · exact ⟨rfl, rfl, ⟨_, rfl⟩, _, rfl⟩
    · simp at hm
  refine ⟨⟨?_, ?_, ?_⟩, ?_, ?_, ?_, ?_⟩
  · intro t fk ht hm _
    exact ⟨_, _, (hfk t fk (tableNamed_mem ht).1 hm).2.1, twoTables_b⟩
  · intro t fk ht hm _ _
    exact (hfk t fk (tableNamed_mem ht).1 hm).2.2
  · intro t c ht hc
    rcases twoTables_named ht with rfl | rfl
    · simp only [Table.ccols, twoTables, List.getElem_cons_zero, List.map_cons, List.map_nil, List.mem_cons, List.not_mem_nil, or_false] at hc
      rcases hc with rfl | rfl | rfl <;> exact ⟨_, rfl⟩
    · simp only [Table.ccols, twoTables, List.getElem_cons_zero, List.getElem_cons_succ, List.map_cons, List.map_nil, List.mem_cons, List.not_mem_nil, or_false] at hc
      rcases hc with rfl
      exact ⟨_, rfl⟩
  · refine ⟨fun n => n.length + (if n = "a".toList then 1 else 0), ?_⟩
    intro t fk r ht hm _ hr _
    obtain ⟨h1, h2, -⟩ := hfk t fk (tableNamed_mem ht).1 hm
    rw [hr] at h2
    cases h2
    rw [h1]
    decide
  · intro t fk r ht hm _ _ hr u hu
    obtain ⟨h1, h2, -⟩ := hfk t fk ht hm
    rw [hr] at h2
    cases h2
    unfold assocName
    rw [h1]
    simp only [twoTables, List.mem_cons, List.not_mem_nil, or_false] at hu
    rcases hu with rfl | rfl <;> decide
  · intro u hu
    simp only [twoTables, List.mem_cons, List.not_mem_nil, or_false] at hu
    rcases hu with rfl | rfl <;> decide
  · intro t fk r ht hm _ _ hr
    obtain ⟨h1, h2, -⟩ := hfk t fk ht hm
    rw [hr] at h2
    cases h2
    unfold assocName
    rw [h1]
    decide

end Csvw.Props
