import Verif.Props.C41
import Verif.Model.Db
/-!
# C43–C45: the schema of the database
-/

namespace Csvw.Props
open Csvw.Spec Csvw.Db

/-! ## Specification -/

/-- The tables of the database: those of the group, and the association tables for their list-valued foreign keys. -/
inductive IsSqlTable (g : TableGroup) (drop : Bool) : TableSpec → Prop where
  | table {t : Table} {s : TableSpec} (ht : TableNamed g t.url t) (hs : fromTable t drop = .ok s) : IsSqlTable g drop s
  | assoc {t : Table} {s : TableSpec} (ht : TableNamed g t.url t) (hs : fromTable t drop = .ok s) {c : Str} {a : AssocSpec}
      (ha : (c, a) ∈ s.manyToMany) : IsSqlTable g drop a.toSpec

/-- There is an order: every table which is referenced (by another one) exists and precedes the referencing table. -/
def Acyclic (tables : TableSpec → Prop) : Prop :=
  ∃ rank : Str → Nat, ∀ s, tables s → ∀ fk ∈ s.foreignKeys, fk.2.1 = s.name ∨
    ∃ u, tables u ∧ u.name = fk.2.1 ∧ rank u.name < rank s.name

/-! ## Proof -/

section
variable {g : TableGroup} {drop : Bool}

theorem addForeignKey_name {t : Table} {s s' : TableSpec} {fk : ForeignKey} (h : addForeignKey t drop s fk = .ok s') :
    s'.name = s.name ∧ s'.columns = s.columns ∧ s'.primaryKey = s.primaryKey := by
  unfold addForeignKey at h
  split at h
  · cases h; exact ⟨rfl, rfl, rfl⟩
  · simp only at h
    split at h
    · split at h
      · split at h
        · simp at h
        · cases h; exact ⟨rfl, rfl, rfl⟩
      · simp at h
    · split at h
      · simp at h
      · split at h
        · cases h; exact ⟨rfl, rfl, rfl⟩
        · cases h; exact ⟨rfl, rfl, rfl⟩

theorem addForeignKeys_name {t : Table} {s s' : TableSpec} {fks : List ForeignKey} (h : addForeignKeys t drop s fks = .ok s') :
    s'.name = s.name ∧ s'.columns = s.columns ∧ s'.primaryKey = s.primaryKey := by
  induction fks generalizing s with
  | nil => unfold addForeignKeys at h; cases h; exact ⟨rfl, rfl, rfl⟩
  | cons fk r ih =>
    unfold addForeignKeys at h
    cases hf : addForeignKey t drop s fk with
    | error e => rw [hf] at h; simp at h
    | ok s1 =>
      rw [hf] at h
      obtain ⟨a1, a2, a3⟩ := addForeignKey_name hf
      obtain ⟨b1, b2, b3⟩ := ih h
      exact ⟨b1.trans a1, b2.trans a2, b3.trans a3⟩

theorem addColumns_same {s s' : TableSpec} {cs : List CCol} (h : addColumns s cs = .ok s') :
    s'.name = s.name ∧ s'.foreignKeys = s.foreignKeys ∧ s'.manyToMany = s.manyToMany ∧ s'.primaryKey = s.primaryKey := by
  induction cs generalizing s with
  | nil => unfold addColumns at h; cases h; exact ⟨rfl, rfl, rfl, rfl⟩
  | cons c r ih =>
    unfold addColumns at h
    split at h
    · exact ih h
    · cases hc : colSpec c with
      | error e => rw [hc] at h; simp at h
      | ok cs => rw [hc] at h; simp only at h; have := ih h; exact this

theorem fromTable_name {t : Table} {s : TableSpec} (h : fromTable t drop = .ok s) : s.name = t.url := by
  unfold fromTable at h
  cases hf : addForeignKeys t drop { name := t.url, primaryKey := t.schema.primaryKey } t.schema.foreignKeys with
  | error e => rw [hf] at h; simp at h
  | ok s1 => rw [hf] at h; exact (addColumns_same h).1.trans (addForeignKeys_name hf).1

/-- The invariant of the dict of tables: keys are names, and all are tables of the database. -/
def GoodDict (P : TableSpec → Prop) (d : List (Str × TableSpec)) : Prop :=
  (Dict.keys d).Nodup ∧ ∀ p ∈ d, p.2.name = p.1 ∧ P p.2

theorem mem_set {α : Type} {k : Str} {v : α} {d : List (Str × α)} {p : Str × α} (h : p ∈ Dict.set k v d) : p = (k, v) ∨ p ∈ d := by
  induction d with
  | nil => simp [Dict.set] at h; exact .inl h
  | cons q r ih =>
    obtain ⟨k', v'⟩ := q
    unfold Dict.set at h
    split at h
    · rename_i hk
      rcases List.mem_cons.1 h with rfl | h
      · left; rw [hk]
      · exact .inr (List.mem_cons_of_mem _ h)
    · rcases List.mem_cons.1 h with rfl | h
      · exact .inr (List.mem_cons_self ..)
      · rcases ih h with h | h
        · exact .inl h
        · exact .inr (List.mem_cons_of_mem _ h)

theorem good_set {P : TableSpec → Prop} {d : List (Str × TableSpec)} (hd : GoodDict P d) {s : TableSpec} (hs : P s) :
    GoodDict P (Dict.set s.name s d) := by
  refine ⟨Dict.nodup_keys_set hd.1, ?_⟩
  intro p hp
  rcases mem_set hp with rfl | hp
  · exact ⟨rfl, hs⟩
  · exact hd.2 p hp

theorem good_update {P : TableSpec → Prop} {ps : List (Str × AssocSpec)} {d : List (Str × TableSpec)} (hd : GoodDict P d)
    (hs : ∀ p ∈ ps, P p.2.toSpec) : GoodDict P (Dict.update d (ps.map fun p => (p.2.name, p.2.toSpec))) := by
  induction ps generalizing d with
  | nil => exact hd
  | cons p r ih =>
    have : Dict.update d ((p :: r).map fun p => (p.2.name, p.2.toSpec)) =
      Dict.update (Dict.set p.2.toSpec.name p.2.toSpec d) (r.map fun p => (p.2.name, p.2.toSpec)) := rfl
    rw [this]
    exact ih (good_set hd (hs p (List.mem_cons_self ..))) fun q hq => hs q (List.mem_cons_of_mem _ hq)

theorem collectTables_spec {P : TableSpec → Prop} {ts : List Table} {d d' : List (Str × TableSpec)}
    (h : collectTables drop d ts = .ok d') (hd : GoodDict P d)
    (hP : ∀ t ∈ ts, ∀ s, fromTable t drop = .ok s → P s ∧ ∀ p ∈ s.manyToMany, P p.2.toSpec) :
    GoodDict P d' ∧ (∀ k, k ∈ Dict.keys d' ↔ k ∈ Dict.keys d ∨
      ∃ t ∈ ts, ∃ s, fromTable t drop = .ok s ∧ (k = s.name ∨ ∃ p ∈ s.manyToMany, k = p.2.name)) ∧
    ∀ t ∈ ts, ∃ s, fromTable t drop = .ok s := by
  induction ts generalizing d with
  | nil =>
    unfold collectTables at h
    cases h
    exact ⟨hd, fun k => by simp, fun t ht => by simp at ht⟩
  | cons t r ih =>
    unfold collectTables at h
    cases hs : fromTable t drop with
    | error e => rw [hs] at h; simp at h
    | ok s =>
      rw [hs] at h
      simp only at h
      obtain ⟨p1, p2⟩ := hP t (List.mem_cons_self ..) s hs
      obtain ⟨i1, i2, i3⟩ := ih h (good_update (good_set hd p1) p2) fun t ht => hP t (List.mem_cons_of_mem _ ht)
      refine ⟨i1, ?_, ?_⟩
      · intro k
        rw [i2, Dict.mem_keys_update, Dict.mem_keys_set]
        constructor
        · rintro (((rfl | h) | h) | ⟨t', ht', s', hs', h⟩)
          · exact .inr ⟨t, List.mem_cons_self .., s, hs, .inl rfl⟩
          · exact .inl h
          · simp only [Dict.keys, List.map_map, List.mem_map, Function.comp_apply] at h
            obtain ⟨p, hp, rfl⟩ := h
            exact .inr ⟨t, List.mem_cons_self .., s, hs, .inr ⟨p, hp, rfl⟩⟩
          · exact .inr ⟨t', List.mem_cons_of_mem _ ht', s', hs', h⟩
        · rintro (h | ⟨t', ht', s', hs', h⟩)
          · exact .inl (.inl (.inr h))
          · rcases List.mem_cons.1 ht' with rfl | ht'
            · rw [hs] at hs'
              cases hs'
              rcases h with rfl | ⟨p, hp, rfl⟩
              · exact .inl (.inl (.inl rfl))
              · refine .inl (.inr ?_)
                simp only [Dict.keys, List.map_map, List.mem_map, Function.comp_apply]
                exact ⟨p, hp, rfl⟩
            · exact .inr ⟨t', ht', s', hs', h⟩
      · intro t' ht'
        rcases List.mem_cons.1 ht' with rfl | ht'
        · exact ⟨s, hs⟩
        · exact i3 t' ht'

theorem collectTables_ok {ts : List Table} {d : List (Str × TableSpec)} (h : ∀ t ∈ ts, ∃ s, fromTable t drop = .ok s) :
    ∃ d', collectTables drop d ts = .ok d' := by
  induction ts generalizing d with
  | nil => exact ⟨d, rfl⟩
  | cons t r ih =>
    obtain ⟨s, hs⟩ := h t (List.mem_cons_self ..)
    unfold collectTables
    rw [hs]
    exact ih fun t ht => h t (List.mem_cons_of_mem _ ht)

theorem mem_values_tabledict {t : Table} : t ∈ Dict.values g.tabledict ↔ TableNamed g t.url t := by
  unfold Dict.values
  rw [List.mem_map]
  have hn : (Dict.keys g.tabledict).Nodup := Dict.nodup_keys_ofPairs _
  constructor
  · rintro ⟨p, hp, rfl⟩
    have := Dict.get_of_mem_nodup hn (k := p.1) (v := p.2) hp
    have h := ((tabledict_iff g p.1).1 p.2).1 this
    rw [← (tableNamed_mem h).2] at h
    exact h
  · intro h
    exact ⟨(t.url, t), Dict.get_mem (((tabledict_iff g t.url).1 t).2 h), rfl⟩

/-- The dict of tables holds the tables of the database. -/
theorem collect_spec {d : List (Str × TableSpec)} (h : collectTables drop [] (Dict.values g.tabledict) = .ok d) :
    GoodDict (IsSqlTable g drop) d ∧ (∀ s, IsSqlTable g drop s → s.name ∈ Dict.keys d) ∧
    ∀ t, TableNamed g t.url t → ∃ s, fromTable t drop = .ok s := by
  obtain ⟨h1, h2, h3⟩ := collectTables_spec (P := IsSqlTable g drop) h ⟨List.nodup_nil, fun _ h => by simp at h⟩ (by
    intro t ht s hs
    exact ⟨.table (mem_values_tabledict.1 ht) hs, fun p hp => .assoc (mem_values_tabledict.1 ht) hs hp⟩)
  refine ⟨h1, ?_, fun t ht => h3 t (mem_values_tabledict.2 ht)⟩
  intro s hs
  rw [h2]
  cases hs with
  | table ht hs => exact .inr ⟨_, mem_values_tabledict.2 ht, _, hs, .inl rfl⟩
  | assoc ht hs ha => exact .inr ⟨_, mem_values_tabledict.2 ht, _, hs, .inr ⟨_, ha, rfl⟩⟩

/-! ### The order -/

/-- All references of a table of the list are to itself or to tables before it. -/
def Ordered (l : List (Str × TableSpec)) : Prop :=
  ∀ pre p post, l = pre ++ p :: post → ∀ fk ∈ p.2.foreignKeys, fk.2.1 = p.1 ∨ fk.2.1 ∈ Dict.keys pre

theorem ready_iff {ordered : List (Str × TableSpec)} {p : Str × TableSpec} :
    ready ordered p = true ↔ ∀ fk ∈ p.2.foreignKeys, fk.2.1 = p.1 ∨ fk.2.1 ∈ Dict.keys ordered := by
  unfold ready
  simp only [List.all_eq_true, Bool.or_eq_true, Dict.has_iff_mem_keys, decide_eq_true_eq]
  exact ⟨fun h fk hfk => (h fk hfk).symm, fun h fk hfk => (h fk hfk).symm⟩

theorem ordered_append {l : List (Str × TableSpec)} {p : Str × TableSpec} (hl : Ordered l) (hp : ready l p = true) :
    Ordered (l ++ [p]) := by
  intro pre q post h
  rcases List.eq_nil_or_concat post with rfl | ⟨post', z, rfl⟩
  · have := List.append_inj' h rfl
    obtain ⟨rfl, h2⟩ := this
    cases h2
    exact ready_iff.1 hp
  · rw [List.concat_eq_append, ← List.cons_append, ← List.append_assoc] at h
    obtain ⟨rfl, _⟩ := List.append_inj' h rfl
    exact hl pre q post' rfl

theorem erase_perm {d : List (Str × TableSpec)} {p : Str × TableSpec} (hn : (Dict.keys d).Nodup) (hp : p ∈ d) :
    d.Perm (p :: Dict.erase p.1 d) := by
  induction d with
  | nil => simp at hp
  | cons q r ih =>
    rw [Dict.keys_cons, List.nodup_cons] at hn
    unfold Dict.erase
    rcases List.mem_cons.1 hp with rfl | hp
    · rw [List.filter_cons_of_neg (by simp)]
      have : r.filter (fun q => !decide (q.1 = p.1)) = r := by
        rw [List.filter_eq_self]
        intro q hq
        have : q.1 ≠ p.1 := fun h => hn.1 (h ▸ List.mem_map_of_mem hq)
        simp [this]
      rw [this]
    · have hne : q.1 ≠ p.1 := fun h => hn.1 (h ▸ List.mem_map_of_mem hp)
      rw [List.filter_cons_of_pos (by simp [hne])]
      exact (List.Perm.cons q (ih hn.2 hp)).trans (List.Perm.swap ..)

theorem keys_perm {d d' : List (Str × TableSpec)} (h : d.Perm d') : (Dict.keys d).Perm (Dict.keys d') := h.map _

theorem orderLoop_spec {n : Nat} {rem ordered res : List (Str × TableSpec)} (h : orderLoop n rem ordered = .ok res)
    (hn : (Dict.keys (ordered ++ rem)).Nodup) (ho : Ordered ordered) :
    res.Perm (ordered ++ rem) ∧ Ordered res ∧ rem.length ≤ n := by
  induction n generalizing rem ordered with
  | zero =>
    cases rem with
    | nil => unfold orderLoop at h; cases h; rw [List.append_nil]; exact ⟨.refl _, ho, Nat.le_refl _⟩
    | cons p r => unfold orderLoop at h; simp at h
  | succ n ih =>
    cases rem with
    | nil => unfold orderLoop at h; cases h; rw [List.append_nil]; exact ⟨.refl _, ho, Nat.zero_le _⟩
    | cons p r =>
      unfold orderLoop at h
      cases hf : (p :: r).find? (ready ordered) with
      | none =>
        rw [hf] at h
        obtain ⟨h1, h2, h3⟩ := ih h hn ho
        exact ⟨h1, h2, Nat.le_succ_of_le h3⟩
      | some q =>
        rw [hf] at h
        simp only at h
        have hq := List.mem_of_find?_eq_some hf
        have hr := List.find?_some hf
        have hn' := hn
        unfold Dict.keys at hn'
        rw [List.map_append, List.nodup_append] at hn'
        have hnm : q.1 ∉ Dict.keys ordered := fun hm => hn'.2.2 q.1 hm q.1 (List.mem_map_of_mem hq) rfl
        have hperm := erase_perm hn'.2.1 hq
        rw [Dict.set_eq_append_of_not_mem hnm] at h
        have hp2 : (ordered ++ [q] ++ Dict.erase q.1 (p :: r)).Perm (ordered ++ (p :: r)) := by
          rw [List.append_assoc]
          exact List.Perm.append_left _ hperm.symm
        obtain ⟨h1, h2, h3⟩ := ih h ((keys_perm hp2).nodup_iff.2 hn) (ordered_append ho hr)
        refine ⟨h1.trans hp2, h2, ?_⟩
        have := hperm.length_eq
        rw [this, List.length_cons]
        omega

theorem orderLoop_ok {n : Nat} {rem ordered : List (Str × TableSpec)} (hlen : rem.length ≤ n)
    (hn : (Dict.keys (ordered ++ rem)).Nodup) {rank : Str → Nat}
    (hr : ∀ p ∈ rem, ∀ fk ∈ p.2.foreignKeys, fk.2.1 = p.1 ∨ (fk.2.1 ∈ Dict.keys (ordered ++ rem) ∧ rank fk.2.1 < rank p.1)) :
    ∃ res, orderLoop n rem ordered = .ok res := by
  induction n generalizing rem ordered with
  | zero =>
    cases rem with
    | nil => exact ⟨ordered, by unfold orderLoop; rfl⟩
    | cons p r => simp at hlen
  | succ n ih =>
    cases rem with
    | nil => exact ⟨ordered, by unfold orderLoop; rfl⟩
    | cons p r =>
      unfold orderLoop
      -- a table of least rank is ready
      have hmin : ∃ q ∈ p :: r, ∀ q' ∈ p :: r, rank q.1 ≤ rank q'.1 := by
        clear hr hlen hn ih
        induction r generalizing p with
        | nil => exact ⟨p, List.mem_cons_self .., by simp⟩
        | cons p' r ih =>
          obtain ⟨q, hq, hmin⟩ := ih p'
          by_cases hc : rank p.1 ≤ rank q.1
          · refine ⟨p, List.mem_cons_self .., ?_⟩
            intro q' hq'
            rcases List.mem_cons.1 hq' with rfl | hq'
            · exact Nat.le_refl _
            · exact Nat.le_trans hc (hmin q' hq')
          · refine ⟨q, List.mem_cons_of_mem _ hq, ?_⟩
            intro q' hq'
            rcases List.mem_cons.1 hq' with rfl | hq'
            · omega
            · exact hmin q' hq'
      obtain ⟨q0, hq0, hmin⟩ := hmin
      have hready : ready ordered q0 = true := by
        rw [ready_iff]
        intro fk hfk
        rcases hr q0 hq0 fk hfk with h | ⟨h1, h2⟩
        · exact .inl h
        · right
          unfold Dict.keys at h1
          rw [List.map_append, List.mem_append] at h1
          rcases h1 with h1 | h1
          · exact h1
          · obtain ⟨q', hq', he⟩ := List.mem_map.1 h1
            have := hmin q' hq'
            rw [he] at this
            omega
      cases hf : (p :: r).find? (ready ordered) with
      | none =>
        rw [List.find?_eq_none] at hf
        exact absurd hready (hf q0 hq0)
      | some q =>
        simp only
        have hq := List.mem_of_find?_eq_some hf
        have hn' := hn
        unfold Dict.keys at hn'
        rw [List.map_append, List.nodup_append] at hn'
        have hnm : q.1 ∉ Dict.keys ordered := fun hm => hn'.2.2 q.1 hm q.1 (List.mem_map_of_mem hq) rfl
        have hperm := erase_perm hn'.2.1 hq
        rw [Dict.set_eq_append_of_not_mem hnm]
        have hp2 : (ordered ++ [q] ++ Dict.erase q.1 (p :: r)).Perm (ordered ++ (p :: r)) := by
          rw [List.append_assoc]
          exact List.Perm.append_left _ hperm.symm
        apply ih
        · have := hperm.length_eq
          have h2 : (q :: Dict.erase q.1 (p :: r)).length = (Dict.erase q.1 (p :: r)).length + 1 := List.length_cons
          omega
        · exact (keys_perm hp2).nodup_iff.2 hn
        · intro p' hp' fk hfk
          rcases hr p' (hperm.mem_iff.2 (List.mem_cons_of_mem _ hp')) fk hfk with h | ⟨h1, h2⟩
          · exact .inl h
          · exact .inr ⟨(keys_perm hp2).mem_iff.2 h1, h2⟩

theorem schema_spec {specs : List TableSpec} (h : schema g drop = .ok specs) :
    ∃ d res, collectTables drop [] (Dict.values g.tabledict) = .ok d ∧ GoodDict (IsSqlTable g drop) d ∧ res.Perm d ∧ Ordered res ∧
      d.length ≤ 100 ∧ specs = Dict.values res := by
  unfold schema at h
  cases hc : collectTables drop [] (Dict.values g.tabledict) with
  | error e => rw [hc] at h; simp at h
  | ok d =>
    rw [hc] at h
    simp only at h
    obtain ⟨hd, _, _⟩ := collect_spec hc
    cases ho : orderLoop 100 d [] with
    | error e => rw [ho] at h; simp [Except.map] at h
    | ok res =>
      rw [ho] at h
      simp only [Except.map, Except.ok.injEq] at h
      obtain ⟨h1, h2, h3⟩ := orderLoop_spec ho (by simpa using hd.1) (by intro pre p post h; simp at h)
      exact ⟨d, res, rfl, hd, by simpa using h1, h2, h3, h.symm⟩

/-! ## Theorems -/

/-- **C43** Each table comes after all tables its foreign keys reference, except itself. -/
theorem C43_order {specs : List TableSpec} (h : schema g drop = .ok specs) {pre post : List TableSpec} {s : TableSpec}
    (hs : specs = pre ++ s :: post) : ∀ fk ∈ s.foreignKeys, fk.2.1 = s.name ∨ ∃ u ∈ pre, u.name = fk.2.1 := by
  obtain ⟨d, res, _, hd, hp, ho, _, rfl⟩ := schema_spec h
  unfold Dict.values at hs
  obtain ⟨rpre, rpost, rfl, h1, h2⟩ := List.map_eq_append_iff.1 hs
  obtain ⟨q, rpost', rfl, rfl, _⟩ := List.map_eq_cons_iff.1 h2
  intro fk hfk
  have hq := hd.2 q (hp.mem_iff.1 (by simp))
  rcases ho rpre q rpost' rfl fk hfk with h | h
  · left; rw [hq.1]; exact h
  · right
    obtain ⟨u, hu, he⟩ := List.mem_map.1 h
    have hu' := hd.2 u (hp.mem_iff.1 (List.mem_append_left _ hu))
    exact ⟨u.2, by rw [← h1]; exact List.mem_map_of_mem hu, hu'.1.trans he⟩

/-- **C43** The tables created are tables of the group or association tables; names are distinct; and there is one for every table of
the group and every association table. -/
theorem C43_tables {specs : List TableSpec} (h : schema g drop = .ok specs) :
    (specs.map TableSpec.name).Nodup ∧ (∀ s ∈ specs, IsSqlTable g drop s) ∧
    ∀ s, IsSqlTable g drop s → ∃ s' ∈ specs, s'.name = s.name := by
  obtain ⟨d, res, hc, hd, hp, ho, _, rfl⟩ := schema_spec h
  obtain ⟨_, hk, _⟩ := collect_spec hc
  have hmem : ∀ p, p ∈ res ↔ p ∈ d := fun p => hp.mem_iff
  refine ⟨?_, ?_, ?_⟩
  · have : (Dict.values res).map TableSpec.name = Dict.keys res := by
      unfold Dict.values Dict.keys
      rw [List.map_map]
      apply List.map_congr_left
      intro p hp'
      exact (hd.2 p ((hmem p).1 hp')).1
    rw [this]
    exact (keys_perm hp).nodup_iff.2 hd.1
  · intro s hs
    obtain ⟨p, hp', rfl⟩ := List.mem_map.1 hs
    exact (hd.2 p ((hmem p).1 hp')).2
  · intro s hs
    obtain ⟨p, hp', he⟩ := List.mem_map.1 (hk s hs)
    exact ⟨p.2, List.mem_map_of_mem ((hmem p).2 hp'), (hd.2 p hp').1.trans he⟩

/-- **C43** If no two tables have the same name, the tables created are exactly those of the group and the association tables. -/
theorem C43_exact {specs : List TableSpec} (h : schema g drop = .ok specs)
    (hdist : ∀ s s', IsSqlTable g drop s → IsSqlTable g drop s' → s.name = s'.name → s = s') (s : TableSpec) :
    s ∈ specs ↔ IsSqlTable g drop s := by
  obtain ⟨_, h2, h3⟩ := C43_tables h
  constructor
  · exact h2 s
  · intro hs
    obtain ⟨s', hs', he⟩ := h3 s hs
    rw [← hdist s' s (h2 s' hs') hs he]
    exact hs'

/-- **C44** The schema is accepted only if the dependencies are acyclic, with all referenced tables being present. (Of tables with the
same name, the dependencies of those which are created matter.) -/
theorem C44_acyclic {specs : List TableSpec} (h : schema g drop = .ok specs) : Acyclic (· ∈ specs) := by
  have hn := (C43_tables h).1
  refine ⟨fun n => (specs.map TableSpec.name).idxOf n, ?_⟩
  intro s hs fk hfk
  obtain ⟨pre, post, he⟩ := List.append_of_mem hs
  rcases C43_order h he fk hfk with hself | ⟨u, hu, hun⟩
  · exact .inl hself
  · refine .inr ⟨u, by rw [he]; exact List.mem_append_left _ hu, hun, ?_⟩
    have hsn : s.name ∉ pre.map TableSpec.name := by
      rw [he, List.map_append, List.nodup_append] at hn
      intro hm
      exact hn.2.2 _ hm s.name (by simp) rfl
    show List.idxOf u.name (specs.map TableSpec.name) < List.idxOf s.name (specs.map TableSpec.name)
    rw [he, List.map_append, List.map_cons]
    rw [List.idxOf_append, List.idxOf_append, if_pos (List.mem_map_of_mem hu), if_neg hsn]
    have : List.idxOf u.name (pre.map TableSpec.name) < (pre.map TableSpec.name).length :=
      List.idxOf_lt_length_of_mem (List.mem_map_of_mem hu)
    omega

/-- **C44** (for at most 100 tables) The schema of a group with acyclic dependencies is accepted. (The hypothesis `hspec` says that
list-valued foreign keys are not composite and are of tables with a primary key of one column.) What is missing: more than 100 tables,
see `C44_violated`. -/
theorem C44_acyclic_accepted (hspec : ∀ t, TableNamed g t.url t → ∃ s, fromTable t drop = .ok s) (hacyc : Acyclic (IsSqlTable g drop))
    (hlen : ∀ names : List Str, names.Nodup → (∀ n ∈ names, ∃ s, IsSqlTable g drop s ∧ s.name = n) → names.length ≤ 100) :
    ∃ specs, schema g drop = .ok specs := by
  obtain ⟨d, hd⟩ := collectTables_ok (d := []) fun t ht => hspec t (mem_values_tabledict.1 ht)
  obtain ⟨hg, hk, _⟩ := collect_spec hd
  obtain ⟨rank, hr⟩ := hacyc
  have hl : d.length ≤ 100 := by
    have := hlen (Dict.keys d) hg.1 (by
      intro n hn
      obtain ⟨p, hp, rfl⟩ := List.mem_map.1 hn
      exact ⟨p.2, (hg.2 p hp).2, (hg.2 p hp).1⟩)
    simpa [Dict.keys] using this
  obtain ⟨res, hres⟩ := orderLoop_ok (n := 100) (rem := d) (ordered := []) hl (by simpa using hg.1) (rank := rank) (by
    intro p hp fk hfk
    obtain ⟨h1, h2⟩ := hg.2 p hp
    rcases hr p.2 h2 fk hfk with h | ⟨u, hu, hun, hlt⟩
    · exact .inl (h.trans h1)
    · right
      rw [List.nil_append, ← hun]
      exact ⟨hk u hu, by rw [h1] at hlt; exact hlt⟩)
  refine ⟨Dict.values res, ?_⟩
  unfold schema
  rw [hd]
  simp only [hres]
  rfl

/-- **C44 does not hold** for more than 100 tables: these are always rejected. -/
theorem C44_violated (hlen : 100 < g.tables.length) (hn : (g.tables.map Table.url).Nodup) (specs : List TableSpec) :
    schema g drop ≠ .ok specs := by
  intro h
  obtain ⟨d, res, hc, hd, _, _, hl, _⟩ := schema_spec h
  obtain ⟨_, hk, hall⟩ := collect_spec hc
  have hsub : ∀ n ∈ g.tables.map Table.url, n ∈ Dict.keys d := by
    intro n hn'
    obtain ⟨t, ht, rfl⟩ := List.mem_map.1 hn'
    obtain ⟨pre, post, he⟩ := List.append_of_mem ht
    have htn : TableNamed g t.url t := by
      refine ⟨pre, post, he, rfl, ?_⟩
      intro w hw hwu
      rw [he, List.map_append, List.map_cons, List.nodup_append] at hn
      have := (List.nodup_cons.1 hn.2.1).1
      exact this (hwu ▸ List.mem_map_of_mem hw)
    obtain ⟨s, hs⟩ := hall t htn
    rw [← fromTable_name hs]
    exact hk s (.table htn hs)
  have := List.Nodup.length_le_of_subset hn hsub
  rw [List.length_map] at this
  simp only [Dict.keys, List.length_map] at this
  omega

end

/-! ## Examples -/

/-- 101 tables without foreign keys. -/
def manyTables : TableGroup := { tables := (List.range 101).map fun i => ({ url := List.replicate i 'a' } : Table) }

/-- **C44 does not hold**: an example of an acyclic group which is rejected. -/
theorem C44_violated_example :
    Acyclic (IsSqlTable manyTables true) ∧ ∀ specs, schema manyTables true ≠ .ok specs := by
  constructor
  · have key : ∀ {t : Table} {s : TableSpec}, TableNamed manyTables t.url t → fromTable t true = .ok s →
        s.foreignKeys = [] ∧ s.manyToMany = [] := by
      intro t s ht hs
      obtain ⟨i, -, rfl⟩ := List.mem_map.1 (tableNamed_mem ht).1
      have : s = { name := List.replicate i 'a' } := by
        have h2 : fromTable ({ url := List.replicate i 'a' } : Table) true = .ok { name := List.replicate i 'a' } := rfl
        rw [h2] at hs
        cases hs
        rfl
      rw [this]
      exact ⟨rfl, rfl⟩
    refine ⟨fun _ => 0, ?_⟩
    intro s hs fk hfk
    cases hs with
    | table ht hs => rw [(key ht hs).1] at hfk; simp at hfk
    | assoc ht hs ha => rw [(key ht hs).2] at ha; simp at ha
  · intro specs
    apply C44_violated
    · decide +kernel
    · decide +kernel

/-- A group of two tables, with a foreign key and a list-valued foreign key from the first to the second. -/
def twoTables : TableGroup :=
  { tables := [
      { url := "a".toList
        schema := {
          columns := [
            { name := some "id".toList, number := 1 },
            { name := some "b".toList, number := 2 },
            { name := some "bs".toList, number := 3, props := { separator := .str " ".toList } }]
          primaryKey := some ["id".toList]
          foreignKeys := [
            { columnReference := ["b".toList], resource := some "b".toList, refColumns := ["id".toList] },
            { columnReference := ["bs".toList], resource := some "b".toList, refColumns := ["id".toList] }] } },
      { url := "b".toList
        schema := { columns := [{ name := some "id".toList, number := 1 }], primaryKey := some ["id".toList] } }] }

theorem sorted_singleton (a : Str) : sorted [a] = [a] := by
  unfold sorted
  rw [List.mergeSort_singleton]

/-- The tables of the group and the association table, in the right order. -/
theorem C43_example : (schema twoTables true).map (List.map TableSpec.name) = .ok ["b".toList, "a".toList, "a_b".toList] := by
  simp [schema, twoTables, TableGroup.tabledict, Dict.ofPairs, Dict.update, Dict.set, Dict.values, collectTables, fromTable,
    addForeignKeys, addForeignKey, sorted_singleton]
  decide +kernel

end Csvw.Props
