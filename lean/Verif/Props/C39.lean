import Verif.Props.C42
/-!
# C39: primary keys
-/

namespace Csvw.Props
open Csvw.Spec Csvw.Table Csvw.Datatypes

/-- Two rows agree on all columns of the key. -/
def SameKey (eq : PyEq) (key : List Str) (r r' : RowDict) : Prop := ∀ k ∈ key, eq (valueOf r k) (valueOf r' k) = true

/-- No two rows (the second after the first) agree on all columns of the key. -/
def NoDuplicateKey (eq : PyEq) (key : List Str) (rows : List RowDict) : Prop := rows.Pairwise fun r r' => ¬ SameKey eq key r r'

/-- The row has hashable values (no lists, no JSON arrays or objects) for all columns of the key. -/
def HasKey (key : List Str) (r : RowDict) : Prop := ∀ k ∈ key, ∃ v, Dict.get k r = some v ∧ hashable v = true

/-- The valid rows of the data: what `iterdicts` yields when errors are logged. -/
def validRows (ext : Ext) (x : MExt) (t : Table) (text : Str) : List RowDict :=
  (t.iterdicts ext x true true text).rows.map Prod.snd

section
variable {ext : Ext} {x : MExt} {t : Table} {eq : PyEq}

theorem getKey_of_hasKey {key : List Str} {r : RowDict} (h : HasKey key r) :
    getKey r key = .ok (key.map (valueOf r)) ∧ (key.map (valueOf r)).all hashable = true := by
  induction key with
  | nil => exact ⟨rfl, rfl⟩
  | cons k ks ih =>
    obtain ⟨v, hv, hh⟩ := h k (List.mem_cons_self ..)
    obtain ⟨h1, h2⟩ := ih fun k hk => h k (List.mem_cons_of_mem _ hk)
    refine ⟨?_, ?_⟩
    · unfold getKey; rw [hv]; simp only [h1, List.map_cons, valueOf, hv, Option.getD_some]
    · simp only [List.map_cons, List.all_cons, h2, Bool.and_true]; simp [valueOf, hv, hh]

theorem keyEq_map (key : List Str) (r r' : RowDict) :
    keyEq eq (key.map (valueOf r)) (key.map (valueOf r')) = true ↔ SameKey eq key r r' := by
  unfold SameKey
  induction key with
  | nil => simp [keyEq]
  | cons k ks ih => simp [keyEq, ih]

theorem pkLoop_eq {log : Bool} {key : List Str} {err : Option PyErr} {rows pre : List RowDict} (hk : ∀ r ∈ rows, HasKey key r)
    (hpre : NoDuplicateKey eq key pre) (ok : Bool) :
    (NoDuplicateKey eq key (pre ++ rows) →
      pkLoop eq log key err (pre.reverse.map fun r => key.map (valueOf r)) ok rows =
        match err with | none => .ok ok | some e => .error e) ∧
    (¬ NoDuplicateKey eq key (pre ++ rows) → log = false →
      pkLoop eq log key err (pre.reverse.map fun r => key.map (valueOf r)) ok rows = .error .valueError) := by
  induction rows generalizing pre with
  | nil =>
    rw [List.append_nil]
    refine ⟨fun _ => by unfold pkLoop; cases err <;> rfl, fun h => absurd hpre h⟩
  | cons r rs ih =>
    obtain ⟨h1, h2⟩ := getKey_of_hasKey (hk r (List.mem_cons_self ..))
    unfold pkLoop
    rw [h1]
    simp only [h2, Bool.not_true, Bool.false_eq_true, if_false]
    have hany : ((pre.reverse.map fun r => key.map (valueOf r)).any fun s => keyEq eq s (key.map (valueOf r))) = true ↔
        ∃ p ∈ pre, SameKey eq key p r := by
      simp only [List.any_map, List.any_reverse, List.any_eq_true, Function.comp_apply, keyEq_map]
    by_cases hd : ∃ p ∈ pre, SameKey eq key p r
    · rw [if_pos (hany.2 hd)]
      refine ⟨fun h => ?_, fun _ hl => by simp [hl]⟩
      obtain ⟨p, hp, hs⟩ := hd
      exact absurd hs ((List.pairwise_append.1 h).2.2 p hp r (List.mem_cons_self ..))
    · rw [if_neg (fun h => hd (hany.1 h))]
      have hpre' : NoDuplicateKey eq key (pre ++ [r]) := by
        refine List.pairwise_append.2 ⟨hpre, List.pairwise_singleton _ _, ?_⟩
        intro p hp q hq
        rw [List.mem_singleton] at hq
        subst hq
        exact fun hs => hd ⟨p, hp, hs⟩
      have := ih (pre := pre ++ [r]) (fun q hq => hk q (List.mem_cons_of_mem _ hq)) hpre'
      rw [List.append_assoc, List.singleton_append, List.reverse_append] at this
      simpa using this

theorem pkLoop_log_false {key : List Str} {rows : List RowDict} (hk : ∀ r ∈ rows, HasKey key r)
    (seen : List (List CVal)) : pkLoop eq true key none seen false rows = .ok false := by
  induction rows generalizing seen with
  | nil => rfl
  | cons r rs ih =>
    obtain ⟨h1, h2⟩ := getKey_of_hasKey (hk r (List.mem_cons_self ..))
    unfold pkLoop
    rw [h1]
    simp only [h2, Bool.not_true, Bool.false_eq_true, if_false]
    split <;> simp [ih fun q hq => hk q (List.mem_cons_of_mem _ hq)]

theorem pkLoop_log_dup {key : List Str} {rows pre : List RowDict} (hk : ∀ r ∈ rows, HasKey key r)
    (hpre : NoDuplicateKey eq key pre) (hd : ¬ NoDuplicateKey eq key (pre ++ rows)) :
    pkLoop eq true key none (pre.reverse.map fun r => key.map (valueOf r)) true rows = .ok false := by
  induction rows generalizing pre with
  | nil => rw [List.append_nil] at hd; exact absurd hpre hd
  | cons r rs ih =>
    obtain ⟨h1, h2⟩ := getKey_of_hasKey (hk r (List.mem_cons_self ..))
    unfold pkLoop
    rw [h1]
    simp only [h2, Bool.not_true, Bool.false_eq_true, if_false, if_true]
    have hany : ((pre.reverse.map fun r => key.map (valueOf r)).any fun s => keyEq eq s (key.map (valueOf r))) = true ↔
        ∃ p ∈ pre, SameKey eq key p r := by
      simp only [List.any_map, List.any_reverse, List.any_eq_true, Function.comp_apply, keyEq_map]
    by_cases hx : ∃ p ∈ pre, SameKey eq key p r
    · rw [if_pos (hany.2 hx)]
      exact pkLoop_log_false (fun q hq => hk q (List.mem_cons_of_mem _ hq)) _
    · rw [if_neg (fun h => hx (hany.1 h))]
      have hpre' : NoDuplicateKey eq key (pre ++ [r]) := by
        refine List.pairwise_append.2 ⟨hpre, List.pairwise_singleton _ _, ?_⟩
        intro p hp q hq
        rw [List.mem_singleton] at hq
        subst hq
        exact fun hs => hx ⟨p, hp, hs⟩
      have := ih (pre := pre ++ [r]) (fun q hq => hk q (List.mem_cons_of_mem _ hq)) hpre'
        (by rw [List.append_assoc, List.singleton_append]; exact hd)
      rw [List.reverse_append] at this
      simpa using this

theorem checkPrimaryKey_eq {log : Bool} {text : Str} {key : List Str} (hp : t.schema.primaryKey = some key) (hne : key ≠ []) :
    t.checkPrimaryKey ext x eq log text =
      pkLoop eq log key (t.iterdicts ext x true true text).err [] true (validRows ext x t text) := by
  unfold checkPrimaryKey
  rw [hp]
  cases key with
  | nil => exact absurd rfl hne
  | cons k ks => rfl

/-- **C39** With a log, `check_primary_key` returns `True` exactly if no two valid rows agree on the primary key. (`eq` is
Python's equality of values. The data can be read, and the key columns have hashable values.) -/
theorem C39_log {text : Str} {key : List Str} (hp : t.schema.primaryKey = some key) (hne : key ≠ [])
    (herr : (t.iterdicts ext x true true text).err = none) (hk : ∀ r ∈ validRows ext x t text, HasKey key r) :
    ∃ b, t.checkPrimaryKey ext x eq true text = .ok b ∧ (b = true ↔ NoDuplicateKey eq key (validRows ext x t text)) := by
  rw [checkPrimaryKey_eq hp hne, herr]
  by_cases hd : NoDuplicateKey eq key (validRows ext x t text)
  · refine ⟨true, ?_, by simp [hd]⟩
    have := (pkLoop_eq (log := true) (err := none) (pre := []) hk List.Pairwise.nil true).1 hd
    simpa using this
  · refine ⟨false, ?_, by simp [hd]⟩
    have := pkLoop_log_dup (pre := []) hk List.Pairwise.nil hd
    simpa using this

/-- **C39** Without a log, it raises `ValueError` exactly if two valid rows agree on the primary key, and otherwise returns
`True`. -/
theorem C39_nolog {text : Str} {key : List Str} (hp : t.schema.primaryKey = some key) (hne : key ≠ [])
    (herr : (t.iterdicts ext x true true text).err = none) (hk : ∀ r ∈ validRows ext x t text, HasKey key r) :
    (NoDuplicateKey eq key (validRows ext x t text) → t.checkPrimaryKey ext x eq false text = .ok true) ∧
    (¬ NoDuplicateKey eq key (validRows ext x t text) → t.checkPrimaryKey ext x eq false text = .error .valueError) := by
  rw [checkPrimaryKey_eq hp hne, herr]
  have := pkLoop_eq (eq := eq) (log := false) (err := none) (pre := []) hk List.Pairwise.nil true
  exact ⟨fun h => by simpa using this.1 h, fun h => by simpa using this.2 h rfl⟩

/-- **C39** A table without primary key passes. -/
theorem C39_none {text : Str} {log : Bool} (hp : t.schema.primaryKey = none ∨ t.schema.primaryKey = some []) :
    t.checkPrimaryKey ext x eq log text = .ok true := by
  unfold checkPrimaryKey
  rcases hp with hp | hp <;> rw [hp]

/-- **C39** If the key columns are (non-virtual) columns of the table, rows have values for them: only that the values are
hashable is left of `HasKey`. -/
theorem C39_hasKey {text : Str} {key : List Str} (hkey : ∀ k ∈ key, ∃ c ∈ t.schema.columns, c.virtual = false ∧ c.header = k)
    (hh : ∀ r ∈ validRows ext x t text, ∀ k ∈ key, hashable (valueOf r k) = true) :
    ∀ r ∈ validRows ext x t text, HasKey key r := by
  intro r hr k hk
  obtain ⟨c, hc, hv, rfl⟩ := hkey k hk
  have hh' := hh r hr _ hk
  unfold validRows at hr
  obtain ⟨⟨n, d⟩, hd, rfl⟩ := List.mem_map.1 hr
  have := C35_keys true true text hd hc hv
  rw [← Dict.get_isSome_iff_mem_keys] at this
  obtain ⟨w, hw⟩ := Option.isSome_iff_exists.1 this
  refine ⟨w, hw, ?_⟩
  simpa [valueOf, hw] using hh'

theorem getKey_missing {key : List Str} {r : RowDict} (h : ∃ k ∈ key, k ∉ Dict.keys r) : getKey r key = .error .keyError := by
  induction key with
  | nil => obtain ⟨k, hk, _⟩ := h; simp at hk
  | cons a ks ih =>
    unfold getKey
    cases ha : Dict.get a r with
    | none => rfl
    | some v =>
      obtain ⟨k, hk, hn⟩ := h
      have : ∃ k ∈ ks, k ∉ Dict.keys r := by
        rcases List.mem_cons.1 hk with rfl | hk
        · exact absurd ((Dict.get_isSome_iff_mem_keys _ _).1 (by rw [ha]; rfl)) hn
        · exact ⟨k, hk, hn⟩
      rw [ih this]

theorem getKey_ok {key : List Str} {r : RowDict} {pk : List CVal} (h : getKey r key = .ok pk) (hh : pk.all hashable = true) : HasKey key r := by
  induction key generalizing pk with
  | nil => intro k hk; simp at hk
  | cons a ks ih =>
    unfold getKey at h
    cases ha : Dict.get a r with
    | none => rw [ha] at h; cases h
    | some v =>
      rw [ha] at h
      simp only at h
      cases hg : getKey r ks with
      | error e => rw [hg] at h; cases h
      | ok vs =>
        rw [hg] at h
        cases h
        simp only [List.all_cons, Bool.and_eq_true] at hh
        intro k hk
        rcases List.mem_cons.1 hk with rfl | hk
        · exact ⟨v, ha, hh.1⟩
        · exact ih hg hh.2 k hk

theorem getKey_err {key : List Str} {r : RowDict} {e : PyErr} (h : getKey r key = .error e) : e = .keyError := by
  induction key with
  | nil => cases h
  | cons a ks ih =>
    unfold getKey at h
    split at h
    · cases h; rfl
    · split at h
      · next hg => cases h; exact ih hg
      · cases h

/-- **C39** With a log: if some valid row lacks a key column or has a value there which is not hashable, `KeyError` or `TypeError` is raised —
so the two results `True` and `False` occur exactly under the hypotheses of `C39_log`. -/
theorem C39_unusable {text : Str} {key : List Str} (hp : t.schema.primaryKey = some key) (hne : key ≠ [])
    (hk : ∃ r ∈ validRows ext x t text, ¬ HasKey key r) :
    t.checkPrimaryKey ext x eq true text = .error .keyError ∨ t.checkPrimaryKey ext x eq true text = .error .typeError := by
  rw [checkPrimaryKey_eq hp hne]
  suffices H : ∀ seen ok (rows : List RowDict), (∃ r ∈ rows, ¬ HasKey key r) →
      pkLoop eq true key (t.iterdicts ext x true true text).err seen ok rows = .error .keyError ∨
      pkLoop eq true key (t.iterdicts ext x true true text).err seen ok rows = .error .typeError from H _ _ _ hk
  clear hk
  intro seen ok rows hk
  induction rows generalizing seen ok with
  | nil => obtain ⟨r, hr, _⟩ := hk; simp at hr
  | cons r rs ih =>
    unfold pkLoop
    cases hg : getKey r key with
    | error e => left; simp only; rw [getKey_err hg]
    | ok pk =>
      simp only
      by_cases hh : pk.all hashable = true
      · have : ∃ r ∈ rs, ¬ HasKey key r := by
          obtain ⟨r', hr', hn⟩ := hk
          rcases List.mem_cons.1 hr' with rfl | hr'
          · exact absurd (getKey_ok hg hh) hn
          · exact ⟨r', hr', hn⟩
        rw [if_neg (by simp [hh])]
        split
        · rw [if_pos trivial]; exact ih _ _ this
        · exact ih _ _ this
      · right; rw [if_pos (by simpa using hh)]

/-- **C39** A key column which the (first valid) row does not have — the key refers to a column that is neither in the schema
nor in the data — makes it raise `KeyError`, with or without log. -/
theorem C39_missing {text : Str} {key : List Str} {log : Bool} {r : RowDict} {rs : List RowDict}
    (hp : t.schema.primaryKey = some key) (hr : validRows ext x t text = r :: rs) (hk : ∃ k ∈ key, k ∉ Dict.keys r) :
    t.checkPrimaryKey ext x eq log text = .error .keyError := by
  have hne : key ≠ [] := by rintro rfl; obtain ⟨k, hk, _⟩ := hk; simp at hk
  rw [checkPrimaryKey_eq hp hne, hr]
  unfold pkLoop
  rw [getKey_missing hk]
end

/-- A table with one list-valued column `a`, which is its primary key. -/
def listTable : Table :=
  { schema := { columns := [{ name := some ['a'], props := { separator := .str [';'] }, number := 1 }],
                primaryKey := some [['a']] },
    url := "t.csv".toList }

/-- **C39 does not hold** for list-valued key columns: values are not hashable, so `TypeError` is raised for the first row. -/
theorem C39_violated_list (ext : Ext) (x : MExt) (eq : PyEq) (log : Bool) :
    listTable.checkPrimaryKey ext x eq log "a\nx;y\n".toList = .error .typeError := by
  have h : DataRows listTable "a\nx;y\n".toList [(1, [['a']]), (2, ["x;y".toList])] none :=
    ⟨_, rfl, by decide +kernel, by decide +kernel⟩
  rw [checkPrimaryKey_eq (key := [['a']]) rfl (by simp)]
  unfold validRows
  rw [iterdicts_eq h]
  rfl

/-- `intTable` with primary key `a`. -/
def pkTable : Table := { intTable with schema := { intTable.schema with primaryKey := some [['a']] } }

/-- Non-vacuity: a table with an invalid row and two rows with the same key (`5` and `05`). -/
example (ext : Ext) (x : MExt) :
    validRows ext x pkTable "a\n5\nx\n05\n".toList = [[(['a'], .one (.int 5))], [(['a'], .one (.int 5))]] ∧
    (pkTable.iterdicts ext x true true "a\n5\nx\n05\n".toList).err = none ∧
    (∀ r ∈ validRows ext x pkTable "a\n5\nx\n05\n".toList, HasKey [['a']] r) ∧
    pkTable.checkPrimaryKey ext x (fun a b => decide (a = b)) false "a\n5\nx\n05\n".toList = .error .valueError := by
  have h : DataRows pkTable "a\n5\nx\n05\n".toList
      [(1, [['a']]), (2, ["5".toList]), (3, ["x".toList]), (4, ["05".toList])] none :=
    ⟨_, rfl, by decide +kernel, by decide +kernel⟩
  have h1 : validRows ext x pkTable "a\n5\nx\n05\n".toList = [[(['a'], .one (.int 5))], [(['a'], .one (.int 5))]] := by
    unfold validRows; rw [iterdicts_eq h]; rfl
  have h2 : (pkTable.iterdicts ext x true true "a\n5\nx\n05\n".toList).err = none := by rw [iterdicts_eq h]; rfl
  have h3 : ∀ r ∈ validRows ext x pkTable "a\n5\nx\n05\n".toList, HasKey [['a']] r := by
    rw [h1]
    intro r hr k hk
    simp only [List.mem_cons, List.not_mem_nil, or_false, or_self] at hr hk
    subst hr hk
    exact ⟨_, rfl, rfl⟩
  refine ⟨h1, h2, h3, (C39_nolog (key := [['a']]) rfl (by simp) h2 h3).2 ?_⟩
  rw [h1]
  intro hn
  have := (List.pairwise_cons.1 hn).1 _ (List.mem_singleton.2 rfl)
  exact this (by intro k hk; simp only [List.mem_singleton] at hk; subst hk; decide)

end Csvw.Props
