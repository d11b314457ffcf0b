import Verif.Model.Table
import Verif.Spec.Dsv
/-!
# C34: schemas
-/

namespace Csvw.Props
open Csvw.Spec

/-- The column `c` with the number `n`. -/
def numberedCol (c : Column) (n : Nat) : Column := { c with number := n }

/-- The names of the non-virtual columns which have a (non-empty) name. -/
def dataNames (cs : List Column) : List Str :=
  (cs.filter fun c => !c.virtual).filterMap fun c => c.name.filter (· ≠ [])

/-- All virtual columns come after all others. -/
def VirtualLast (cs : List Column) : Prop :=
  ∃ data virt, cs = data ++ virt ∧ (∀ c ∈ data, c.virtual = false) ∧ ∀ c ∈ virt, c.virtual = true

theorem number_virtual {names : List Str} {i : Nat} (cs : List Column) :
    Schema.number true names i cs =
      if ∀ c ∈ cs, c.virtual = true then .ok (cs.mapIdx fun k c => numberedCol c (i + k + 1)) else .error .valueError := by
  induction cs generalizing i with
  | nil => simp [Schema.number]
  | cons c r ih =>
    unfold Schema.number
    by_cases hc : c.virtual = true
    · simp only [hc, Bool.not_true, Bool.and_false, Bool.false_eq_true, if_false, if_true, ih]
      by_cases hr : ∀ c ∈ r, c.virtual = true
      · rw [if_pos hr, if_pos (by intro d hd; rcases List.mem_cons.1 hd with rfl | hd; exact hc; exact hr d hd)]
        simp only [Except.map, Except.ok.injEq, List.mapIdx_cons, List.cons.injEq]
        refine ⟨by simp [numberedCol, hc], ?_⟩
        apply List.ext_getElem
        · simp
        · intro k _ _; simp only [List.getElem_mapIdx]; rw [show i + 1 + k + 1 = i + (k + 1) + 1 by omega]
      · rw [if_neg hr, if_neg (fun h => hr fun d hd => h d (List.mem_cons_of_mem _ hd))]
        rfl
    · rw [if_pos (by simp [hc]), if_neg (fun h => hc (h c (List.mem_cons_self ..)))]

/-- `number` exactly. -/
theorem number_iff {names : List Str} {i : Nat} (cs : List Column) :
    (VirtualLast cs ∧ (dataNames cs).Nodup ∧ (∀ n ∈ dataNames cs, n ∉ names) →
      Schema.number false names i cs = .ok (cs.mapIdx fun k c => numberedCol c (i + k + 1))) ∧
    (¬ (VirtualLast cs ∧ (dataNames cs).Nodup ∧ (∀ n ∈ dataNames cs, n ∉ names)) →
      Schema.number false names i cs = .error .valueError) := by
  induction cs generalizing i names with
  | nil =>
    refine ⟨fun _ => by simp [Schema.number], fun h => absurd ?_ h⟩
    exact ⟨⟨[], [], rfl, by simp, by simp⟩, by simp [dataNames], by simp [dataNames]⟩
  | cons c r ih =>
    unfold Schema.number
    simp only [Bool.false_and, Bool.false_eq_true, if_false]
    by_cases hc : c.virtual = true
    · rw [if_pos hc, number_virtual]
      have hdn : (∀ d ∈ r, d.virtual = true) → dataNames (c :: r) = [] := by
        intro hr
        unfold dataNames
        rw [List.filter_eq_nil_iff.2]
        · rfl
        · intro d hd
          rcases List.mem_cons.1 hd with rfl | hd
          · simp [hc]
          · simp [hr d hd]
      have hvl : VirtualLast (c :: r) ↔ ∀ d ∈ r, d.virtual = true := by
        constructor
        · rintro ⟨data, virt, he, h1, h2⟩
          cases data with
          | nil => intro d hd; exact h2 d (by rw [List.nil_append] at he; rw [← he]; exact List.mem_cons_of_mem _ hd)
          | cons a data =>
            simp only [List.cons_append, List.cons.injEq] at he
            have := h1 a (List.mem_cons_self ..)
            rw [← he.1, hc] at this
            simp at this
        · intro hr
          exact ⟨[], c :: r, rfl, by simp, by
            intro d hd; rcases List.mem_cons.1 hd with rfl | hd
            · exact hc
            · exact hr d hd⟩
      constructor
      · rintro ⟨hv, _, _⟩
        rw [if_pos (hvl.1 hv)]
        simp only [Except.map, Except.ok.injEq, List.mapIdx_cons]
        congr 1
        apply List.ext_getElem
        · simp
        · intro k _ _; simp only [List.getElem_mapIdx]; rw [show i + 1 + k + 1 = i + (k + 1) + 1 by omega]
      · intro hn
        rw [if_neg]
        · rfl
        · intro hr
          exact hn ⟨hvl.2 hr, by rw [hdn hr]; exact List.nodup_nil, by rw [hdn hr]; simp⟩
    · have hc' : c.virtual = false := by simpa using hc
      rw [if_neg hc]
      have hvl : VirtualLast (c :: r) ↔ VirtualLast r := by
        constructor
        · rintro ⟨data, virt, he, h1, h2⟩
          cases data with
          | nil =>
            rw [List.nil_append] at he
            have := h2 c (by rw [← he]; exact List.mem_cons_self ..)
            exact absurd this hc
          | cons a data =>
            simp only [List.cons_append, List.cons.injEq] at he
            exact ⟨data, virt, he.2, fun d hd => h1 d (List.mem_cons_of_mem _ hd), h2⟩
        · rintro ⟨data, virt, he, h1, h2⟩
          exact ⟨c :: data, virt, by rw [he]; rfl, by
            intro d hd; rcases List.mem_cons.1 hd with rfl | hd
            · exact hc'
            · exact h1 d hd, h2⟩
      have hmap : ∀ cs : List Column, cs = r →
          numberedCol c (i + 1) :: (cs.mapIdx fun k c => numberedCol c (i + 1 + k + 1)) =
          (c :: cs).mapIdx fun k c => numberedCol c (i + k + 1) := by
        intro cs _
        rw [List.mapIdx_cons]
        congr 1
        apply List.ext_getElem
        · simp
        · intro k _ _; simp only [List.getElem_mapIdx]; rw [show i + 1 + k + 1 = i + (k + 1) + 1 by omega]
      cases hn : nonEmpty c.name with
      | none =>
        have hdn : dataNames (c :: r) = dataNames r := by
          unfold nonEmpty at hn
          unfold dataNames
          rw [List.filter_cons_of_pos (by simp [hc']), List.filterMap_cons_none (by exact hn)]
        simp only
        rw [hdn, hvl]
        constructor
        · intro h
          rw [(ih (names := names) (i := i + 1)).1 h]
          simp only [Except.map]
          rw [← hmap r rfl]; rfl
        · intro h
          rw [(ih (names := names) (i := i + 1)).2 h]; rfl
      | some n =>
        have hdn : dataNames (c :: r) = n :: dataNames r := by
          unfold nonEmpty at hn
          unfold dataNames
          rw [List.filter_cons_of_pos (by simp [hc']), List.filterMap_cons_some (by exact hn)]
        simp only
        rw [hdn, hvl]
        by_cases hmem : n ∈ names
        · rw [if_pos hmem]
          exact ⟨fun h => absurd hmem (h.2.2 n (List.mem_cons_self ..)), fun _ => rfl⟩
        · rw [if_neg hmem]
          have hcond : (VirtualLast r ∧ (n :: dataNames r).Nodup ∧ ∀ a ∈ n :: dataNames r, a ∉ names) ↔
              (VirtualLast r ∧ (dataNames r).Nodup ∧ ∀ a ∈ dataNames r, a ∉ n :: names) := by
            simp only [List.nodup_cons, List.mem_cons, forall_eq_or_imp, not_or]
            constructor
            · rintro ⟨h1, ⟨h2, h3⟩, h4, h5⟩
              exact ⟨h1, h3, fun a ha => ⟨fun e => h2 (e ▸ ha), h5 a ha⟩⟩
            · rintro ⟨h1, h2, h3⟩
              exact ⟨h1, ⟨fun hh => (h3 n hh).1 rfl, h2⟩, hmem, fun a ha => (h3 a ha).2⟩
          rw [hcond]
          constructor
          · intro h
            rw [(ih (names := n :: names) (i := i + 1)).1 h]
            simp only [Except.map]
            rw [← hmap r rfl]; rfl
          · intro h
            rw [(ih (names := n :: names) (i := i + 1)).2 h]; rfl

/-- **C34** Exactly when is a schema accepted: the names of the non-virtual columns are pairwise different, and the virtual
columns are last. -/
theorem C34_accepted_iff (props : Descr) (cs : List Column) (fks : List ForeignKey) (pk : Option (List Str)) :
    (∃ s, Schema.construct props cs fks pk = .ok s) ↔ VirtualLast cs ∧ (dataNames cs).Nodup := by
  have hiff := number_iff (names := []) (i := 0) cs
  have hnil : ∀ n ∈ dataNames cs, n ∉ ([] : List Str) := by simp
  constructor
  · rintro ⟨s, hs⟩
    refine Classical.byContradiction fun hn => ?_
    unfold Schema.construct at hs
    rw [hiff.2 (fun h => hn ⟨h.1, h.2.1⟩)] at hs
    simp at hs
  · rintro ⟨h1, h2⟩
    unfold Schema.construct
    rw [hiff.1 ⟨h1, h2, hnil⟩]
    exact ⟨_, rfl⟩

/-- Otherwise `ValueError` is raised. -/
theorem C34_error (props : Descr) (cs : List Column) (fks : List ForeignKey) (pk : Option (List Str)) {e : PyErr}
    (h : Schema.construct props cs fks pk = .error e) : e = .valueError := by
  have hiff := number_iff (names := []) (i := 0) cs
  unfold Schema.construct at h
  by_cases hc : VirtualLast cs ∧ (dataNames cs).Nodup ∧ ∀ n ∈ dataNames cs, n ∉ ([] : List Str)
  · rw [hiff.1 hc] at h; simp at h
  · rw [hiff.2 hc] at h; simpa using h.symm

/-- **C34** The columns of an accepted schema are the given columns, numbered from 1; their names are pairwise different, and
the virtual columns are last. -/
theorem C34_invariants (props : Descr) (cs : List Column) (fks : List ForeignKey) (pk : Option (List Str)) {s : Schema}
    (h : Schema.construct props cs fks pk = .ok s) :
    s.columns = cs.mapIdx (fun k c => numberedCol c (k + 1)) ∧
    (∀ k (hk : k < s.columns.length), s.columns[k].number = k + 1) ∧
    (dataNames s.columns).Nodup ∧ VirtualLast s.columns := by
  have hacc := (C34_accepted_iff props cs fks pk).1 ⟨s, h⟩
  have hiff := (number_iff (names := []) (i := 0) cs).1 ⟨hacc.1, hacc.2, by simp⟩
  unfold Schema.construct at h
  rw [hiff] at h
  simp only [Except.ok.injEq] at h
  have hcols : s.columns = cs.mapIdx (fun k c => numberedCol c (k + 1)) := by
    rw [← h]
    unfold Schema.checkKey
    simp only [Nat.zero_add]
    split <;> rfl
  refine ⟨hcols, ?_, ?_, ?_⟩
  · intro k hk
    have := hk
    simp only [hcols, List.getElem_mapIdx, numberedCol]
  · have : dataNames s.columns = dataNames cs := by
      rw [hcols]
      clear hcols h hiff hacc
      suffices ∀ f : Nat → Nat, dataNames (cs.mapIdx fun k c => numberedCol c (f k)) = dataNames cs from this _
      intro f
      induction cs generalizing f with
      | nil => rfl
      | cons c r ih =>
        rw [List.mapIdx_cons]
        have := ih (fun k => f (k + 1))
        unfold dataNames at this ⊢
        by_cases hv : c.virtual = true
        · rw [List.filter_cons_of_neg (by simp [numberedCol, hv]), List.filter_cons_of_neg (by simp [hv])]
          exact this
        · rw [List.filter_cons_of_pos (by simp [numberedCol, hv]), List.filter_cons_of_pos (by simp [hv])]
          rw [List.filterMap_cons, List.filterMap_cons, this]
          rfl
    rw [this]; exact hacc.2
  · obtain ⟨data, virt, he, h1, h2⟩ := hacc.1
    rw [hcols, he, List.mapIdx_append]
    refine ⟨_, _, rfl, ?_, ?_⟩
    · intro c hc
      obtain ⟨k, hk, rfl⟩ := List.mem_mapIdx.1 hc
      exact h1 data[k] (List.getElem_mem ..)
    · intro c hc
      obtain ⟨k, hk, rfl⟩ := List.mem_mapIdx.1 hc
      exact h2 virt[k] (List.getElem_mem ..)

/-- The last column with a header. -/
def lastWith (cs : List Column) (r : Str) : Option Column := cs.reverse.find? fun c => c.header = r

theorem get_ofPairs_last (cs : List Column) (r : Str) :
    Dict.get r (Dict.ofPairs (cs.map fun c => (c.header, c))) = lastWith cs r := by
  have key : ∀ (cs : List Column) (d : List (Str × Column)),
      Dict.get r ((cs.map fun c => (c.header, c)).foldl (fun d p => Dict.set p.1 p.2 d) d) = (lastWith cs r).or (Dict.get r d) := by
    intro cs
    induction cs with
    | nil => intro d; simp [lastWith]
    | cons c cs ih =>
      intro d
      rw [List.map_cons, List.foldl_cons, ih, Dict.get_set]
      unfold lastWith
      rw [List.reverse_cons, List.find?_append]
      cases (cs.reverse.find? fun c => decide (c.header = r)) with
      | some x => simp
      | none =>
        by_cases hc : c.header = r
        · simp [hc]
        · simp [hc]
  have := key cs []
  simpa [Dict.ofPairs, Dict.update, Dict.get] using this

theorem lastWith_iff (cs : List Column) (r : Str) (c : Column) : lastWith cs r = some c ↔
    ∃ k, ∃ hk : k < cs.length, cs[k] = c ∧ cs[k].header = r ∧ ∀ j, ∀ hj : j < cs.length, k < j → cs[j].header ≠ r := by
  unfold lastWith
  rw [List.find?_eq_some_iff_getElem]
  constructor
  · rintro ⟨hc, i, hi, he, hb⟩
    have hi' : i < cs.length := by simpa using hi
    rw [List.getElem_reverse] at he
    refine ⟨cs.length - 1 - i, by omega, he, by rw [he]; simpa using hc, ?_⟩
    intro j hj hlt
    have := hb (cs.length - 1 - j) (by omega)
    rw [List.getElem_reverse] at this
    have e : cs.length - 1 - (cs.length - 1 - j) = j := by omega
    simp only [e] at this
    simpa using this
  · rintro ⟨k, hk, he, hr, hl⟩
    refine ⟨by rw [← he]; simpa using hr, cs.length - 1 - k, by simp; omega, ?_, ?_⟩
    · rw [List.getElem_reverse]
      have e : cs.length - 1 - (cs.length - 1 - k) = k := by omega
      simp only [e]
      exact he
    · intro j hj
      rw [List.getElem_reverse]
      simpa using hl (cs.length - 1 - j) (by omega) (by omega)

/-- **C34** (primary key) The primary key is kept, unless it refers to a column without name (by the name `_col.n` that stands for it): then it
is dropped. `Last` is the column of that header; if several columns have the same header (a virtual column may share the name of another
one), the last one counts. -/
theorem C34_primary_key (props : Descr) (cs : List Column) (fks : List ForeignKey) (pk : Option (List Str)) {s : Schema}
    (h : Schema.construct props cs fks pk = .ok s) :
    s.foreignKeys = fks ∧ s.props = props ∧
    ((∃ r ∈ pk.getD [], ∃ k, ∃ hk : k < s.columns.length, s.columns[k].header = r ∧ (s.columns[k].name = none ∨ s.columns[k].name = some []) ∧
        ∀ j, ∀ hj : j < s.columns.length, k < j → s.columns[j].header ≠ r) → s.primaryKey = none) ∧
    (¬ (∃ r ∈ pk.getD [], ∃ k, ∃ hk : k < s.columns.length, s.columns[k].header = r ∧ (s.columns[k].name = none ∨ s.columns[k].name = some []) ∧
        ∀ j, ∀ hj : j < s.columns.length, k < j → s.columns[j].header ≠ r) → s.primaryKey = pk) := by
  unfold Schema.construct at h
  cases hn : Schema.number false [] 0 cs with
  | error e => rw [hn] at h; simp at h
  | ok ns =>
    rw [hn] at h
    simp only [Except.ok.injEq] at h
    have hcols : s.columns = ns := by rw [← h]; unfold Schema.checkKey; split <;> rfl
    have hiff : (((pk.getD []).any fun r => match Dict.get r (Dict.ofPairs (ns.map fun c => (c.header, c))) with
        | some c => decide (nonEmpty c.name = none)
        | none => false) = true) ↔ (∃ r ∈ pk.getD [], ∃ k, ∃ hk : k < ns.length, ns[k].header = r ∧ (ns[k].name = none ∨ ns[k].name = some []) ∧
        ∀ j, ∀ hj : j < ns.length, k < j → ns[j].header ≠ r) := by
      rw [List.any_eq_true]
      refine exists_congr fun r => and_congr_right fun _ => ?_
      have hne : ∀ o : Option Str, nonEmpty o = none ↔ (o = none ∨ o = some []) := by
        intro o
        cases o with
        | none => simp [nonEmpty]
        | some l => cases l <;> simp [nonEmpty]
      rw [get_ofPairs_last]
      constructor
      · intro hm
        split at hm
        · next c hc =>
          obtain ⟨k, hk, he, hhd, hlast⟩ := (lastWith_iff ns r c).1 hc
          simp only [decide_eq_true_eq] at hm
          subst he
          exact ⟨k, hk, hhd, (hne _).1 hm, hlast⟩
        · cases hm
      · rintro ⟨k, hk, hhd, hnm, hlast⟩
        rw [(lastWith_iff ns r ns[k]).2 ⟨k, hk, rfl, hhd, hlast⟩]
        simpa using (hne _).2 hnm
    rw [hcols]
    rw [← hiff]
    clear hiff hcols
    rw [← h]
    unfold Schema.checkKey Schema.columndict
    simp only
    refine ⟨by split <;> rfl, by split <;> rfl, ?_, ?_⟩
    · intro hh
      split
      · rfl
      · next hf => exact absurd hh hf
    · intro hh
      split
      · next hf => exact absurd hf hh
      · rfl

/-- Non-vacuity: a schema with a named, an unnamed and a virtual column is accepted; one with a name used twice and one with a
virtual column first are not. -/
example : (∃ s, Schema.construct {} [{ name := some ['a'] }, {}, { name := some ['a'], virtual := true }] [] none = .ok s) ∧
    Schema.construct {} [{ name := some ['a'] }, {}, { name := some ['a'] }] [] none = .error .valueError ∧
    Schema.construct {} [{ virtual := true }, { name := some ['a'] }] [] none = .error .valueError :=
  ⟨⟨_, rfl⟩, rfl, rfl⟩

end Csvw.Props
