import Verif.Props.C35_C38
/-!
# C36: the order of the columns in the data file
-/

namespace Csvw.Props
open Csvw.Spec Csvw.Table

/-- The cells of a row in another order: the new row's cells are the cells number `is[0]`, `is[1]`, … of the row. -/
def reorder (is : List Nat) (row : List Str) : List Str := is.map fun i => row[i]?.getD []

/-- Two dicts with the same keys and values, regardless of order. -/
def SameDict (a b : RowDict) : Prop := ∀ k, Dict.get k a = Dict.get k b

/-- The key under which a cell with header `h` appears in the rows read: the header of the column which `h` denotes, or `h`. -/
def keyOf (t : Table) (h : Str) : Str :=
  match t.schema.getColumn h with
  | .ok (some c) => c.header
  | _ => h

/-- The column which a header cell denotes. -/
def colFor (t : Table) (h : Str) : Option CCol :=
  match t.schema.getColumn h with
  | .ok (some c) => some ⟨c, t.parents⟩
  | _ => none

section
variable {ext : Ext} {x : MExt} {t : Table}

theorem getColumn_header (hn : (t.schema.columns.map Column.header).Nodup) {c : Column} (hc : c ∈ t.schema.columns) :
    t.schema.getColumn c.header = .ok (some c) := by
  have hk : Dict.keys (t.schema.columns.map fun c => (c.header, c)) = t.schema.columns.map Column.header := by
    unfold Dict.keys; rw [List.map_map]; rfl
  have : Dict.get c.header t.schema.columndict = some c := by
    unfold Schema.columndict
    rw [Dict.ofPairs_of_nodup (by rw [hk]; exact hn)]
    exact Dict.get_of_mem_nodup (by rw [hk]; exact hn) (List.mem_map.2 ⟨c, hc, rfl⟩)
  unfold Schema.getColumn
  rw [this]

theorem lookupCols_iff {header : List Str} {l : List (Str × Option CCol)} :
    lookupCols t header = .ok l ↔
      (∀ h ∈ header, ∃ o, t.schema.getColumn h = .ok o) ∧ l = header.map fun h => (h, colFor t h) := by
  induction header generalizing l with
  | nil => simp [lookupCols, eq_comm]
  | cons a r ih =>
    unfold lookupCols
    constructor
    · intro h
      split at h
      · simp at h
      · rename_i o ho
        split at h
        · simp at h
        · rename_i cs hcs
          cases h
          obtain ⟨h1, h2⟩ := ih.1 hcs
          refine ⟨?_, ?_⟩
          · intro b hb
            rcases List.mem_cons.1 hb with rfl | hb
            · exact ⟨o, ho⟩
            · exact h1 b hb
          · rw [List.map_cons, ← h2]
            congr 2
            unfold colFor
            rw [ho]
            cases o <;> rfl
    · rintro ⟨h1, rfl⟩
      obtain ⟨o, ho⟩ := h1 a (List.mem_cons_self ..)
      rw [ho, ih.2 ⟨fun b hb => h1 b (List.mem_cons_of_mem _ hb), rfl⟩]
      simp only [List.map_cons, colFor, ho]
      cases o <;> rfl

theorem mem_dataCols {c : CCol} (h : c ∈ t.dataCols) : c.col ∈ t.schema.columns ∧ c = ⟨c.col, t.parents⟩ ∧ c.col.virtual = false := by
  unfold dataCols ccols at h
  obtain ⟨h1, h2⟩ := List.mem_filter.1 h
  obtain ⟨d, hd, rfl⟩ := List.mem_map.1 h1
  exact ⟨hd, rfl, by simpa using h2⟩

/-- The columns of the cells do not depend on whether they are found by position or by name. -/
theorem matchCols_iff (hlast : VirtualLast t.schema.columns) (hn : (t.schema.columns.map Column.header).Nodup)
    {header : List Str} {l : List (Str × Option CCol)} :
    matchCols t true header = .ok l ↔
      (∀ h ∈ header, ∃ o, t.schema.getColumn h = .ok o) ∧ l = header.map fun h => (h, colFor t h) := by
  by_cases hc : header = t.colnames
  · subst hc
    rw [matchCols_colnames hlast]
    have hcol : ∀ c ∈ t.dataCols, t.schema.getColumn c.col.header = .ok (some c.col) := by
      intro c hc
      exact getColumn_header hn (mem_dataCols hc).1
    have hmap : (t.dataCols.map fun c => (c.col.header, some c)) = t.colnames.map fun h => (h, colFor t h) := by
      unfold colnames
      rw [List.map_map]
      apply List.map_congr_left
      intro c hc
      simp only [Function.comp, colFor, hcol c hc, Prod.mk.injEq, true_and, Option.some.injEq]
      exact (mem_dataCols hc).2.1
    rw [hmap]
    constructor
    · intro h
      cases h
      refine ⟨?_, rfl⟩
      intro h hh
      unfold colnames at hh
      obtain ⟨c, hc, rfl⟩ := List.mem_map.1 hh
      exact ⟨_, hcol c hc⟩
    · rintro ⟨_, rfl⟩; rfl
  · unfold matchCols
    rw [if_neg (by simp [hc]), if_neg (by simp)]
    exact lookupCols_iff

/-! ## Permutations -/

theorem reorder_perm {is : List Nat} {header row : List Str} (his : is.Perm (List.range header.length))
    (hlen : row.length = header.length) {α : Type} (f : Str → α) :
    (((reorder is header).map f).zip (reorder is row)).Perm ((header.map f).zip row) := by
  have h1 : ∀ r : List Str, r = (List.range r.length).map fun i => r[i]?.getD [] := by
    intro r
    apply List.ext_getElem
    · simp
    · intro i h1 h2; simp [h1]
  unfold reorder
  rw [List.map_map]
  have h2 : (is.map (f ∘ fun i => header[i]?.getD [])).zip (is.map fun i => row[i]?.getD []) =
      is.map fun i => (f (header[i]?.getD []), row[i]?.getD []) := by
    clear his
    induction is with
    | nil => rfl
    | cons a r ih => simp only [List.map_cons, List.zip_cons_cons, ih]; rfl
  have h3 : (header.map f).zip row =
      (List.range header.length).map fun i => (f (header[i]?.getD []), row[i]?.getD []) := by
    apply List.ext_getElem
    · simp [hlen]
    · intro i h1 h2
      simp only [List.length_zip, List.length_map] at h1
      rw [List.getElem_zip]
      simp [show i < header.length by omega, show i < row.length by omega]
  rw [h2, h3]
  exact his.map _

theorem reorder_mem {is : List Nat} {header : List Str} (his : is.Perm (List.range header.length)) :
    (reorder is header).Perm header := by
  have h1 : header = (List.range header.length).map fun i => header[i]?.getD [] := by
    apply List.ext_getElem
    · simp
    · intro i h1 h2; simp [h1]
  unfold reorder
  conv => rhs; rw [h1]
  exact his.map _

theorem reorder_length {is : List Nat} {row : List Str} {n : Nat} (his : is.Perm (List.range n)) :
    (reorder is row).length = n := by
  unfold reorder
  rw [List.length_map, his.length_eq, List.length_range]

/-- Forgetting the positions. -/
def noPos (p : HCol × Str) : HCol × Str := (⟨0, p.1.key, p.1.col⟩, p.2)

theorem pairStep_noPos {log : Bool} (p : HCol × Str) : pairStep ext log (noPos p) = pairStep ext log p := rfl

theorem pairSteps_noPos {log : Bool} (ps : List (HCol × Str)) : pairSteps ext log (ps.map noPos) = pairSteps ext log ps := by
  induction ps with
  | nil => rfl
  | cons p r ih => simp only [List.map_cons, pairSteps, pairStep_noPos, ih]

theorem indexed_zip_noPos (l : List (Str × Option CCol)) (row : List Str) :
    ((indexed l).zip row).map noPos = (l.zip row).map fun p => (⟨0, p.1.1, p.1.2⟩, p.2) := by
  apply List.ext_getElem
  · simp [indexed]
  · intro i h1 h2
    simp [indexed, noPos]

theorem pairSteps_perm {log : Bool} {ps qs : List (HCol × Str)} (h : ps.Perm qs) {os : List (Option (Str × CVal))}
    (ho : pairSteps ext log ps = .ok os) : ∃ os', pairSteps ext log qs = .ok os' ∧ os.Perm os' := by
  induction h generalizing os with
  | nil => exact ⟨os, ho, .refl _⟩
  | @cons p as bs h ih =>
    unfold pairSteps at ho ⊢
    split at ho
    · simp at ho
    · rename_i o hp
      split at ho
      · simp at ho
      · rename_i os1 hos1
        cases ho
        obtain ⟨os', h1, h2⟩ := ih hos1
        rw [h1]
        exact ⟨_, rfl, h2.cons _⟩
  | @swap p q as =>
    unfold pairSteps at ho
    split at ho
    · simp at ho
    · rename_i o hp
      split at ho
      · simp at ho
      · rename_i os1 hos1
        cases ho
        unfold pairSteps at hos1
        split at hos1
        · simp at hos1
        · rename_i o' hp'
          split at hos1
          · simp at hos1
          · rename_i os2 hos2
            cases hos1
            refine ⟨o' :: o :: os2, ?_, List.Perm.swap ..⟩
            unfold pairSteps
            rw [hp']
            unfold pairSteps
            rw [hp, hos2]
  | trans _ _ ih1 ih2 =>
    obtain ⟨o1, h1, p1⟩ := ih1 ho
    obtain ⟨o2, h2, p2⟩ := ih2 h1
    exact ⟨o2, h2, p1.trans p2⟩

theorem get_perm {d e : List (Str × CVal)} (hp : d.Perm e) (hn : (Dict.keys d).Nodup) (k : Str) : Dict.get k d = Dict.get k e := by
  have hn' : (Dict.keys e).Nodup := (hp.map Prod.fst).nodup_iff.1 hn
  cases h : Dict.get k d with
  | some v => exact (Dict.get_of_mem_nodup hn' (hp.mem_iff.1 (Dict.get_mem h))).symm
  | none =>
    rw [Dict.get_eq_none_iff] at h
    refine ((Dict.get_eq_none_iff _ _).2 fun h' => h ?_).symm
    exact (hp.map Prod.fst).mem_iff.2 h'

/-- The keys of the cells are those of the headers. -/
theorem pairSteps_keys {log : Bool} {header row : List Str} {os : List (Option (Str × CVal))}
    (h : pairSteps ext log (((header.map fun h => (h, colFor t h)).zip row).map fun p => (⟨0, p.1.1, p.1.2⟩, p.2)) = .ok os) :
    ((os.filterMap id).map Prod.fst).Sublist (header.map (keyOf t)) := by
  induction header generalizing row os with
  | nil => cases h; simp
  | cons a r ih =>
    cases row with
    | nil => simp [pairSteps] at h; subst h; simp
    | cons v row =>
      simp only [List.map_cons, List.zip_cons_cons, pairSteps] at h
      split at h
      · simp at h
      · rename_i o ho
        split at h
        · simp at h
        · rename_i os' hos'
          cases h
          have hsub := ih hos'
          cases o with
          | none => simpa using hsub.cons _
          | some q =>
            simp only [List.filterMap_cons, id, List.map_cons]
            have : q.1 = keyOf t a := by
              unfold pairStep colFor at ho
              unfold keyOf
              cases hg : t.schema.getColumn a with
              | error e => rw [hg] at ho; simp at ho; rw [← ho]
              | ok oc =>
                rw [hg] at ho
                cases oc with
                | none => simp at ho; rw [← ho]
                | some c =>
                  simp only at ho ⊢
                  split at ho
                  · cases ho; rfl
                  · split at ho <;> simp at ho
                  · simp at ho
            rw [this]
            exact hsub.cons₂ _

theorem SameDict.addMissing {a b : RowDict} (h : SameDict a b) (names : List Str) :
    SameDict (Table.addMissing a names) (Table.addMissing b names) := by
  intro k
  rw [get_addMissing, get_addMissing, h k]

theorem SameDict.addVirtual {a b : RowDict} (h : SameDict a b) (vs : List (Str × PVal)) :
    (∃ e e', Table.addVirtual x a vs = .error e ∧ Table.addVirtual x b vs = .error e') ∨
    ∃ d d', Table.addVirtual x a vs = .ok d ∧ Table.addVirtual x b vs = .ok d' ∧ SameDict d d' := by
  induction vs generalizing a b with
  | nil => exact .inr ⟨a, b, rfl, rfl, h⟩
  | cons p r ih =>
    obtain ⟨k, w⟩ := p
    cases w with
    | tmpl u =>
      simp only [Table.addVirtual]
      have hf : (fun n => Dict.get n a) = fun n => Dict.get n b := by funext n; exact h n
      rw [hf]
      cases x.expand u fun n => Dict.get n b with
      | error e => exact .inl ⟨e, e, rfl, rfl⟩
      | ok s =>
        refine ih ?_
        intro k'
        rw [Dict.get_set, Dict.get_set, h k']
    | json j => exact .inl ⟨_, _, rfl, rfl⟩
    | invalid => exact .inl ⟨_, _, rfl, rfl⟩
    | dtype d => exact .inl ⟨_, _, rfl, rfl⟩

/-- The outcome of a row for two arrangements. -/
def SameOutcome (a b : Res (RowDict × Bool × Bool)) : Prop :=
  (∃ e e', a = .error e ∧ b = .error e') ∨
  ∃ d d' bad w w', a = .ok (d, bad, w) ∧ b = .ok (d', bad, w') ∧ SameDict d d'

theorem rowStep_full_eq {log : Bool} {l : List (Str × Option CCol)} {row : List Str} (hlen : l.length ≤ row.length) :
    rowStep ext x t true log (indexed l) row =
      match pairSteps ext log ((l.zip row).map fun p => (⟨0, p.1.1, p.1.2⟩, p.2)) with
      | .error e => .error e
      | .ok os => match addVirtual x (addMissing (Dict.update [] (os.filterMap id)) t.colnames) t.virtualCols with
        | .error e => .error e
        | .ok d => .ok (d, os.any Option.isNone, ((indexed l).zip row).any (cellWarns ext)) := by
  unfold rowStep
  rw [cellLoop_strict, ← indexed_zip_noPos, pairSteps_noPos]
  cases pairSteps ext log ((indexed l).zip row) with
  | error e => rfl
  | ok os =>
    simp only [Except.map]
    rw [requiredKeys_all_seen (by rw [indexed_length]; exact hlen)]
    simp only [checkRequired, List.any_nil, Bool.false_eq_true, if_false, Bool.false_or]
    cases addVirtual x (addMissing (Dict.update [] (os.filterMap id)) t.colnames) t.virtualCols <;> rfl

theorem rowStep_reorder {log : Bool} {is : List Nat} {header row : List Str} (his : is.Perm (List.range header.length))
    (hlen : row.length = header.length) (hdist : (header.map (keyOf t)).Nodup) :
    SameOutcome (rowStep ext x t true log (indexed (header.map fun h => (h, colFor t h))) row)
      (rowStep ext x t true log (indexed ((reorder is header).map fun h => (h, colFor t h))) (reorder is row)) := by
  rw [rowStep_full_eq (by simp [hlen]), rowStep_full_eq (by simp [reorder])]
  have hperm := (reorder_perm his hlen (fun h => (h, colFor t h))).map fun p => ((⟨0, p.1.1, p.1.2⟩, p.2) : HCol × Str)
  cases hp : pairSteps ext log (((header.map fun h => (h, colFor t h)).zip row).map fun p => (⟨0, p.1.1, p.1.2⟩, p.2)) with
  | error e =>
    cases hp' : pairSteps ext log
        ((((reorder is header).map fun h => (h, colFor t h)).zip (reorder is row)).map fun p => (⟨0, p.1.1, p.1.2⟩, p.2)) with
    | error e' => exact .inl ⟨e, e', rfl, rfl⟩
    | ok os' =>
      obtain ⟨os, h1, _⟩ := pairSteps_perm hperm hp'
      rw [h1] at hp; simp at hp
  | ok os =>
    obtain ⟨os', h1, h2⟩ := pairSteps_perm hperm.symm hp
    rw [h1]
    simp only
    have hsame : SameDict (Dict.update [] (os.filterMap id)) (Dict.update [] (os'.filterMap id)) := by
      have hk := pairSteps_keys hp
      have hn : (Dict.keys (os.filterMap id)).Nodup := hk.nodup hdist
      have hpf : (os.filterMap id).Perm (os'.filterMap id) := h2.filterMap _
      have hn' : (Dict.keys (os'.filterMap id)).Nodup := (hpf.map Prod.fst).nodup_iff.1 hn
      intro k
      have e1 : Dict.update [] (os.filterMap id) = os.filterMap id := Dict.ofPairs_of_nodup hn
      have e2 : Dict.update [] (os'.filterMap id) = os'.filterMap id := Dict.ofPairs_of_nodup hn'
      rw [e1, e2]
      exact get_perm hpf hn k
    have hany : os.any Option.isNone = os'.any Option.isNone := by
      rw [Bool.eq_iff_iff, List.any_eq_true, List.any_eq_true]
      constructor
      · rintro ⟨o, ho, h⟩; exact ⟨o, h2.mem_iff.1 ho, h⟩
      · rintro ⟨o, ho, h⟩; exact ⟨o, h2.mem_iff.2 ho, h⟩
    rcases SameDict.addVirtual (x := x) (SameDict.addMissing hsame t.colnames) t.virtualCols with
      ⟨e, e', he, he'⟩ | ⟨d, d', hd, hd', hs⟩
    · rw [he, he']; exact .inl ⟨e, e', rfl, rfl⟩
    · rw [hd, hd']; exact .inr ⟨d, d', _, _, _, rfl, by rw [hany], hs⟩

theorem iterRows_reorder {log : Bool} {err : Option PyErr} {hs hs' : List HCol} (hne : hs ≠ []) (hne' : hs' ≠ [])
    {f : List Str → List Str} {rows : List (Int × List Str)}
    (h : ∀ r ∈ rows, SameOutcome (rowStep ext x t true log hs r.2) (rowStep ext x t true log hs' (f r.2))) :
    All2 (fun p q => p.1 = q.1 ∧ SameDict p.2 q.2) (iterRows ext x t true log err hs rows).rows
      (iterRows ext x t true log err hs' (rows.map fun r => (r.1, f r.2))).rows ∧
    ((iterRows ext x t true log err hs rows).err = none ↔
      (iterRows ext x t true log err hs' (rows.map fun r => (r.1, f r.2))).err = none) := by
  induction rows with
  | nil => exact ⟨.nil, .rfl⟩
  | cons p r ih =>
    obtain ⟨n, row⟩ := p
    obtain ⟨ih1, ih2⟩ := ih fun r hr => h r (List.mem_cons_of_mem _ hr)
    rw [List.map_cons]
    unfold iterRows
    rw [rowCols_of_ne hne, rowCols_of_ne hne']
    rcases h _ (List.mem_cons_self ..) with ⟨e, e', h1, h2⟩ | ⟨d, d', bad, w, w', h1, h2, h3⟩
    · simp only at h1 h2
      rw [h1, h2]
      exact ⟨.nil, by simp⟩
    · simp only at h1 h2
      rw [h1, h2]
      refine ⟨?_, ih2⟩
      cases bad with
      | true => exact ih1
      | false => exact .cons ⟨rfl, h3⟩ ih1

theorem missingCols_perm {l l' : List (Str × Option CCol)} (h : l.Perm l') :
    missingCols t (indexed l) = missingCols t (indexed l') := by
  have key : ∀ l : List (Str × Option CCol), ∀ k, ((indexed l).any fun e => hasHeader e.col k) = l.any fun e => hasHeader e.2 k := by
    intro l k
    unfold indexed
    generalize hj : (fun (j : Nat) (p : Str × Option CCol) => (⟨j, p.1, p.2⟩ : HCol)) = g
    have hg : ∀ j p, (g j p).col = p.2 := by intro j p; rw [← hj]
    clear hj
    induction l generalizing g with
    | nil => rfl
    | cons a r ih =>
      rw [List.mapIdx_cons, List.any_cons, List.any_cons, hg, ih (fun i => g (i + 1)) (fun j p => hg (j + 1) p)]
  unfold missingCols
  congr 1
  funext k
  rw [key, key]
  congr 1
  rw [Bool.eq_iff_iff, List.any_eq_true, List.any_eq_true]
  constructor
  · rintro ⟨o, ho, hh⟩; exact ⟨o, h.mem_iff.1 ho, hh⟩
  · rintro ⟨o, ho, hh⟩; exact ⟨o, h.mem_iff.2 ho, hh⟩

/-- **C36** The order of the columns in a data file with header row does not matter. If the header cells and the cells of all
rows are arranged in another order, then the same rows are read (same line numbers, same values for all keys), and the file is
read without exception exactly if this was so before; with or without log.

The schema's columns have different headers, the header cells denote different columns, and every row has a cell for each of
them. -/
theorem C36_order (log : Bool) {is : List Nat} {n : Int} {header : List Str} {rows : List (Int × List Str)} {err : Option PyErr}
    (hd : t.getDialect.header = true) (hlast : VirtualLast t.schema.columns)
    (hn : (t.schema.columns.map Column.header).Nodup) (hdist : (header.map (keyOf t)).Nodup) (hne : header ≠ [])
    (his : is.Perm (List.range header.length)) (hlen : ∀ r ∈ rows, r.2.length = header.length) :
    All2 (fun p q => p.1 = q.1 ∧ SameDict p.2 q.2)
      (iterEvents ext x t true log ((n, header) :: rows) err).rows
      (iterEvents ext x t true log ((n, reorder is header) :: rows.map fun r => (r.1, reorder is r.2)) err).rows ∧
    ((iterEvents ext x t true log ((n, header) :: rows) err).err = none ↔
      (iterEvents ext x t true log ((n, reorder is header) :: rows.map fun r => (r.1, reorder is r.2)) err).err = none) := by
  have e1 := iterEvents_pre (ext := ext) (x := x) (t := t) (log := log) (pre := [(n, header)]) (rows := rows) (err := err)
    (by simp [hd])
  have e2 := iterEvents_pre (ext := ext) (x := x) (t := t) (log := log) (pre := [(n, reorder is header)])
    (rows := rows.map fun r => (r.1, reorder is r.2)) (err := err) (by simp [hd])
  simp only [List.cons_append, List.nil_append, headerOf, hd, if_true, List.head?_cons, Option.map_some, Option.getD_some] at e1 e2
  rw [e1, e2]
  have hrp := reorder_mem his
  unfold iterBody
  by_cases hok : ∀ h ∈ header, ∃ o, t.schema.getColumn h = .ok o
  · rw [(matchCols_iff hlast hn).2 ⟨hok, rfl⟩,
      (matchCols_iff hlast hn).2 ⟨fun h hh => hok h (hrp.mem_iff.1 hh), rfl⟩]
    simp only
    rw [missingCols_perm (hrp.map fun h => (h, colFor t h))]
    split
    · exact ⟨.nil, by simp⟩
    · have hne1 : indexed (header.map fun h => (h, colFor t h)) ≠ [] := by
        intro h0
        have := indexed_length (header.map fun h => (h, colFor t h))
        rw [h0] at this
        simp at this
        exact hne (List.length_eq_zero_iff.1 this.symm)
      have hne2 : indexed ((reorder is header).map fun h => (h, colFor t h)) ≠ [] := by
        intro h0
        have := indexed_length ((reorder is header).map fun h => (h, colFor t h))
        rw [h0] at this
        simp [reorder_length his] at this
        exact hne (List.length_eq_zero_iff.1 this.symm)
      exact iterRows_reorder hne1 hne2 fun r hr => rowStep_reorder his (hlen r hr) hdist
  · have h1 : ∀ l, matchCols t true header ≠ .ok l := fun l hl => hok ((matchCols_iff hlast hn).1 hl).1
    have h2 : ∀ l, matchCols t true (reorder is header) ≠ .ok l := fun l hl =>
      hok fun h hh => ((matchCols_iff hlast hn).1 hl).1 h (hrp.mem_iff.2 hh)
    cases hm1 : matchCols t true header with
    | ok l => exact absurd hm1 (h1 l)
    | error e =>
      cases hm2 : matchCols t true (reorder is header) with
      | ok l => exact absurd hm2 (h2 l)
      | error e' => exact ⟨.nil, by simp⟩

/-- Two columns, `a` (integer) and `b`, the latter with a title. -/
def abTable : Table :=
  { schema := { columns := [{ name := some ['a'], props := { datatype := .dtype { base := .integer } }, number := 1 },
      { name := some ['b'], titles := some [(none, ["B title".toList])], number := 2 }] },
    url := "t.csv".toList }

/-- Non-vacuity: swapping the columns of a file with headers `a` and `B title`. -/
example (ext : Ext) (x : MExt) :
    VirtualLast abTable.schema.columns ∧ (abTable.schema.columns.map Column.header).Nodup ∧
    (["a".toList, "B title".toList].map (keyOf abTable)).Nodup ∧ [1, 0].Perm (List.range 2) ∧
    (iterEvents ext x abTable true false [(1, ["a".toList, "B title".toList]), (2, ["7".toList, "x".toList])] none).rows =
      [(2, [(['a'], .one (.int 7)), (['b'], .one (.str ['x']))])] ∧
    (iterEvents ext x abTable true false
      [(1, reorder [1, 0] ["a".toList, "B title".toList]), (2, reorder [1, 0] ["7".toList, "x".toList])] none).rows =
      [(2, [(['b'], .one (.str ['x'])), (['a'], .one (.int 7))])] :=
  ⟨⟨_, [], (List.append_nil _).symm, by decide, by simp⟩, by decide, by decide, by decide, rfl, rfl⟩

/-- The hypothesis on rows is needed: without a value for the last column, exchanging columns loses another value. (Rows are
read up to their length; the missing value of the first arrangement is that of `b`, of the second that of `a`.) -/
theorem C36_short_rows (ext : Ext) (x : MExt) :
    (iterEvents ext x abTable true false [(1, ["a".toList, "b".toList]), (2, ["7".toList])] none).rows =
      [(2, [(['a'], .one (.int 7)), (['b'], .one .none)])] ∧
    (iterEvents ext x abTable true false [(1, ["b".toList, "a".toList]), (2, ["7".toList])] none).rows =
      [(2, [(['b'], .one (.str ['7'])), (['a'], .one .none)])] :=
  ⟨rfl, rfl⟩

/-! ### Non-strict mode -/

/-- The loop over the cells treats the pending required columns independently of all else. -/
theorem cellLoop_required {strict log : Bool} {hs : List HCol} : ∀ {row : List Str} (st : RowSt) (R : List Str),
    (∀ h ∈ hs, h.col.isSome) → cellLoop ext strict log { st with required := R } hs row =
      (cellLoop ext strict log { st with required := [] } hs row).map fun s =>
        { s with required := R.filter fun k => !((hs.take row.length).map HCol.key).contains k } := by
  induction hs with
  | nil =>
    intro row st R _
    simp [cellLoop, Except.map]
    exact (List.filter_eq_self.2 (by simp)).symm
  | cons h hs ih =>
    intro row st R hall
    cases row with
    | nil => simp [cellLoop, Except.map]; exact (List.filter_eq_self.2 (by simp)).symm
    | cons v vs =>
      obtain ⟨c, hc⟩ := Option.isSome_iff_exists.1 (hall h (by simp))
      have hs' : ∀ h ∈ hs, h.col.isSome := fun h hh => hall h (List.mem_cons_of_mem _ hh)
      have key : ∀ R, cellStep ext strict log { st with required := R } h v =
          (cellStep ext strict log { st with required := [] } h v).map fun s => { s with required := R.filter (· ≠ h.key) } := by
        intro R
        unfold cellStep
        rw [hc]
        simp only
        cases (if strict then (c.read ext v, false) else c.readLax ext v) with
        | mk r b =>
          unfold storeCell
          cases r with
          | ok w => simp [Except.map]
          | error e =>
            cases e <;> cases strict <;> cases log <;> simp [Except.map, logOrRaise]
      simp only [cellLoop]
      rw [key R]
      cases hst : cellStep ext strict log { st with required := [] } h v with
      | error e => rfl
      | ok s =>
        have hreq : s.required = [] := by
          have := key []
          rw [hst] at this
          simp only [Except.map, Except.ok.injEq, List.filter_nil] at this
          rw [this]
        have hs0 : s = { s with required := [] } := by rw [← hreq]
        simp only [Except.map]
        rw [ih s _ hs', ← hs0]
        cases cellLoop ext strict log s hs vs with
        | error e => rfl
        | ok u =>
          simp only [Except.map, List.length_cons, List.take_succ_cons, List.map_cons, List.filter_filter]
          congr 2
          apply List.filter_congr
          intro k _
          by_cases hk : k = h.key <;> simp [hk]

theorem cellLoop_keys {strict log : Bool} {hs hs' : List HCol} (h : hs.map HCol.col = hs'.map HCol.col) (hall : ∀ h ∈ hs, h.col.isSome) :
    ∀ {row : List Str} (st : RowSt), cellLoop ext strict log { st with required := [] } hs row = cellLoop ext strict log { st with required := [] } hs' row := by
  induction hs generalizing hs' with
  | nil =>
    cases hs' with
    | nil => intro _ _; rfl
    | cons => simp at h
  | cons a l ih =>
    cases hs' with
    | nil => simp at h
    | cons b m =>
      simp only [List.map_cons, List.cons.injEq] at h
      intro row st
      cases row with
      | nil => rfl
      | cons v vs =>
        obtain ⟨c, hc⟩ := Option.isSome_iff_exists.1 (hall a (by simp))
        have hcb : b.col = some c := by rw [← h.1]; exact hc
        have hreq : ∀ (h : HCol), h.col = some c → ∀ s, cellStep ext strict log { st with required := [] } h v = .ok s → s.required = [] := by
          intro h hc s hs
          unfold cellStep at hs
          rw [hc] at hs
          simp only at hs
          split at hs
          · cases hs
          · next st' hst =>
            have : st'.required = [] := by
              cases hr : (if strict then (c.read ext v, false) else c.readLax ext v) with
              | mk r b =>
                rw [hr] at hst
                unfold storeCell logOrRaise at hst
                repeat' split at hst
                all_goals first | (cases hst; done) | (cases hst; rfl)
            cases hs; simp [this]
        have e : cellStep ext strict log { st with required := [] } a v = cellStep ext strict log { st with required := [] } b v := by
          have hm : ∀ (h : HCol), h.col = some c → cellStep ext strict log { st with required := [] } h v =
              match storeCell strict log { st with required := [] } c v (if strict then (c.read ext v, false) else c.readLax ext v) with
              | .error e => .error e
              | .ok st' => .ok { st' with required := [], warned := st'.warned || c.readWarns ext v } := by
            intro h hh
            have := hreq h hh
            unfold cellStep at this ⊢
            rw [hh] at this ⊢
            simp only at this ⊢
            generalize storeCell strict log _ c v _ = R at this ⊢
            cases R with
            | error e => rfl
            | ok st' =>
              have := this _ rfl
              simp only at this ⊢
              rw [this]
          rw [hm a hc, hm b hcb]
        simp only [cellLoop]
        rw [← e]
        cases hst : cellStep ext strict log { st with required := [] } a v with
        | error e => rfl
        | ok s =>
          have h0 := hreq a hc s hst
          have hs0 : s = { s with required := [] } := by rw [← h0]
          simp only
          rw [hs0]
          exact ih h.2 (fun h hh => hall h (List.mem_cons_of_mem _ hh)) s

theorem rowStep_keys {strict log : Bool} {hs hs' : List HCol} (h : hs.map HCol.col = hs'.map HCol.col) (hall : ∀ h ∈ hs, h.col.isSome) {row : List Str}
    (hlen : hs.length ≤ row.length) : rowStep ext x t strict log hs row = rowStep ext x t strict log hs' row := by
  have hl : hs.length = hs'.length := by simpa using congrArg List.length h
  have hall' : ∀ h ∈ hs', h.col.isSome := by
    intro b hb
    have : b.col ∈ hs.map HCol.col := h ▸ List.mem_map_of_mem hb
    obtain ⟨a, ha, hab⟩ := List.mem_map.1 this
    rw [← hab]; exact hall a ha
  have none : ∀ hs : List HCol, hs.length ≤ row.length →
      ((requiredKeys hs).filter fun k => !((hs.take row.length).map HCol.key).contains k) = [] := by
    intro hs hlen
    rw [List.take_of_length_le hlen, List.filter_eq_nil_iff]
    intro k hk
    unfold requiredKeys at hk
    obtain ⟨h, hh, rfl⟩ := List.mem_map.1 hk
    have : ((hs.map HCol.key).contains h.key) = true := by
      simp only [List.contains_iff_mem]; exact List.mem_map_of_mem (List.mem_filter.1 hh).1
    rw [this]; simp
  unfold rowStep
  rw [cellLoop_required {} (requiredKeys hs) hall, cellLoop_required {} (requiredKeys hs') hall', none hs hlen, none hs' (hl ▸ hlen),
    cellLoop_keys h hall]

/-- **C36** (non-strict mode) In non-strict mode, for a table with columns, the cells of the header row play no role: with any other header
row of the same length the same rows are read, with the same exception. (Every row has a cell for each header cell.) -/
theorem C36_nonstrict (log : Bool) {n : Int} {header header' : List Str} {rows : List (Int × List Str)} {err : Option PyErr}
    (hd : t.getDialect.header = true) (hc : t.ccols ≠ []) (hne : header ≠ []) (hl : header'.length = header.length)
    (hlen : ∀ r ∈ rows, header.length ≤ r.2.length) :
    (iterEvents ext x t false log ((n, header) :: rows) err).rows = (iterEvents ext x t false log ((n, header') :: rows) err).rows ∧
    (iterEvents ext x t false log ((n, header) :: rows) err).err = (iterEvents ext x t false log ((n, header') :: rows) err).err := by
  have hm : ∀ header : List Str, ∃ l, matchCols t false header = .ok l ∧ l.length ≤ header.length ∧ (header ≠ [] → l ≠ []) ∧
      (∀ p ∈ l, p.2.isSome) ∧ l.map Prod.snd = if header.length ≤ t.ccols.length then (t.ccols.map some).take header.length else
        (List.range header.length).map fun i => some (t.ccols[i]?.getD (freshCol i)) := by
    intro header
    by_cases h1 : header.length ≤ t.ccols.length
    · refine ⟨header.zip (t.ccols.map some), by unfold matchCols; rw [if_pos (.inr ⟨h1, rfl⟩)], by simp; omega, ?_, ?_, ?_⟩
      · intro hne h
        have := congrArg List.length h
        simp at this
        rcases this with h | h
        · exact hne h
        · exact hc h
      · intro p hp
        have := (List.of_mem_zip hp).2
        obtain ⟨c, _, hc⟩ := List.mem_map.1 this
        rw [← hc]; rfl
      · rw [if_pos h1]
        apply List.ext_getElem
        · simp
        · intro i h2 h3; simp
    · have hcn : header ≠ t.colnames := by
        intro h
        apply h1
        rw [h]; simp only [colnames, dataCols, List.length_map]; exact List.length_filter_le ..
      refine ⟨_, by unfold matchCols; rw [if_neg (by simp [h1, hcn]), if_pos ⟨rfl, hc⟩], by simp, ?_, ?_, ?_⟩
      · intro hne h
        have := congrArg List.length h
        simp at this
        exact hne this
      · intro p hp
        obtain ⟨i, hi, he⟩ := List.mem_mapIdx.1 hp
        rw [← he]
        split <;> rfl
      · rw [if_neg h1]
        apply List.ext_getElem
        · simp
        · intro i h2 h3
          simp only [List.getElem_map, List.getElem_mapIdx, List.getElem_range]
          cases t.ccols[i]? <;> rfl
  obtain ⟨l, e1, l1, n1, a1, m1⟩ := hm header
  obtain ⟨l', e2, l2, n2, a2, m2⟩ := hm header'
  have hmap : l.map Prod.snd = l'.map Prod.snd := by rw [m1, m2, hl]
  have hlen' : l.length = l'.length := by simpa using congrArg List.length hmap
  have hix : ∀ l : List (Str × Option CCol), (indexed l).map HCol.col = l.map Prod.snd := by
    intro l
    apply List.ext_getElem <;> simp [indexed]
  have hcol : (indexed l).map HCol.col = (indexed l').map HCol.col := by rw [hix, hix, hmap]
  have hall : ∀ h ∈ indexed l, h.col.isSome := by
    intro h hh
    have : h.col ∈ l.map Prod.snd := hix l ▸ List.mem_map_of_mem hh
    obtain ⟨p, hp, he⟩ := List.mem_map.1 this
    rw [← he]; exact a1 p hp
  have hil : ∀ l : List (Str × Option CCol), (indexed l).length = l.length := by intro l; simp [indexed]
  have hne1 : indexed l ≠ [] := by
    intro h; exact n1 hne (List.eq_nil_of_length_eq_zero (by rw [← hil, h]; rfl))
  have hne2 : indexed l' ≠ [] := by
    intro h
    have : l'.length = 0 := by rw [← hil, h]; rfl
    exact n1 hne (List.eq_nil_of_length_eq_zero (by omega))
  have hmiss : missingCols t (indexed l) = missingCols t (indexed l') := by
    have : ∀ hs : List HCol, missingCols t hs = t.requiredCols.any fun h => !(hs.map HCol.col).any fun c => hasHeader c h := by
      intro hs; unfold missingCols; simp [List.any_map, Function.comp_def]
    rw [this, this, hcol]
  have hrows : ∀ rows : List (Int × List Str), (∀ r ∈ rows, header.length ≤ r.2.length) →
      iterRows ext x t false log err (indexed l) rows = iterRows ext x t false log err (indexed l') rows := by
    intro rows
    induction rows with
    | nil => intro _; rfl
    | cons r rows ih =>
      intro hr
      obtain ⟨k, row⟩ := r
      have h0 := hr (k, row) (by simp)
      simp only at h0
      have ih := ih fun r h => hr r (List.mem_cons_of_mem _ h)
      unfold iterRows
      rw [rowCols_of_ne hne1, rowCols_of_ne hne2, rowStep_keys (x := x) (t := t) hcol hall (by rw [hil]; omega), ih]
  unfold iterEvents
  simp only [hd, if_true, iterBody, e1, e2, hmiss]
  split
  · exact ⟨rfl, rfl⟩
  · rw [hrows rows hlen]; exact ⟨rfl, rfl⟩

/-- **C36 does not hold** in non-strict mode, where columns are identified by position: exchanging `a` and `b` exchanges their
values. -/
theorem C36_violated_nonstrict (ext : Ext) (x : MExt) :
    (iterEvents ext x abTable false false [(1, ["a".toList, "b".toList]), (2, ["7".toList, "8".toList])] none).rows =
      [(2, [(['a'], .one (.int 7)), (['b'], .one (.str ['8']))])] ∧
    (iterEvents ext x abTable false false [(1, ["b".toList, "a".toList]), (2, ["8".toList, "7".toList])] none).rows =
      [(2, [(['a'], .one (.int 8)), (['b'], .one (.str ['7']))])] :=
  ⟨rfl, rfl⟩

end
end Csvw.Props
