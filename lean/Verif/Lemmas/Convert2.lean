import Verif.Lemmas.Convert
import Verif.Props.C81
import Verif.Props.C36
/-!
# Lemmas on converting tables: the cells of rows
-/

namespace Csvw.Props
open Csvw Csvw.Py Csvw.Spec Csvw.Db Csvw.Table

section
variable {ext : Ext} {x : MExt} {t : Table}

theorem pairSteps_all {log : Bool} {ps : List (HCol × Str)} {os : List (Option (Str × CVal))} (h : pairSteps ext log ps = .ok os)
    {p : HCol × Str} (hp : p ∈ ps) : ∃ o ∈ os, pairStep ext log p = .ok o := by
  induction ps generalizing os with
  | nil => simp at hp
  | cons a r ih =>
    unfold pairSteps at h
    split at h
    · simp at h
    · rename_i o ho
      split at h
      · simp at h
      · rename_i os' hos
        cases h
        rcases List.mem_cons.1 hp with rfl | hp
        · exact ⟨o, by simp, ho⟩
        · obtain ⟨o', h1, h2⟩ := ih hos hp
          exact ⟨o', List.mem_cons_of_mem _ h1, h2⟩

theorem zip_mem_left {l : List α} {m : List β} {p : α × β} (h : p ∈ l.zip m) : p.1 ∈ l := by
  obtain ⟨a, b⟩ := p
  exact (List.of_mem_zip h).1

theorem search_mem {name : Str} {l : List Column} {c : Column} (h : Schema.search name l = .ok (some c)) : c ∈ l := by
  induction l with
  | nil => simp [Schema.search] at h
  | cons a r ih =>
    unfold Schema.search at h
    split at h
    · cases h; simp
    · split at h
      · split at h
        · cases h; simp
        · exact List.mem_cons_of_mem _ (ih h)
      · simp at h
      · exact List.mem_cons_of_mem _ (ih h)

theorem getColumn_mem {name : Str} {c : Column} (h : t.schema.getColumn name = .ok (some c)) : c ∈ t.schema.columns := by
  unfold Schema.getColumn at h
  split at h
  · rename_i c' hc'
    cases h
    unfold Schema.columndict Dict.ofPairs at hc'
    rw [Dict.get_update] at hc'
    simp only [Dict.get, Option.or_none] at hc'
    have := List.mem_reverse.1 (Dict.get_mem hc')
    obtain ⟨d, hd, he⟩ := List.mem_map.1 this
    cases he
    exact hd
  · exact search_mem h

theorem indexed_col (hlast : VirtualLast t.schema.columns) (hn : (t.schema.columns.map Column.header).Nodup) {header : List Str}
    {l : List (Str × Option CCol)} (hm : matchCols t true header = .ok l) {e : HCol} (he : e ∈ indexed l) : e.col = colFor t e.key := by
  obtain ⟨i, hi, rfl⟩ := List.mem_iff_getElem.1 he
  simp only [indexed, List.getElem_mapIdx]
  have := (matchCols_iff hlast hn).1 hm
  obtain ⟨_, rfl⟩ := this
  simp

theorem colFor_header (hn : (t.schema.columns.map Column.header).Nodup) {c : CCol} (hc : c ∈ t.ccols) : colFor t c.col.header = some c := by
  unfold ccols at hc
  obtain ⟨d, hd, rfl⟩ := List.mem_map.1 hc
  unfold colFor
  rw [getColumn_header hn hd]

/-- The value of a column is read from a cell, or missing, and then the column is not marked as required. -/
theorem row_cells (hlast : VirtualLast t.schema.columns) (hn : (t.schema.columns.map Column.header).Nodup) (hvirt : t.virtualCols = [])
    {header : List Str} {l : List (Str × Option CCol)} (hm : matchCols t true header = .ok l) (hmiss : missingCols t (indexed l) = false)
    {row : List Str} {d : RowDict} {b w : Bool} (h : rowStep ext x t true false (indexed l) row = .ok (d, b, w))
    {c : CCol} (hc : c ∈ t.ccols) {v : CVal} (hg : Dict.get c.col.header d = some v) :
    (∃ s, c.read ext s = .ok v) ∨ (v = .one .none ∧ c.col.props.required.truthy = false) := by
  have hcf := colFor_header hn hc
  obtain ⟨st, st', h1, h2, h3, h4, _, _⟩ := rowStep_ok h
  rw [hvirt] at h4
  simp only [addVirtual, Except.ok.injEq] at h4
  subst h4
  rw [get_addMissing] at hg
  rw [cellLoop_strict] at h1
  obtain ⟨os, hos, hst⟩ := (Except.map_eq_ok).1 h1
  have hpair : ∀ p ∈ (indexed l).zip row, p.1.col = some c → ∃ q, some q ∈ os ∧ q.1 = c.col.header := by
    intro p hp hpc
    obtain ⟨o, ho, hpo⟩ := pairSteps_all hos hp
    unfold pairStep at hpo
    rw [hpc] at hpo
    simp only at hpo
    split at hpo
    · cases hpo; exact ⟨_, ho, rfl⟩
    · simp at hpo
    · cases hpo
  have hres : st.res = Dict.update [] (os.filterMap id) := by rw [← hst]
  have hstored : ∀ k u, Dict.get k st.res = some u → ∃ p ∈ (indexed l).zip row, pairStep ext false p = .ok (some (k, u)) := by
    intro k u hu
    rw [hres, Dict.get_update] at hu
    simp only [Dict.get, Option.or_none] at hu
    have hmem := Dict.get_mem hu
    rw [List.mem_reverse, List.mem_filterMap] at hmem
    obtain ⟨o, ho, ho'⟩ := hmem
    simp only [id] at ho'
    subst ho'
    exact pairSteps_mem hos ho
  have hread : ∀ u, Dict.get c.col.header st.res = some u → ∃ s, c.read ext s = .ok u := by
    intro u hu
    obtain ⟨p, hp, hpp⟩ := hstored _ _ hu
    have hcol := indexed_col hlast hn hm (zip_mem_left hp)
    unfold pairStep at hpp
    cases hpc : p.1.col with
    | none =>
      rw [hpc] at hpp
      simp only [Except.ok.injEq, Option.some.injEq, Prod.mk.injEq] at hpp
      rw [hpp.1, hcf, hpc] at hcol
      cases hcol
    | some c' =>
      rw [hpc] at hpp
      simp only at hpp
      have hmem' : c' ∈ t.ccols := by
        rw [hpc] at hcol
        unfold colFor at hcol
        split at hcol
        · rename_i d' hd'
          cases hcol
          exact List.mem_map.2 ⟨d', getColumn_mem hd', rfl⟩
        · cases hcol
      split at hpp
      · rename_i w' hw'
        simp only [Except.ok.injEq, Option.some.injEq, Prod.mk.injEq] at hpp
        have := colFor_header hn hmem'
        rw [hpp.1, hcf] at this
        cases this
        exact ⟨p.2, by rw [hw', hpp.2]⟩
      · simp at hpp
      · cases hpp
  cases hgr : Dict.get c.col.header st.res with
  | some u =>
    rw [hgr] at hg
    simp only [Option.some_or, Option.some.injEq] at hg
    subst hg
    exact .inl (hread _ hgr)
  | none =>
    rw [hgr] at hg
    simp only [Option.none_or] at hg
    split at hg
    · cases hg
      refine .inr ⟨rfl, ?_⟩
      cases hr : c.col.props.required.truthy with
      | false => rfl
      | true =>
        exfalso
        have hcm : c.col ∈ t.schema.columns := by
          unfold ccols at hc
          obtain ⟨d, hd, rfl⟩ := List.mem_map.1 hc
          exact hd
        -- the header has the column
        have hreq : c.col.header ∈ t.requiredCols := List.mem_map.2 ⟨c.col, List.mem_filter.2 ⟨hcm, hr⟩, rfl⟩
        unfold missingCols at hmiss
        rw [List.any_eq_false] at hmiss
        have := hmiss _ hreq
        simp only [Bool.not_eq_true, Bool.not_eq_false', List.any_eq_true] at this
        obtain ⟨e, he, heh⟩ := this
        have hecol := indexed_col hlast hn hm he
        have hec : e.col = some c := by
          cases hec : e.col with
          | none => rw [hec] at heh; simp [hasHeader] at heh
          | some c' =>
            rw [hec] at heh
            simp only [hasHeader, decide_eq_true_eq] at heh
            have hmem' : c' ∈ t.ccols := by
              rw [hec] at hecol
              unfold colFor at hecol
              split at hecol
              · rename_i d' hd'
                cases hecol
                exact List.mem_map.2 ⟨d', getColumn_mem hd', rfl⟩
              · cases hecol
            have := colFor_header hn hmem'
            rw [heh, hcf] at this
            rw [← this]
        have hrk : e.key ∈ requiredKeys (indexed l) := by
          unfold requiredKeys
          refine List.mem_map.2 ⟨e, List.mem_filter.2 ⟨he, ?_⟩, rfl⟩
          rw [hec]; exact hr
        have hnone : ∀ p ∈ (indexed l).zip row, p.1.col ≠ some c := by
          intro p hp hpc
          obtain ⟨q, hq, hq1⟩ := hpair p hp hpc
          have : c.col.header ∈ Dict.keys st.res := by
            rw [hres]
            have e1 : Dict.update [] (os.filterMap id) = Dict.ofPairs (os.filterMap id) := rfl
            rw [e1, Dict.mem_keys_ofPairs]
            exact List.mem_map.2 ⟨q, List.mem_filterMap.2 ⟨some q, hq, rfl⟩, hq1⟩
          rw [Dict.get_eq_none_iff] at hgr
          exact hgr this
        have hns : seen ((indexed l).zip row) e.key = false := by
          unfold seen
          rw [List.any_eq_false]
          intro p hp hh
          simp only [Bool.and_eq_true, decide_eq_true_eq] at hh
          refine hnone p hp ?_
          rw [indexed_col hlast hn hm (zip_mem_left hp), hh.2, ← hecol, hec]
        have hin : e.key ∈ st.required := by
          rw [← hst]
          exact List.mem_filter.2 ⟨hrk, by rw [hns]; rfl⟩
        unfold checkRequired at h2
        split at h2
        · simp [logOrRaise] at h2
        · rename_i hany
          simp only [Bool.not_eq_true, List.any_eq_false] at hany
          have := hany _ hin
          replace this : Dict.has e.key st.res = true := by simpa using this
          rw [Dict.has_iff_mem_keys] at this
          cases hgk : Dict.get e.key st.res with
          | none => rw [Dict.get_eq_none_iff] at hgk; exact hgk this
          | some u =>
            obtain ⟨p, hp, hpp⟩ := hstored _ _ hgk
            have hcol := indexed_col hlast hn hm (zip_mem_left hp)
            unfold pairStep at hpp
            cases hpc : p.1.col with
            | none =>
              rw [hpc] at hpp
              simp only [Except.ok.injEq, Option.some.injEq, Prod.mk.injEq] at hpp
              rw [hpp.1, ← hecol, hec, hpc] at hcol
              cases hcol
            | some c' =>
              rw [hpc] at hpp
              simp only at hpp
              split at hpp
              · simp only [Except.ok.injEq, Option.some.injEq, Prod.mk.injEq] at hpp
                have hmem' : c' ∈ t.ccols := by
                  rw [hpc] at hcol
                  unfold colFor at hcol
                  split at hcol
                  · rename_i d' hd'
                    cases hcol
                    exact List.mem_map.2 ⟨d', getColumn_mem hd', rfl⟩
                  · cases hcol
                have := colFor_header hn hmem'
                rw [hpp.1, ← hecol, hec] at this
                rw [← Option.some.inj this] at hpc
                exact hnone p hp hpc
              · simp at hpp
              · cases hpp
    · cases hg

end
end Csvw.Props
