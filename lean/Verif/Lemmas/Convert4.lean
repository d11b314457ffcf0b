import Verif.Lemmas.Convert3
/-!
# Lemmas on converting tables: the rows of files
-/

namespace Csvw.Props
open Csvw Csvw.Py Csvw.Spec Csvw.Db Csvw.Table

theorem newKeys_nodup {ks l : List Str} (h : ks.Nodup) : (newKeys ks l).Nodup := by
  induction l generalizing ks with
  | nil => exact h
  | cons a r ih =>
    refine ih ?_
    unfold newKey
    split
    · exact h
    · rename_i hn
      exact List.nodup_append.2 ⟨h, by simp, by rintro x hx y hy rfl; simp only [List.mem_singleton] at hy; subst hy; exact hn hx⟩

/-- The rows of a file. -/
structure FileRows (ext : Ext) (t : Table) (rows : List RowDict) : Prop where
  nodup : ∀ row ∈ rows, (Dict.keys row).Nodup
  present : ∀ row ∈ rows, ∀ c ∈ t.ccols, c.col.header ∈ Dict.keys row
  same : SameKeys rows
  cells : ∀ row ∈ rows, ∀ c ∈ t.ccols, ∀ v, Dict.get c.col.header row = some v →
    (∃ s, c.read ext s = .ok v) ∨ (v = .one .none ∧ c.col.props.required.truthy = false)

section
variable {ext : Ext} {x : MExt} {t : Table}

theorem virtualCols_nil (h : ∀ c ∈ t.schema.columns, c.virtual = false) : t.virtualCols = [] := by
  unfold virtualCols
  rw [List.filterMap_eq_nil_iff]
  intro c hc
  simp [h c hc]

theorem virtualLast_of (h : ∀ c ∈ t.schema.columns, c.virtual = false) : VirtualLast t.schema.columns :=
  ⟨t.schema.columns, [], by simp, h, by simp⟩

theorem file_rows (hvirt : ∀ c ∈ t.schema.columns, c.virtual = false) (hn : (t.schema.columns.map Column.header).Nodup) {text : Str}
    (h : Aligned t text) : FileRows ext t ((t.iterdicts ext x true false text).rows.map Prod.snd) := by
  have hlast := virtualLast_of hvirt
  have hv := virtualCols_nil hvirt
  have hstep : ∀ row ∈ (t.iterdicts ext x true false text).rows.map Prod.snd, ∃ header l r b w, matchCols t true header = .ok l ∧
      missingCols t (indexed l) = false ∧ rowStep ext x t true false (indexed l) r = .ok (row, b, w) := by
    obtain ⟨pre, rows, err, h1, h2, h3, h4⟩ := h
    rw [iterdicts_eq h1, iterEvents_pre h2]
    intro row hrow
    obtain ⟨⟨n, d⟩, hd, rfl⟩ := List.mem_map.1 hrow
    obtain ⟨hs, r, w, _, h5, l, h6, h7⟩ := mem_iterBody hd
    rw [h7 (indexed_ne_nil h6 h3)] at h5
    refine ⟨_, l, r, _, w, h6, ?_, h5⟩
    unfold iterBody at hd
    rw [h6] at hd
    simp only at hd
    split at hd
    · simp at hd
    · rename_i hm
      simpa using hm
  refine ⟨?_, ?_, aligned_keys h hlast, ?_⟩
  · intro row hrow
    obtain ⟨_, _, _, _, _, _, _, h3⟩ := hstep row hrow
    rw [keys_rowStep h3]
    exact newKeys_nodup (newKeys_nodup (newKeys_nodup List.nodup_nil))
  · intro row hrow c hc
    obtain ⟨⟨n, d⟩, hd, rfl⟩ := List.mem_map.1 hrow
    obtain ⟨c', hc', rfl⟩ := List.mem_map.1 hc
    exact C35_keys true false text hd hc' (hvirt c' hc')
  · intro row hrow c hc v hg
    obtain ⟨_, _, _, _, _, h1, h2, h3⟩ := hstep row hrow
    exact row_cells hlast hn hv h1 h2 h3 hc hg

end

theorem get_ownItems (s : TableSpec) (row : RowDict) (k : Str) :
    Dict.get k (ownItems s row) = if Dict.has k s.manyToMany then none else Dict.get k row := by
  unfold ownItems
  induction row with
  | nil => simp [Dict.get]
  | cons p r ih =>
    by_cases hp : Dict.has p.1 s.manyToMany = true
    · rw [List.filter_cons_of_neg (by simp [hp]), ih]
      split
      · rfl
      · rename_i hk
        have : p.1 ≠ k := by rintro rfl; exact hk hp
        obtain ⟨k', v⟩ := p
        simp only [Dict.get]
        rw [if_neg this]
    · rw [List.filter_cons_of_pos (by simpa using hp)]
      obtain ⟨k', v⟩ := p
      simp only [Dict.get]
      rw [ih]
      by_cases he : k' = k
      · subst he
        simp only at hp
        simp [hp]
      · simp [he]

theorem keys_own (s : TableSpec) (row : RowDict) : Dict.keys (ownItems s row) = (Dict.keys row).filter fun k => !Dict.has k s.manyToMany := by
  unfold ownItems Dict.keys
  rw [List.filter_map]
  rfl

section
variable {ext : Ext} {g : TableGroup} {items : List (Str × List RowDict)} {t : Table} {s : TableSpec} {rows : List RowDict}

/-- The value of a column of a row. -/
theorem cell_valid (hf : FileRows ext t rows) (hr : ∀ row ∈ rows, ∀ p ∈ row, ∀ w, p.2 = .one w → Safe w) {row : RowDict} (hrow : row ∈ rows) {c : CCol}
    (hc : c ∈ t.ccols) (hcc : ColumnConvertible c) {cs : ColSpec} (hs : SameColumn c cs) {v : CVal} (hv : Dict.get c.col.header row = some v) :
    CellValid ext cs v := by
  rcases hf.cells row hrow c hc v hv with ⟨z, hz⟩ | ⟨rfl, hreq⟩
  · exact read_valid hs hcc hz fun w hw => hr row hrow _ (Dict.get_mem hv) w hw
  · refine .inl ⟨rfl, ?_⟩
    rw [hs.required]
    cases h : c.required with
    | false => rfl
    | true => rw [hcc.required h] at hreq; cases hreq

/-- The value of a column without separator. -/
theorem key_value (hg : TableConvertible g t) (hf : FileRows ext t rows) (hr : ∀ row ∈ rows, ∀ p ∈ row, ∀ w, p.2 = .one w → Safe w)
    (h : fromTable t drop = .ok s)
    {row : RowDict} (hrow : row ∈ rows) {c : CCol} (hc : c ∈ t.ccols) (hs : c.separator = .ok none) :
    ∃ w, Dict.get c.col.header row = some (.one w) ∧ (w = .none ∨ ValueOf (columnBase c) w) := by
  obtain ⟨cs, _, hsame⟩ := same_of_col h hc (plain_own (nodup_headers hg.headers.1) h hc hs)
  have hsep : cs.separator = none := by
    have := hsame.separator
    rw [hs] at this
    exact (Except.ok.inj this).symm
  cases hv : Dict.get c.col.header row with
  | none => rw [Dict.get_eq_none_iff] at hv; exact absurd (hf.present row hrow c hc) hv
  | some v =>
    rcases cell_valid hf hr hrow hc (hg.columns c hc) hsame hv with ⟨rfl, _⟩ | ⟨_, w, rfl, _⟩ | ⟨h1, _⟩
    · exact ⟨_, rfl, .inl rfl⟩
    · rename_i hw
      exact ⟨w, rfl, .inr (by rw [← show cs.base = columnBase c from hsame.base]; exact hw.1)⟩
    · exact absurd hsep h1

theorem rows_valid (hg : TableConvertible g t) (hf : FileRows ext t rows) (hr : RowsConvertible ext g items t rows)
    (h : fromTable t drop = .ok s) : RowsValid ext s (rows.map (ownItems s)) := by
  have hn := nodup_headers hg.headers.1
  refine ⟨?_, ?_, ?_, ?_⟩
  · intro row' hrow'
    obtain ⟨row, hrow, rfl⟩ := List.mem_map.1 hrow'
    rw [keys_own]
    refine ⟨?_, (hf.nodup row hrow).filter _, ?_, ?_⟩
    · obtain ⟨c, hc, hs⟩ := hg.stored
      exact List.ne_nil_of_mem (List.mem_filter.2 ⟨hf.present row hrow c hc, by simp [plain_own hn h hc hs]⟩)
    · intro k hk
      obtain ⟨h1, h2⟩ := List.mem_filter.1 hk
      obtain ⟨c, hc, rfl⟩ := hr.described row hrow k h1
      obtain ⟨cs, h3, h4⟩ := same_of_col (c := ⟨c, t.parents⟩) h (List.mem_map.2 ⟨c, hc, rfl⟩) (by simpa using h2)
      exact ⟨cs, h3, h4.name⟩
    · intro row2 hrow2
      obtain ⟨row3, hrow3, rfl⟩ := List.mem_map.1 hrow2
      rw [keys_own, hf.same row3 hrow3 row hrow]
  · intro row' hrow' cs hcs v hv
    obtain ⟨row, hrow, rfl⟩ := List.mem_map.1 hrow'
    obtain ⟨c, hc, hsame, hh⟩ := same_of_spec h hcs
    rw [hsame.name, get_ownItems, hh] at hv
    exact cell_valid hf hr.safe hrow hc (hg.columns c hc) hsame hv
  · intro row' hrow' cs hcs _
    obtain ⟨row, hrow, rfl⟩ := List.mem_map.1 hrow'
    obtain ⟨c, hc, hsame, hh⟩ := same_of_spec h hcs
    rw [keys_own, hsame.name]
    exact List.mem_filter.2 ⟨hf.present row hrow c hc, by simp [hh]⟩
  · intro pk hpk hne
    rw [(C48_columns h).2.1] at hpk
    obtain ⟨h1, h2⟩ := hr.key pk hpk hne
    have hkey : ∀ k ∈ pk, ∃ c, KeyColumn t k c := fun k hk => hg.key k (by rw [hpk]; exact hk)
    have hown : ∀ k ∈ pk, ∀ row, Dict.get k (ownItems s row) = Dict.get k row := by
      intro k hk row
      obtain ⟨c, hc, rfl, hs, _⟩ := hkey k hk
      rw [get_ownItems, plain_own hn h hc hs]
      rfl
    constructor
    · intro row' hrow' k hk
      obtain ⟨row, hrow, rfl⟩ := List.mem_map.1 hrow'
      rw [hown k hk]
      have h3 := h1 row hrow k hk
      obtain ⟨c, hc, rfl, hs, _⟩ := hkey k hk
      obtain ⟨w, hw, _⟩ := key_value hg hf hr.safe h hrow hc hs
      exact ⟨w, by rintro rfl; exact h3 hw, hw⟩
    · rw [List.pairwise_map]
      refine h2.imp ?_
      rintro row row' ⟨k, hk, hd⟩
      exact ⟨k, hk, by rw [hown k hk, hown k hk]; exact hd⟩

end
end Csvw.Props
