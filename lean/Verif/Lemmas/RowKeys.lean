import Verif.Lemmas.Table
import Verif.Props.C34
/-!
# The keys of the rows which are read in strict mode, in order
-/

namespace Csvw.Table

/-- Adding a key to those of a dict. -/
def newKey (ks : List Str) (k : Str) : List Str := if k ∈ ks then ks else ks ++ [k]

/-- The keys which are in the dict after keys were set one after the other. -/
def newKeys (ks l : List Str) : List Str := l.foldl newKey ks

theorem mem_newKey {ks : List Str} {k k' : Str} : k' ∈ newKey ks k ↔ k' ∈ ks ∨ k' = k := by
  unfold newKey
  split
  · constructor
    · exact .inl
    · rintro (h | rfl)
      · exact h
      · assumption
  · simp

theorem mem_newKeys {ks l : List Str} {k : Str} : k ∈ newKeys ks l ↔ k ∈ ks ∨ k ∈ l := by
  induction l generalizing ks with
  | nil => simp [newKeys]
  | cons a r ih =>
    show k ∈ newKeys (newKey ks a) r ↔ _
    rw [ih, mem_newKey, List.mem_cons, or_assoc]

theorem newKeys_append (ks l l' : List Str) : newKeys ks (l ++ l') = newKeys (newKeys ks l) l' := List.foldl_append ..

/-- Keys which are there already change nothing. -/
theorem newKeys_of_subset {ks l : List Str} (h : ∀ k ∈ l, k ∈ ks) : newKeys ks l = ks := by
  induction l with
  | nil => rfl
  | cons a r ih =>
    show newKeys (newKey ks a) r = ks
    rw [show newKey ks a = ks from if_pos (h a (List.mem_cons_self ..)), ih fun k hk => h k (List.mem_cons_of_mem _ hk)]

theorem newKeys_prefix {ks pre l : List Str} (h : pre <+: l) : newKeys (newKeys ks pre) l = newKeys ks l := by
  obtain ⟨r, rfl⟩ := h
  rw [newKeys_append, newKeys_append, newKeys_of_subset (l := pre) fun k hk => mem_newKeys.2 (.inr hk)]

theorem keys_set_new (k : Str) (v : CVal) (d : RowDict) : Dict.keys (Dict.set k v d) = newKey (Dict.keys d) k := by
  rw [Dict.keys_set]
  unfold newKey
  by_cases h : k ∈ Dict.keys d <;> simp [h]

theorem keys_update (d ps : RowDict) : Dict.keys (Dict.update d ps) = newKeys (Dict.keys d) (ps.map Prod.fst) := by
  induction ps generalizing d with
  | nil => rfl
  | cons p r ih =>
    show Dict.keys (Dict.update (Dict.set p.1 p.2 d) r) = newKeys (newKey (Dict.keys d) p.1) _
    rw [ih, keys_set_new]

theorem keys_addMissing (d : RowDict) (names : List Str) : Dict.keys (addMissing d names) = newKeys (Dict.keys d) names := by
  induction names generalizing d with
  | nil => rfl
  | cons k r ih =>
    show Dict.keys (addMissing (Dict.setdefault k (.one .none) d) r) = newKeys (newKey (Dict.keys d) k) r
    rw [ih]
    congr 1
    unfold Dict.setdefault newKey
    by_cases h : k ∈ Dict.keys d
    · rw [if_pos h, if_pos ((Dict.has_iff_mem_keys k d).2 h)]
    · rw [if_neg h, if_neg (fun hh => h ((Dict.has_iff_mem_keys k d).1 hh))]
      simp [Dict.keys]

theorem keys_addVirtual {x : MExt} {d d' : RowDict} {vs : List (Str × PVal)} (h : addVirtual x d vs = .ok d') :
    Dict.keys d' = newKeys (Dict.keys d) (vs.map Prod.fst) := by
  induction vs generalizing d with
  | nil => cases h; rfl
  | cons p r ih =>
    obtain ⟨k, v⟩ := p
    cases v with
    | tmpl t =>
      simp only [addVirtual] at h
      split at h
      · simp at h
      · rw [ih h, keys_set_new]; rfl
    | json j => simp [addVirtual] at h
    | dtype d => simp [addVirtual] at h
    | invalid => simp [addVirtual] at h

/-- The key under which the value of a cell is stored. -/
def cellKey (h : HCol) : Str :=
  match h.col with
  | some c => c.col.header
  | none => h.key

theorem pairSteps_keys {ext : Ext} {ps : List (HCol × Str)} {os : List (Option (Str × CVal))} (h : pairSteps ext false ps = .ok os) :
    (os.filterMap id).map Prod.fst = ps.map fun p => cellKey p.1 := by
  induction ps generalizing os with
  | nil => cases h; rfl
  | cons p r ih =>
    unfold pairSteps at h
    split at h
    · simp at h
    · rename_i o ho
      split at h
      · simp at h
      · rename_i os' hos
        cases h
        unfold pairStep at ho
        have hk : ∃ v, o = some (cellKey p.1, v) := by
          unfold cellKey
          split at ho
          · rename_i hc
            cases ho; rw [hc]; exact ⟨_, rfl⟩
          · rename_i c hc
            rw [hc]
            split at ho
            · cases ho; exact ⟨_, rfl⟩
            · simp at ho
            · simp at ho
        obtain ⟨v, rfl⟩ := hk
        simp [ih hos]

/-- The keys of a row. -/
theorem keys_rowStep {ext : Ext} {x : MExt} {t : Table} {hs : List HCol} {row : List Str} {d : RowDict} {b w : Bool}
    (h : rowStep ext x t true false hs row = .ok (d, b, w)) :
    Dict.keys d = newKeys (newKeys (newKeys [] ((hs.zip row).map fun p => cellKey p.1)) t.colnames) (t.virtualCols.map Prod.fst) := by
  obtain ⟨st, st', h1, h2, h3, h4, h5, h6⟩ := rowStep_ok h
  rw [keys_addVirtual h4, keys_addMissing]
  rw [cellLoop_strict] at h1
  cases hp : pairSteps ext false (hs.zip row) with
  | error e => rw [hp] at h1; simp [Except.map] at h1
  | ok os =>
    rw [hp] at h1
    simp only [Except.map, Except.ok.injEq] at h1
    rw [← h1]
    simp only
    rw [keys_update, pairSteps_keys hp]
    rfl

theorem zip_keys_full {hs : List HCol} {row : List Str} (h : hs.length ≤ row.length) :
    (hs.zip row).map (fun p => cellKey p.1) = hs.map cellKey := by
  rw [show (hs.zip row).map (fun p => cellKey p.1) = ((hs.zip row).map Prod.fst).map cellKey by rw [List.map_map]; rfl,
    List.map_fst_zip h]

theorem zip_keys_prefix {hs : List HCol} {row : List Str} :
    (hs.zip row).map (fun p => cellKey p.1) <+: hs.map cellKey := by
  induction hs generalizing row with
  | nil => simp
  | cons a r ih =>
    cases row with
    | nil => simp
    | cons v vs => rw [List.zip_cons_cons, List.map_cons, List.map_cons]; exact List.prefix_cons_inj _ |>.2 ih

/-- If the header consists of the names of the columns, the cells belong to them. -/
theorem cellKeys_colnames {t : Table} {l : List (Str × Option CCol)} (hv : Props.VirtualLast t.schema.columns)
    (h : matchCols t true t.colnames = .ok l) : (indexed l).map cellKey = t.colnames := by
  unfold matchCols at h
  rw [if_pos (.inl rfl)] at h
  cases h
  obtain ⟨data, virt, he, hd, hvirt⟩ := hv
  have hc : t.ccols = (data.map fun c => (⟨c, t.parents⟩ : CCol)) ++ virt.map fun c => ⟨c, t.parents⟩ := by
    unfold ccols; rw [he, List.map_append]
  have hdc : t.dataCols = data.map fun c => (⟨c, t.parents⟩ : CCol) := by
    unfold dataCols
    rw [hc, List.filter_append, List.filter_eq_self.2, List.filter_eq_nil_iff.2, List.append_nil]
    · intro a ha
      obtain ⟨c, hc, rfl⟩ := List.mem_map.1 ha
      simp [hvirt c hc]
    · intro a ha
      obtain ⟨c, hc, rfl⟩ := List.mem_map.1 ha
      simp [hd c hc]
  have hlen : t.colnames.length = data.length := by unfold colnames; rw [hdc]; simp
  apply List.ext_getElem
  · simp only [List.length_map, indexed_length, List.length_zip]
    rw [Nat.min_eq_left (colnames_length_le t)]
  · intro i h1 h2
    have hi : i < data.length := hlen ▸ h2
    simp only [List.getElem_map, indexed, List.getElem_mapIdx, cellKey, List.getElem_zip]
    unfold colnames
    simp only [hc, hdc, List.getElem_map]
    rw [List.getElem_append_left (by simpa using hi)]
    simp

end Csvw.Table
