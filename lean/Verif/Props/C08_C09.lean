import Verif.Lemmas.Rewrite
import Verif.Py.ListAux
/-!
# C08–C09: dict rows

`readDicts cfg fieldnames restkey restval text` is `list(UnicodeDictReader(f, …))`; a Python dict is an association
list in insertion order (`Verif.Py.Dict`).
-/

namespace Csvw.Props
open Dsv CsvLib

theorem foldl_set_fresh {κ α : Type} [DecidableEq κ] (v : α) (ks : List κ) (d : List (κ × α))
    (hk : ks.Nodup) (hd : ∀ k ∈ ks, k ∉ Dict.keys d) :
    ks.foldl (fun d k => Dict.set k v d) d = d ++ ks.map (fun k => (k, v)) := by
  induction ks generalizing d with
  | nil => simp
  | cons k ks ih =>
    simp only [List.foldl_cons, List.map_cons]
    rw [Dict.set_eq_append_of_not_mem (hd k (by simp)), ih]
    · simp
    · exact (List.nodup_cons.1 hk).2
    · intro k' hk'
      simp only [Dict.keys, List.map_append, List.map_cons, List.map_nil, List.mem_append, List.mem_singleton,
        not_or]
      refine ⟨hd k' (by simp [hk']), ?_⟩
      rintro rfl
      exact (List.nodup_cons.1 hk).1 hk'

theorem foldl_set_some {α : Type} (v : α) (ks : List Str) (d : List (DKey × α)) :
    ks.foldl (fun d k => Dict.set (some k) v d) d = (ks.map some).foldl (fun d k => Dict.set k v d) d := by
  induction ks generalizing d with
  | nil => rfl
  | cons k ks ih => simp [ih]

/-- The dict of a row, explicitly, for pairwise different field names. -/
theorem dictItem_eq (fn : List Str) (rk : DKey) (rv : DVal) (row : Row) (hn : fn.Nodup) (hr : rk ∉ fn.map some) :
    dictItem fn rk rv row =
      (fn.zip row).map (fun p => (some p.1, DVal.cell p.2)) ++
      ((fn.drop row.length).map (fun k => (some k, rv)) ++
       if fn.length < row.length then [(rk, .rest (row.drop fn.length))] else []) := by
  have hkz : Dict.keys ((fn.zip row).map (fun p => ((some p.1 : DKey), DVal.cell p.2))) =
      (fn.take row.length).map some := by
    simp only [Dict.keys, List.map_map]
    have : (Prod.fst ∘ fun p : Str × Str => ((some p.1 : DKey), DVal.cell p.2)) = some ∘ Prod.fst := rfl
    rw [this, ← List.map_map, map_fst_zip_take]
  have hsn : (fn.map some).Nodup := nodup_map (fun a b h => by simpa using h) hn
  have hzn : ((fn.take row.length).map some : List DKey).Nodup :=
    nodup_map (fun a b h => by simpa using h) (hn.sublist (List.take_sublist _ _))
  have hof : Dict.ofPairs ((fn.zip row).map (fun p => ((some p.1 : DKey), DVal.cell p.2))) =
      (fn.zip row).map (fun p => (some p.1, DVal.cell p.2)) := Dict.ofPairs_of_nodup (by rw [hkz]; exact hzn)
  unfold dictItem
  simp only [hof]
  by_cases h1 : fn.length < row.length
  · have hdrop : fn.drop row.length = [] := List.drop_of_length_le (by omega)
    rw [if_pos h1, if_pos h1, Dict.set_eq_append_of_not_mem, hdrop]
    · simp
    · rw [hkz, List.take_of_length_le (by omega)]; exact hr
  · rw [if_neg h1, if_neg h1]
    by_cases h2 : row.length < fn.length
    · rw [if_pos h2, foldl_set_some, foldl_set_fresh]
      · simp [Function.comp_def]
      · exact nodup_map (fun a b h => by simpa using h) (hn.sublist (List.drop_sublist _ _))
      · intro k hk hk'
        rw [hkz] at hk'
        simp only [List.mem_map] at hk hk'
        obtain ⟨a, ha, rfl⟩ := hk
        obtain ⟨b, hb, hab⟩ := hk'
        simp only [Option.some.injEq] at hab
        subst hab
        have := List.take_append_drop row.length fn
        rw [← this] at hn
        exact (List.nodup_append.1 hn).2.2 b hb b ha rfl
    · rw [if_neg h2, List.drop_of_length_le (by omega)]
      simp

/-- **C08** Every field name is a key, cell `j` is the value of field name `j`, missing cells get `restval`, the
surplus cells go under `restkey` in order, and there are no other keys. (Field names pairwise different and different
from `restkey`.) -/
theorem C08_dict_row_complete (fn : List Str) (rk : DKey) (rv : DVal) (row : List Str) (hn : fn.Nodup)
    (hr : rk ∉ fn.map some) :
    (∀ (j : Nat) (hj : j < fn.length), Dict.get (some fn[j]) (dictItem fn rk rv row) =
        some (if h : j < row.length then .cell row[j] else rv)) ∧
    Dict.get rk (dictItem fn rk rv row) =
        (if fn.length < row.length then some (.rest (row.drop fn.length)) else none) ∧
    Dict.keys (dictItem fn rk rv row) = fn.map some ++ (if fn.length < row.length then [rk] else []) := by
  have hkeys : Dict.keys (dictItem fn rk rv row) = fn.map some ++ (if fn.length < row.length then [rk] else []) := by
    rw [dictItem_eq fn rk rv row hn hr]
    simp only [Dict.keys, List.map_append, List.map_map]
    have e1 : (Prod.fst ∘ fun p : Str × Str => ((some p.1 : DKey), DVal.cell p.2)) = some ∘ Prod.fst := rfl
    have e2 : (Prod.fst ∘ fun k : Str => ((some k : DKey), rv)) = some := rfl
    rw [e1, e2, ← List.map_map, map_fst_zip_take, ← List.append_assoc, ← List.map_append,
      List.take_append_drop]
    split <;> rfl
  have hnd : (Dict.keys (dictItem fn rk rv row)).Nodup := by
    rw [hkeys]
    have hsn : (fn.map some).Nodup := nodup_map (fun a b h => by simpa using h) hn
    split
    · rw [List.nodup_append]
      refine ⟨hsn, by simp, ?_⟩
      intro a ha b hb hab
      simp only [List.mem_singleton] at hb
      subst hab; subst hb; exact hr ha
    · simpa using hsn
  refine ⟨?_, ?_, hkeys⟩
  · intro j hj
    apply Dict.get_of_mem_nodup hnd
    rw [dictItem_eq fn rk rv row hn hr]
    by_cases h : j < row.length
    · rw [dif_pos h]
      apply List.mem_append_left
      refine List.mem_map.2 ⟨(fn[j], row[j]), ?_, rfl⟩
      rw [List.mem_iff_getElem]
      exact ⟨j, by simp; omega, by simp⟩
    · rw [dif_neg h]
      apply List.mem_append_right
      apply List.mem_append_left
      refine List.mem_map.2 ⟨fn[j], ?_, rfl⟩
      rw [List.mem_iff_getElem]
      exact ⟨j - row.length, by simp; omega, by simp; congr 1; omega⟩
  · split
    · next h =>
      apply Dict.get_of_mem_nodup hnd
      rw [dictItem_eq fn rk rv row hn hr, if_pos h]
      simp
    · next h =>
      rw [Dict.get_eq_none_iff, hkeys, if_neg h]
      simpa using hr

/-- **C08** Even with repeated field names every field name is a key. -/
theorem C08_all_fieldnames_are_keys (fn : List Str) (rk : DKey) (rv : DVal) (row : List Str) (k : Str) (hk : k ∈ fn) :
    some k ∈ Dict.keys (dictItem fn rk rv row) := by
  have hz : ∀ k ∈ fn.take row.length, some k ∈
      Dict.keys (Dict.ofPairs ((fn.zip row).map (fun p => ((some p.1 : DKey), DVal.cell p.2)))) := by
    intro k hk
    rw [Dict.mem_keys_ofPairs]
    simp only [Dict.keys, List.map_map]
    have : (Prod.fst ∘ fun p : Str × Str => ((some p.1 : DKey), DVal.cell p.2)) = some ∘ Prod.fst := rfl
    rw [this, ← List.map_map, map_fst_zip_take]
    exact List.mem_map.2 ⟨k, hk, rfl⟩
  unfold dictItem
  split
  · next h =>
    rw [Dict.mem_keys_set]
    exact .inr (hz k (by rw [List.take_of_length_le (by omega)]; exact hk))
  · split
    · next h =>
      have gen : ∀ (ks : List Str) (d : List (DKey × DVal)), (k ∈ ks ∨ some k ∈ Dict.keys d) →
          some k ∈ Dict.keys (ks.foldl (fun d k => Dict.set (some k) rv d) d) := by
        intro ks
        induction ks with
        | nil => intro d h; simpa using h
        | cons a ks ih =>
          intro d h
          simp only [List.foldl_cons]
          apply ih
          rw [Dict.mem_keys_set]
          rcases h with h | h
          · rcases List.mem_cons.1 h with rfl | h
            · exact .inr (.inl rfl)
            · exact .inl h
          · exact .inr (.inr h)
      apply gen
      rw [← List.take_append_drop row.length fn, List.mem_append] at hk
      rcases hk with hk | hk
      · exact .inr (hz k hk)
      · exact .inl hk
    · exact hz k (by rw [List.take_of_length_le (by omega)]; exact hk)

/-- **C08** The dicts of a file: one for each non-blank row after the header row (or for each non-blank row, if field
names were given), in order. -/
theorem C08_one_dict_per_nonblank_row (cfg : Cfg) (rk : DKey) (rv : DVal) (text : Str) :
    (∀ fn, (readDicts cfg (some fn) rk rv text).1 =
        ((readFile cfg text).1.filter (fun r => decide (r ≠ []))).map (dictItem fn rk rv)) ∧
    (∀ header rows, (readFile cfg text).1 = header :: rows → (readDicts cfg none rk rv text).1 =
        (rows.filter (fun r => decide (r ≠ []))).map (dictItem header rk rv)) ∧
    ((readFile cfg text).1 = [] → (readDicts cfg none rk rv text).1 = []) := by
  have e : ∀ l : List (List Str), l.filter (fun r => !r.isEmpty) = l.filter (fun r => decide (r ≠ [])) := by
    intro l; congr 1; funext r; cases r <;> simp
  refine ⟨fun fn => ?_, fun h rows hh => ?_, fun h => ?_⟩
  · simp only [readDicts, dictRows, e]
  · simp only [readDicts, hh, dictRows, e]
  · simp [readDicts, dictRows, h]

/-- Non-vacuity: short and long rows, a blank line. -/
example : (readDicts Cfg.default none none .none "a,b\r\n1,2,3,4\r\n\r\n5\r\n".toList).1 =
    [[(some ['a'], .cell ['1']), (some ['b'], .cell ['2']), (none, .rest [['3'], ['4']])],
     [(some ['a'], .cell ['5']), (some ['b'], .none)]] ∧ [['a'], ['b']].Nodup ∧
     (none : DKey) ∉ [['a'], ['b']].map some := by decide

/-! ## C09 -/

/-- Several calls of `writerows` on one writer. -/
def writeCalls (v : CsvVer) (cfg : Cfg) : WState → List (List WRow) → Res WState
  | s, [] => .ok s
  | s, c :: cs =>
    match writerows v cfg s c with
    | .error e => .error e
    | .ok s' => writeCalls v cfg s' cs

/-- The text of the sequence rows `rows`, appended to the state. -/
def appendRows (v : CsvVer) (cfg : Cfg) (s : WState) (rows : List (List Cell)) : Res WState :=
  writerowsFrom v cfg 0 s (rows.map .seq)

theorem writerowsFrom_append (v : CsvVer) (cfg : Cfg) (i : Nat) (s : WState) (a b : List (List Cell)) :
    writerowsFrom v cfg i s ((a ++ b).map .seq) =
      match writerowsFrom v cfg i s (a.map .seq) with
      | .error e => .error e
      | .ok s' => writerowsFrom v cfg 0 s' (b.map .seq) := by
  induction a generalizing i s with
  | nil =>
    simp only [List.nil_append, List.map_nil, writerowsFrom]
    rw [writerowsFrom_seq, writerowsFrom_seq]
  | cons r rs ih =>
    simp only [List.cons_append, List.map_cons, writerowsFrom]
    cases writerow v cfg s r with
    | error e => rfl
    | ok s' => simp only; exact ih _ _

/-- With a header already written, dict rows are written as their values. -/
theorem writerowsFrom_dicts (v : CsvVer) (cfg : Cfg) (i : Nat) (s : WState) (ds : List (List (Str × Cell)))
    (h : i ≠ 0 ∨ s.rowsWritten ≠ 0) :
    writerowsFrom v cfg i s (ds.map .dict) = writerowsFrom v cfg i s ((ds.map Dict.values).map .seq) := by
  induction ds generalizing i s with
  | nil => rfl
  | cons d ds ih =>
    simp only [List.map_cons, writerowsFrom]
    rw [if_neg (by omega)]
    simp only
    cases writerow v cfg s (Dict.values d) with
    | error e => rfl
    | ok s' => exact ih _ _ (.inl (by omega))

theorem writerow_rowsWritten {v : CsvVer} {cfg : Cfg} {s s' : WState} {r : List Cell}
    (h : writerow v cfg s r = .ok s') : s'.rowsWritten = s.rowsWritten + 1 := by
  unfold writerow at h
  split at h
  · simp at h
  · cases h; rfl

theorem writerows_dicts_first (v : CsvVer) (cfg : Cfg) (s : WState) (d : List (Str × Cell))
    (ds : List (List (Str × Cell))) (h : s.rowsWritten = 0) :
    writerows v cfg s ((d :: ds).map .dict) =
      appendRows v cfg s ((Dict.keys d).map some :: (d :: ds).map Dict.values) := by
  unfold writerows appendRows
  simp only [List.map_cons, writerowsFrom, h, and_self, if_true]
  cases h1 : writerow v cfg s ((Dict.keys d).map some) with
  | error e => rfl
  | ok s1 =>
    simp only
    cases h2 : writerow v cfg s1 (Dict.values d) with
    | error e => rfl
    | ok s2 =>
      simp only
      rw [writerowsFrom_dicts _ _ _ _ _ (.inl (by omega)), writerowsFrom_seq, writerowsFrom_seq]

theorem writeCalls_later (v : CsvVer) (cfg : Cfg) (calls : List (List (List (Str × Cell)))) (s : WState)
    (h : s.rowsWritten ≠ 0) :
    writeCalls v cfg s (calls.map (·.map .dict)) = appendRows v cfg s (calls.flatten.map Dict.values) := by
  induction calls generalizing s with
  | nil => rfl
  | cons c cs ih =>
    simp only [List.map_cons, writeCalls, writerows, List.flatten_cons, List.map_append]
    rw [writerowsFrom_dicts _ _ _ _ _ (.inr h)]
    unfold appendRows
    rw [writerowsFrom_append, writerowsFrom_seq]
    cases writeRows v cfg.fmt (((c.map Dict.values)).map (·.map (fun c => escapeDoubled cfg.fmt (cellText c)))) with
    | error e => rfl
    | ok t => simp only; exact ih _ (by simp; omega)

/-- **C09** Calling `writerows` any number of times with dict rows has the same effect as writing the header (keys of
the very first dict) once, followed by the values of all dicts, in order. -/
theorem C09_single_header (v : CsvVer) (cfg : Cfg) (calls : List (List (List (Str × Option Str))))
    (d : List (Str × Option Str)) (ds : List (List (Str × Option Str))) (hc : calls.flatten = d :: ds) :
    writeCalls v cfg {} (calls.map (·.map .dict)) =
      writerows v cfg {} (((d.map Prod.fst).map some :: (d :: ds).map (·.map Prod.snd)).map .seq) := by
  show _ = appendRows v cfg {} ((Dict.keys d).map some :: (d :: ds).map Dict.values)
  induction calls with
  | nil => simp at hc
  | cons c cs ih =>
    cases c with
    | nil =>
      simp only [List.map_cons, List.map_nil, writeCalls, writerows, writerowsFrom]
      exact ih (by simpa using hc)
    | cons d' ds' =>
      simp only [List.flatten_cons, List.cons_append, List.cons.injEq] at hc
      obtain ⟨rfl, rfl⟩ := hc
      simp only [List.map_cons (f := fun x : List (List (Str × Cell)) => x.map WRow.dict), writeCalls]
      rw [writerows_dicts_first _ _ _ _ _ rfl]
      have e : (Dict.keys d').map some :: (d' :: (ds' ++ cs.flatten)).map Dict.values =
          ((Dict.keys d').map some :: (d' :: ds').map Dict.values) ++ cs.flatten.map Dict.values := by simp
      rw [e]
      unfold appendRows
      rw [writerowsFrom_append]
      rw [writerowsFrom_seq]
      cases writeRows v cfg.fmt ((((Dict.keys d').map some :: (d' :: ds').map Dict.values)).map
          (·.map (fun c => escapeDoubled cfg.fmt (cellText c)))) with
      | error e => rfl
      | ok t => simp only; exact writeCalls_later _ _ _ _ (by simp)

theorem writerow_cellText (v : CsvVer) (cfg : Cfg) (s : WState) (r : List Cell) :
    writerow v cfg s ((r.map (·.getD [])).map some) = writerow v cfg s r := by
  simp [writerow, cellText, Function.comp_def]

theorem writerowsFrom_cellText (v : CsvVer) (cfg : Cfg) (i : Nat) (s : WState) (rows : List (List Cell)) :
    writerowsFrom v cfg i s ((rows.map (·.map (·.getD []))).map (fun r => WRow.seq (r.map some))) =
      writerowsFrom v cfg i s (rows.map .seq) := by
  induction rows generalizing i s with
  | nil => rfl
  | cons r rs ih =>
    simp only [List.map_cons, writerowsFrom, writerow_cellText]
    cases writerow v cfg s r with
    | error e => rfl
    | ok s' => exact ih _ _

/-- **C09** Whatever dicts were written (with as many entries as the first one; in any number of calls; `None` is written as
the empty string), `UnicodeDictReader` returns one dict for each, in order: the keys of the *first* dict with the values of
the dict, by position (default format). -/
theorem C09_read_back (v : CsvVer) (calls : List (List (List (Str × Option Str))))
    (d : List (Str × Option Str)) (ds : List (List (Str × Option Str))) (hc : calls.flatten = d :: ds)
    (hsame : ∀ d' ∈ ds, d'.length = d.length) (hne : d ≠ []) (hn : (d.map Prod.fst).Nodup)
    (hlen : (∀ p ∈ d, p.1.length ≤ 131072) ∧ ∀ d' ∈ d :: ds, ∀ p ∈ d', ∀ s, p.2 = some s → s.length ≤ 131072)
    (hb : ∀ s rest, d.map Prod.fst ≠ (Spec.bom :: s) :: rest) :
    ∃ s, writeCalls v Cfg.default {} (calls.map (·.map .dict)) = .ok s ∧
      readDicts Cfg.default none none .none s.out =
        ((d :: ds).map fun d' => ((d.map Prod.fst).zip (d'.map Prod.snd)).map fun p => (some p.1, .cell (p.2.getD [])),
          none) := by
  rw [C09_single_header v Cfg.default calls d ds hc]
  have hall : ∀ d' ∈ d :: ds, d'.length = d.length := by
    intro d' h
    rcases List.mem_cons.1 h with rfl | h
    · rfl
    · exact hsame d' h
  have hseq := writerowsFrom_cellText v Cfg.default 0 {} ((d.map Prod.fst).map some :: (d :: ds).map (·.map Prod.snd))
  have hrows : ((d.map Prod.fst).map some :: (d :: ds).map (·.map Prod.snd)).map (·.map (fun c : Cell => c.getD [])) =
      d.map Prod.fst :: (d :: ds).map (·.map (·.2.getD [])) := by
    simp [Function.comp_def]
  rw [hrows] at hseq
  obtain ⟨text, hw, hr⟩ := default_roundtrip v (d.map Prod.fst :: (d :: ds).map (·.map (·.2.getD []))) (by
    intro r hr s hs
    rcases List.mem_cons.1 hr with rfl | hr
    · obtain ⟨p, hp, rfl⟩ := List.mem_map.1 hs
      exact hlen.1 p hp
    · obtain ⟨d', hd, rfl⟩ := List.mem_map.1 hr
      obtain ⟨p, hp, rfl⟩ := List.mem_map.1 hs
      have := hlen.2 d' hd p hp
      cases h : p.2 with
      | none => simp
      | some s => exact this s h) (by
    rintro ⟨s, cells, rest, h⟩
    simp only [List.cons.injEq] at h
    exact hb s cells h.1)
  unfold writeFile at hw
  unfold writerows at hw ⊢
  rw [hseq] at hw
  split at hw
  · simp at hw
  · next s hs =>
    cases hw
    refine ⟨s, hs, ?_⟩
    simp only [readDicts, hr, dictRows, Prod.mk.injEq, and_true]
    have hfilter : ((d :: ds).map (·.map (·.2.getD []))).filter (fun r => !r.isEmpty) =
        (d :: ds).map (·.map (·.2.getD [])) := by
      rw [List.filter_eq_self]
      intro r hr
      obtain ⟨d', hd, rfl⟩ := List.mem_map.1 hr
      have := hall d' hd
      cases d' with
      | nil => exact absurd (List.length_eq_zero_iff.1 this.symm) hne
      | cons p d => rfl
    rw [hfilter, List.map_map]
    apply List.map_congr_left
    intro d' hd
    simp only [Function.comp]
    have hl := hall d' hd
    rw [dictItem_eq _ _ _ _ hn (by simp)]
    rw [List.drop_of_length_le (by simp; omega), if_neg (by simp; omega)]
    simp only [List.map_nil, List.append_nil]
    rw [show d'.map (fun x => x.2.getD []) = (d'.map Prod.snd).map (·.getD []) from by simp [Function.comp_def],
      List.zip_map_right, List.map_map]
    rfl

/-- **C09** So the dicts are returned as they were written, if all have the same keys in the same order, and string
values. -/
theorem C09_dict_roundtrip (v : CsvVer) (calls : List (List (List (Str × Str)))) (ks : List Str)
    (hk : ∀ c ∈ calls, ∀ d ∈ c, Dict.keys d = ks) (hne : ks ≠ []) (hn : ks.Nodup)
    (hrows : calls.flatten ≠ [])
    (hlen : (∀ k ∈ ks, k.length ≤ 131072) ∧ ∀ c ∈ calls, ∀ d ∈ c, ∀ p ∈ d, p.2.length ≤ 131072)
    (hb : ∀ s rest, ks ≠ (Spec.bom :: s) :: rest) :
    ∃ s, writeCalls v Cfg.default {} (calls.map (·.map (fun d => .dict (d.map (fun p => (p.1, some p.2)))))) = .ok s ∧
      readDicts Cfg.default none none .none s.out =
        (calls.flatten.map (·.map (fun p => (some p.1, .cell p.2))), none) := by
  have hk' : ∀ d ∈ calls.flatten, Dict.keys d = ks := by
    intro d hd; obtain ⟨c, hc, hd⟩ := List.mem_flatten.1 hd; exact hk c hc d hd
  have hl' : ∀ d ∈ calls.flatten, ∀ p ∈ d, p.2.length ≤ 131072 := by
    intro d hd; obtain ⟨c, hc, hd⟩ := List.mem_flatten.1 hd; exact hlen.2 c hc d hd
  obtain ⟨d, ds, hcd⟩ : ∃ d ds, calls.flatten = d :: ds := by
    cases h : calls.flatten with
    | nil => exact absurd h hrows
    | cons d ds => exact ⟨d, ds, rfl⟩
  have hmap : calls.map (·.map (fun d => WRow.dict (d.map (fun p => (p.1, some p.2))))) =
      (calls.map (·.map (·.map (fun p => (p.1, some p.2))))).map (·.map WRow.dict) := by
    simp [List.map_map, Function.comp_def]
  have hfl : (calls.map (·.map (·.map (fun p : Str × Str => (p.1, some p.2))))).flatten =
      d.map (fun p => (p.1, some p.2)) :: ds.map (·.map (fun p => (p.1, some p.2))) := by
    rw [← List.map_cons (f := fun l : List (Str × Str) => l.map (fun p => (p.1, some p.2))), ← hcd, List.map_flatten]
  have hkd := hk' d (by rw [hcd]; simp)
  have hkeys : (d.map (fun p : Str × Str => (p.1, some p.2))).map Prod.fst = ks := by
    rw [List.map_map]; exact hkd
  have hlen' : ∀ d' ∈ d :: ds, d'.length = ks.length := by
    intro d' h
    rw [← hk' d' (by rw [hcd]; exact h)]; simp [Dict.keys]
  obtain ⟨s, h1, h2⟩ := C09_read_back v _ _ _ hfl (by
      intro d' h
      obtain ⟨d'', hd'', rfl⟩ := List.mem_map.1 h
      simp only [List.length_map]
      rw [hlen' d'' (List.mem_cons_of_mem _ hd''), hlen' d (by simp)]) (by
      intro h
      rw [h] at hkeys
      exact hne hkeys.symm) (by rw [hkeys]; exact hn) (by
      refine ⟨fun p hp => hlen.1 p.1 (by rw [← hkeys]; exact List.mem_map.2 ⟨p, hp, rfl⟩), ?_⟩
      intro d' hd' p hp s hs
      rw [← List.map_cons (f := fun l : List (Str × Str) => l.map (fun p => (p.1, some p.2)))] at hd'
      obtain ⟨d'', h, rfl⟩ := List.mem_map.1 hd'
      obtain ⟨q, hq, rfl⟩ := List.mem_map.1 hp
      cases hs
      exact hl' d'' (by rw [hcd]; exact h) q hq) (by rw [hkeys]; exact hb)
  rw [hmap]
  refine ⟨s, h1, ?_⟩
  rw [h2, hkeys, hcd, ← List.map_cons (f := fun l : List (Str × Str) => l.map (fun p => (p.1, some p.2))), List.map_map]
  congr 1
  apply List.map_congr_left
  intro d' hd'
  have hkd' := hk' d' (by rw [hcd]; exact hd')
  simp only [Function.comp, List.map_map]
  rw [← hkd']
  simp only [Dict.keys]
  rw [List.zip_map', List.map_map]
  rfl

/-- Non-vacuity: two calls. -/
example : ∃ s, writeCalls .py311 Cfg.default {} [[], [.dict [(['a'], some ['1']), (['b'], some [','])]],
      [.dict [(['a'], some []), (['b'], some ['2'])]]] = .ok s ∧
    s.out = "a,b\r\n1,\",\"\r\n,2\r\n".toList := ⟨_, rfl, by decide⟩

/-- **C09 is violated** for dicts with the same keys in different order: the values are written in the order of each
dict, not in the order of the header. -/
theorem C09_violated_key_order :
    ∃ s, writeCalls .py311 Cfg.default {} [[.dict [(['a'], some ['1']), (['b'], some ['2'])],
        .dict [(['b'], some ['2']), (['a'], some ['1'])]]] = .ok s ∧
      (readDicts Cfg.default none none .none s.out).1 =
        [[(some ['a'], .cell ['1']), (some ['b'], .cell ['2'])], [(some ['a'], .cell ['2']), (some ['b'], .cell ['1'])]] :=
  ⟨_, rfl, by decide⟩

end Csvw.Props
