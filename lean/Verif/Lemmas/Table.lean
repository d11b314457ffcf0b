import Verif.Model.Table
import Verif.Spec.Dsv
/-!
# Lemmas about reading tables
-/

namespace Csvw.Table

/-! ## Dictionaries -/

theorem has_setdefault {α : Type} (k k' : Str) (v : α) (d : List (Str × α)) :
    Dict.has k' (Dict.setdefault k v d) = (Dict.has k' d || decide (k = k')) := by
  unfold Dict.setdefault
  split
  · rename_i h
    by_cases hk : k = k'
    · subst hk; simp [h]
    · simp [hk]
  · simp [Dict.has]

theorem get_setdefault {α : Type} (k k' : Str) (v : α) (d : List (Str × α)) :
    Dict.get k' (Dict.setdefault k v d) = (Dict.get k' d).or (if k = k' then some v else none) := by
  unfold Dict.setdefault
  split
  · rename_i h
    by_cases hk : k = k'
    · subst hk
      rw [Dict.has_iff_mem_keys] at h
      cases hg : Dict.get k d with
      | none => exact absurd h ((Dict.get_eq_none_iff _ _).1 hg)
      | some w => rfl
    · simp [hk]
  · rw [Dict.get_append]; simp [Dict.get]

theorem has_eq_isSome {α : Type} (k : Str) (d : List (Str × α)) : Dict.has k d = (Dict.get k d).isSome := by
  rw [Bool.eq_iff_iff, Dict.has_iff_mem_keys, Dict.get_isSome_iff_mem_keys]

theorem get_addMissing (names : List Str) (k : Str) (res : RowDict) :
    Dict.get k (addMissing res names) = (Dict.get k res).or (if k ∈ names then some (.one .none) else none) := by
  unfold addMissing
  induction names generalizing res with
  | nil => simp
  | cons a r ih =>
    rw [List.foldl_cons, ih, get_setdefault]
    by_cases h : a = k
    · subst h; cases Dict.get a res <;> simp
    · cases Dict.get k res <;> simp [h, Ne.symm h]

theorem get_addVirtual {x : MExt} {vs : List (Str × PVal)} {res res' : RowDict} (h : addVirtual x res vs = .ok res') (k : Str)
    (hk : ∀ p ∈ vs, p.1 ≠ k) : Dict.get k res' = Dict.get k res := by
  induction vs generalizing res with
  | nil => cases h; rfl
  | cons p r ih =>
    obtain ⟨k', w⟩ := p
    cases w with
    | tmpl t =>
      simp only [addVirtual] at h
      split at h
      · simp at h
      · rw [ih h fun p hp => hk p (List.mem_cons_of_mem _ hp)]
        rw [Dict.get_set_ne (hk _ (List.mem_cons_self ..))]
    | json j => simp [addVirtual] at h
    | invalid => simp [addVirtual] at h
    | dtype d => simp [addVirtual] at h

theorem has_addVirtual {x : MExt} {vs : List (Str × PVal)} {res res' : RowDict} (h : addVirtual x res vs = .ok res') (k : Str)
    (hk : Dict.has k res = true) : Dict.has k res' = true := by
  induction vs generalizing res with
  | nil => cases h; exact hk
  | cons p r ih =>
    obtain ⟨k', w⟩ := p
    cases w with
    | tmpl t =>
      simp only [addVirtual] at h
      split at h
      · simp at h
      · refine ih h ?_
        rw [has_eq_isSome, Dict.get_set]
        rw [has_eq_isSome] at hk
        split
        · rfl
        · exact hk
    | json j => simp [addVirtual] at h
    | invalid => simp [addVirtual] at h
    | dtype d => simp [addVirtual] at h

/-! ## Rows -/

/-- Every row which is yielded comes from a row of the data. -/
theorem mem_iterRows {ext : Ext} {x : MExt} {t : Table} {strict log : Bool} {err : Option PyErr} {hs : List HCol}
    {rows : List (Int × List Str)} {n : Int} {d : RowDict} (h : (n, d) ∈ (iterRows ext x t strict log err hs rows).rows) :
    ∃ hs' row w, (n, row) ∈ rows ∧ rowStep ext x t strict log hs' row = .ok (d, false, w) ∧ (hs ≠ [] → hs' = hs) := by
  induction rows generalizing hs with
  | nil => simp [iterRows] at h
  | cons p r ih =>
    obtain ⟨m, row⟩ := p
    unfold iterRows at h
    split at h
    · simp at h
    · rename_i res bad w hstep
      simp only at h
      have hrec : (n, d) ∈ (iterRows ext x t strict log err (rowCols hs row) r).rows →
          ∃ hs' row' w, (n, row') ∈ (m, row) :: r ∧ rowStep ext x t strict log hs' row' = .ok (d, false, w) ∧
            (hs ≠ [] → hs' = hs) := by
        intro h
        obtain ⟨hs', row', w', h1, h2, h3⟩ := ih h
        refine ⟨hs', row', w', List.mem_cons_of_mem _ h1, h2, fun hne => ?_⟩
        have : rowCols hs row = hs := by unfold rowCols; rw [if_neg hne]
        rw [h3 (by rw [this]; exact hne), this]
      split at h
      · exact hrec h
      · rename_i hbad
        rcases List.mem_cons.1 h with h | h
        · cases h
          refine ⟨_, row, w, List.mem_cons_self .., by rw [hstep]; simp at hbad; rw [hbad], fun hne => ?_⟩
          unfold rowCols; rw [if_neg hne]
        · exact hrec h

theorem rowCols_of_ne {hs : List HCol} {row : List Str} (h : hs ≠ []) : rowCols hs row = hs := by
  unfold rowCols; rw [if_neg h]

/-- A row as computed. -/
theorem rowStep_ok {ext : Ext} {x : MExt} {t : Table} {strict log : Bool} {hs : List HCol} {row : List Str}
    {d : RowDict} {bad w : Bool} (h : rowStep ext x t strict log hs row = .ok (d, bad, w)) :
    ∃ st st', cellLoop ext strict log { required := requiredKeys hs } hs row = .ok st ∧ checkRequired log st = .ok st' ∧
      st'.res = st.res ∧ addVirtual x (addMissing st.res t.colnames) t.virtualCols = .ok d ∧ bad = st'.error ∧ w = st'.warned := by
  unfold rowStep at h
  split at h
  · simp at h
  · rename_i st hst
    split at h
    · simp at h
    · rename_i st' hst'
      have hres : st'.res = st.res := by
        unfold checkRequired at hst'
        split at hst'
        · unfold logOrRaise at hst'
          split at hst'
          · cases hst'; rfl
          · simp at hst'
        · cases hst'; rfl
      split at h
      · simp at h
      · rename_i res hres'
        simp only [Except.ok.injEq, Prod.mk.injEq] at h
        obtain ⟨rfl, rfl, rfl⟩ := h
        exact ⟨st, st', hst, hst', hres, by rw [← hres]; exact hres', rfl, rfl⟩

/-! ## Strict reading of a row -/

/-- What a cell contributes to the row in strict mode: a key and its value, or nothing if it is invalid (with a log). -/
def pairStep (ext : Ext) (log : Bool) (p : HCol × Str) : Res (Option (Str × CVal)) :=
  match p.1.col with
  | none => .ok (some (p.1.key, .one (.str p.2)))
  | some c => match c.read ext p.2 with
    | .ok w => .ok (some (c.col.header, w))
    | .error .valueError => if log then .ok none else .error .valueError
    | .error e => .error e

def pairSteps (ext : Ext) (log : Bool) : List (HCol × Str) → Res (List (Option (Str × CVal)))
  | [] => .ok []
  | p :: r => match pairStep ext log p with
    | .error e => .error e
    | .ok o => match pairSteps ext log r with
      | .error e => .error e
      | .ok os => .ok (o :: os)

/-- Is the header the key of a described column? -/
def seen (ps : List (HCol × Str)) (k : Str) : Bool := ps.any fun p => p.1.col.isSome && decide (p.1.key = k)

/-- Does the cell lead to a warning in strict mode? -/
def cellWarns (ext : Ext) (p : HCol × Str) : Bool :=
  match p.1.col with
  | none => true
  | some c => c.readWarns ext p.2

theorem cellLoop_strict (ext : Ext) (log : Bool) (st : RowSt) (hs : List HCol) (vs : List Str) :
    cellLoop ext true log st hs vs = (pairSteps ext log (hs.zip vs)).map fun os =>
      { res := Dict.update st.res (os.filterMap id),
        required := st.required.filter fun k => !seen (hs.zip vs) k,
        error := st.error || os.any Option.isNone,
        warned := st.warned || (hs.zip vs).any (cellWarns ext) } := by
  induction hs generalizing vs st with
  | nil => cases st; simp [cellLoop, pairSteps, Except.map, Dict.update, seen]; exact (List.filter_eq_self.2 (fun _ _ => rfl)).symm
  | cons h hs ih =>
    cases vs with
    | nil => cases st; simp [cellLoop, pairSteps, Except.map, Dict.update, seen]; exact (List.filter_eq_self.2 (fun _ _ => rfl)).symm
    | cons v vs =>
      unfold cellLoop
      rw [List.zip_cons_cons]
      unfold pairSteps pairStep cellStep
      cases hc : h.col with
      | none =>
        simp only [ih]
        cases pairSteps ext log (hs.zip vs) with
        | error e => rfl
        | ok os =>
          simp only [Except.map, Except.ok.injEq, RowSt.mk.injEq]
          refine ⟨by simp [Dict.update], ?_, by simp, ?_⟩
          · apply List.filter_congr; intro k _; simp [seen, hc]
          · simp [cellWarns, hc]
      | some c =>
        simp only [if_true]
        unfold storeCell
        cases hr : c.read ext v with
        | ok w =>
          simp only [ih]
          cases pairSteps ext log (hs.zip vs) with
          | error e => rfl
          | ok os =>
            simp only [Except.map, Except.ok.injEq, RowSt.mk.injEq]
            refine ⟨by simp [Dict.update], ?_, by simp, ?_⟩
            · rw [List.filter_filter]
              apply List.filter_congr; intro k _
              rw [show decide (k ≠ h.key) = !decide (h.key = k) by rw [decide_not]; congr 1; exact decide_eq_decide.2 eq_comm]; simp [seen, hc, Bool.and_comm]
            · simp [cellWarns, hc, Bool.or_assoc]
        | error e =>
          cases e with
          | valueError =>
            simp only [logOrRaise]
            cases log with
            | false => rfl
            | true =>
              simp only [if_true, ih]
              cases pairSteps ext true (hs.zip vs) with
              | error e => rfl
              | ok os =>
                simp only [Except.map, Except.ok.injEq, RowSt.mk.injEq]
                refine ⟨by simp [Dict.update], ?_, by simp, ?_⟩
                · rw [List.filter_filter]
                  apply List.filter_congr; intro k _
                  rw [show decide (k ≠ h.key) = !decide (h.key = k) by rw [decide_not]; congr 1; exact decide_eq_decide.2 eq_comm]; simp [seen, hc, Bool.and_comm]
                · simp [cellWarns, hc, Bool.or_assoc]
          | _ => rfl

end Csvw.Table

namespace Csvw.Table

/-! ## With and without log -/

def orValueError {α : Type} : Option α → Res (Option α)
  | some q => .ok (some q)
  | none => .error .valueError

theorem pairStep_log {ext : Ext} {p : HCol × Str} {o : Option (Str × CVal)} (h : pairStep ext true p = .ok o) :
    pairStep ext false p = orValueError o := by
  obtain ⟨⟨j, k, col⟩, v⟩ := p
  unfold pairStep at h ⊢
  cases col with
  | none => cases h; rfl
  | some c =>
    simp only at h ⊢
    cases hr : c.read ext v with
    | ok w => rw [hr] at h; cases h; rfl
    | error e =>
      rw [hr] at h
      cases e <;> simp at h
      subst h; rfl

theorem pairStep_log_error {ext : Ext} {p : HCol × Str} {e : PyErr} (h : pairStep ext true p = .error e) :
    pairStep ext false p = .error e := by
  unfold pairStep at h ⊢
  cases hc : p.1.col with
  | none => rw [hc] at h; simp at h
  | some c =>
    rw [hc] at h
    simp only at h ⊢
    cases hr : c.read ext p.2 with
    | ok w => rw [hr] at h; simp at h
    | error e => rw [hr] at h; cases e <;> simp at h ⊢ <;> exact h

theorem pairSteps_log {ext : Ext} {ps : List (HCol × Str)} {os : List (Option (Str × CVal))}
    (h : pairSteps ext true ps = .ok os) :
    pairSteps ext false ps = if os.any Option.isNone then .error .valueError else .ok os := by
  induction ps generalizing os with
  | nil => cases h; rfl
  | cons p r ih =>
    unfold pairSteps at h ⊢
    cases hp : pairStep ext true p with
    | error e => rw [hp] at h; simp at h
    | ok o =>
      rw [hp] at h
      simp only at h
      rw [pairStep_log hp]
      cases hr : pairSteps ext true r with
      | error e => rw [hr] at h; simp at h
      | ok os' =>
        rw [hr] at h
        cases h
        rw [ih hr]
        cases o with
        | none => rfl
        | some q =>
          simp only [List.any_cons, Option.isNone_some, Bool.false_or, orValueError]
          by_cases ha : os'.any Option.isNone = true
          · simp only [if_pos ha]
          · simp only [if_neg ha]

theorem pairSteps_log_error {ext : Ext} {ps : List (HCol × Str)} {e : PyErr}
    (h : pairSteps ext true ps = .error e) : ∃ e', pairSteps ext false ps = .error e' := by
  induction ps generalizing e with
  | nil => simp [pairSteps] at h
  | cons p r ih =>
    unfold pairSteps at h ⊢
    cases hp : pairStep ext true p with
    | error e' => rw [pairStep_log_error hp]; exact ⟨_, rfl⟩
    | ok o =>
      rw [hp] at h
      simp only at h
      rw [pairStep_log hp]
      cases o with
      | none => exact ⟨_, rfl⟩
      | some q =>
        cases hr : pairSteps ext true r with
        | error e' => obtain ⟨e'', h''⟩ := ih hr; simp only [h'']; exact ⟨_, rfl⟩
        | ok os => rw [hr] at h; simp at h

/-- A row which is not skipped with a log is read alike without. -/
theorem rowStep_log_good {ext : Ext} {x : MExt} {t : Table} {hs : List HCol} {row : List Str} {d : RowDict} {w : Bool}
    (h : rowStep ext x t true true hs row = .ok (d, false, w)) : rowStep ext x t true false hs row = .ok (d, false, w) := by
  obtain ⟨st, st', h1, h2, h3, h4, h5, h6⟩ := rowStep_ok h
  rw [cellLoop_strict] at h1
  cases hp : pairSteps ext true (hs.zip row) with
  | error e => rw [hp] at h1; simp [Except.map] at h1
  | ok os =>
    rw [hp] at h1
    simp only [Except.map, Except.ok.injEq] at h1
    unfold checkRequired at h2
    split at h2
    · simp only [logOrRaise, if_true, Except.ok.injEq] at h2; rw [← h2] at h5; simp at h5
    · rename_i hreq
      cases h2
      have hany : os.any Option.isNone = false := by rw [← h1] at h5; simpa using h5.symm
      have hloop : cellLoop ext true false { required := requiredKeys hs } hs row = .ok st := by
        rw [cellLoop_strict, pairSteps_log hp, if_neg (by simp [hany])]
        simp only [Except.map, Except.ok.injEq]
        exact h1
      unfold rowStep
      rw [hloop]
      simp only [checkRequired, hreq, if_false, Bool.false_eq_true]
      rw [h4]
      simp only [Except.ok.injEq, Prod.mk.injEq, true_and]
      exact ⟨h5.symm, h6.symm⟩

/-- A row which is skipped with a log raises `ValueError` without. -/
theorem rowStep_log_bad {ext : Ext} {x : MExt} {t : Table} {hs : List HCol} {row : List Str} {d : RowDict} {w : Bool}
    (h : rowStep ext x t true true hs row = .ok (d, true, w)) : rowStep ext x t true false hs row = .error .valueError := by
  obtain ⟨st, st', h1, h2, h3, h4, h5, h6⟩ := rowStep_ok h
  rw [cellLoop_strict] at h1
  cases hp : pairSteps ext true (hs.zip row) with
  | error e => rw [hp] at h1; simp [Except.map] at h1
  | ok os =>
    rw [hp] at h1
    simp only [Except.map, Except.ok.injEq] at h1
    unfold rowStep
    rw [cellLoop_strict, pairSteps_log hp]
    by_cases hany : os.any Option.isNone = true
    · rw [if_pos hany]; rfl
    · rw [if_neg hany]
      simp only [Except.map]
      rw [h1]
      unfold checkRequired at h2 ⊢
      split at h2
      · rename_i hreq; simp only [hreq, if_true, logOrRaise, Bool.false_eq_true, if_false]
      · cases h2; rw [← h1] at h5; exact absurd (by simpa using h5.symm) hany

theorem rowStep_log_error {ext : Ext} {x : MExt} {t : Table} {hs : List HCol} {row : List Str} {e : PyErr}
    (h : rowStep ext x t true true hs row = .error e) : ∃ e', rowStep ext x t true false hs row = .error e' := by
  unfold rowStep at h ⊢
  rw [cellLoop_strict] at h ⊢
  cases hp : pairSteps ext true (hs.zip row) with
  | error e' => obtain ⟨e'', h''⟩ := pairSteps_log_error hp; rw [h'']; exact ⟨_, rfl⟩
  | ok os =>
    rw [hp] at h
    rw [pairSteps_log hp]
    by_cases hany : os.any Option.isNone = true
    · rw [if_pos hany]; exact ⟨_, rfl⟩
    · rw [if_neg hany]
      simp only [Except.map] at h ⊢
      unfold checkRequired at h ⊢
      split at h
      · simp [logOrRaise] at h
        rename_i heq
        split
        · exact ⟨_, rfl⟩
        · rename_i heq2
          split at heq2
          · simp [logOrRaise] at heq2
          · rename_i hreq
            split at heq
            · rename_i hreq'; exact absurd hreq' hreq
            · simp at heq
      · rename_i st2 heq
        split
        · exact ⟨_, rfl⟩
        · rename_i st3 heq2
          split at heq2
          · simp [logOrRaise] at heq2
          · rename_i hreq
            rw [if_neg hreq] at heq
            rw [← Except.ok.inj heq] at h
            rw [← Except.ok.inj heq2]
            revert h
            cases addVirtual x (addMissing _ t.colnames) t.virtualCols with
            | error e => intro _; exact ⟨_, rfl⟩
            | ok r => intro h; simp at h

end Csvw.Table

namespace Csvw.Table

/-! ## The header -/

theorem lookupCols_length {t : Table} {header : List Str} {l : List (Str × Option CCol)} (h : lookupCols t header = .ok l) :
    l.length = header.length := by
  induction header generalizing l with
  | nil => cases h; rfl
  | cons a r ih =>
    unfold lookupCols at h
    split at h
    · simp at h
    · split at h
      · simp at h
      · rename_i cs hcs
        cases h
        simp [ih hcs]

theorem colnames_length_le (t : Table) : t.colnames.length ≤ t.ccols.length := by
  unfold colnames dataCols
  rw [List.length_map]
  exact List.length_filter_le _ _

theorem matchCols_length {t : Table} {header : List Str} {l : List (Str × Option CCol)} (h : matchCols t true header = .ok l) :
    l.length = header.length := by
  unfold matchCols at h
  split at h
  · rename_i hc
    have : header = t.colnames := by simpa using hc
    cases h
    rw [List.length_zip, List.length_map, Nat.min_eq_left]
    rw [this]; exact colnames_length_le t
  · simp only [Bool.true_eq_false, false_and, if_false] at h
    exact lookupCols_length h

theorem indexed_length (l : List (Str × Option CCol)) : (indexed l).length = l.length := by
  simp [indexed]

theorem indexed_ne_nil {t : Table} {header : List Str} {l : List (Str × Option CCol)} (h : matchCols t true header = .ok l)
    (hh : header ≠ []) : indexed l ≠ [] := by
  intro hn
  have := indexed_length l
  rw [hn, matchCols_length h] at this
  simp at this
  exact hh (List.length_eq_zero_iff.1 this.symm)

/-- The header used for reading: the first row, or the column names. -/
def headerOf (t : Table) (pre : List (Int × List Str)) : List Str :=
  if t.getDialect.header then (pre.head?.map Prod.snd).getD [] else t.colnames

theorem iterEvents_pre {ext : Ext} {x : MExt} {t : Table} {log : Bool} {pre rows : List (Int × List Str)}
    {err : Option PyErr} (hpre : pre.length = if t.getDialect.header then 1 else 0) :
    iterEvents ext x t true log (pre ++ rows) err = iterBody ext x t true log (headerOf t pre) rows err := by
  unfold iterEvents headerOf
  by_cases hd : t.getDialect.header = true
  · rw [if_pos hd] at hpre ⊢
    match pre, hpre with
    | [p], _ =>
      obtain ⟨n, h⟩ := p
      simp [hd]
  · rw [if_neg hd] at hpre ⊢
    rw [List.length_eq_zero_iff.1 hpre, if_neg hd]
    rfl

/-- What a single row yields, without log. -/
def single (ext : Ext) (x : MExt) (t : Table) (hs : List HCol) (r : Int × List Str) : List (Int × RowDict) :=
  match rowStep ext x t true false hs r.2 with
  | .ok (d, _, _) => [(r.1, d)]
  | .error _ => []

theorem rowStep_nolog_bad {ext : Ext} {x : MExt} {t : Table} {hs : List HCol} {row : List Str} {d : RowDict} {b w : Bool}
    (h : rowStep ext x t true false hs row = .ok (d, b, w)) : b = false := by
  obtain ⟨st, st', h1, h2, h3, h4, h5, h6⟩ := rowStep_ok h
  rw [h5]
  have : st'.error = st.error := by
    unfold checkRequired at h2
    split at h2
    · simp [logOrRaise] at h2
    · cases h2; rfl
  rw [this]
  rw [cellLoop_strict] at h1
  cases hp : pairSteps ext false (hs.zip row) with
  | error e => rw [hp] at h1; simp [Except.map] at h1
  | ok os =>
    rw [hp] at h1
    simp only [Except.map, Except.ok.injEq] at h1
    rw [← h1]
    simp only [Bool.false_or]
    clear h1 h
    generalize hs.zip row = ps at hp
    induction ps generalizing os with
    | nil => cases hp; rfl
    | cons p r ih =>
      unfold pairSteps at hp
      split at hp
      · simp at hp
      · rename_i o ho
        split at hp
        · simp at hp
        · rename_i os' hos'
          cases hp
          rw [List.any_cons, ih _ hos', Bool.or_false]
          unfold pairStep at ho
          split at ho
          · cases ho; rfl
          · split at ho
            · cases ho; rfl
            · simp at ho
            · simp at ho

theorem iterRows_log {ext : Ext} {x : MExt} {t : Table} {err : Option PyErr} {hs : List HCol} (hne : hs ≠ [])
    {rows : List (Int × List Str)} (hok : ∀ r ∈ rows, ∃ o, rowStep ext x t true true hs r.2 = .ok o) :
    (iterRows ext x t true true err hs rows).rows = rows.flatMap (single ext x t hs) ∧
    (iterRows ext x t true true err hs rows).err = err := by
  induction rows with
  | nil => exact ⟨rfl, rfl⟩
  | cons p r ih =>
    obtain ⟨n, row⟩ := p
    obtain ⟨⟨d, b, w⟩, ho⟩ := hok _ (List.mem_cons_self ..)
    obtain ⟨ih1, ih2⟩ := ih fun r hr => hok r (List.mem_cons_of_mem _ hr)
    unfold iterRows
    rw [rowCols_of_ne hne]
    simp only at ho
    rw [ho]
    simp only [ih1, ih2, List.flatMap_cons, and_true]
    cases b with
    | false => simp only [Bool.false_eq_true, if_false]; unfold single; simp only [rowStep_log_good ho]; rfl
    | true => simp only [if_true]; unfold single; simp only [rowStep_log_bad ho]; rfl

theorem iterRows_nolog {ext : Ext} {x : MExt} {t : Table} {err : Option PyErr} {hs : List HCol} (hne : hs ≠ [])
    {rows : List (Int × List Str)} :
    (∀ r ∈ rows, (rowStep ext x t true false hs r.2).isOk) ∧
      (iterRows ext x t true false err hs rows).rows = rows.flatMap (single ext x t hs) ∧
      (iterRows ext x t true false err hs rows).err = err ∨
    ∃ good r rest e, rows = good ++ r :: rest ∧ (∀ r ∈ good, (rowStep ext x t true false hs r.2).isOk) ∧
      rowStep ext x t true false hs r.2 = .error e ∧
      (iterRows ext x t true false err hs rows).rows = good.flatMap (single ext x t hs) ∧
      (iterRows ext x t true false err hs rows).err = some e := by
  induction rows with
  | nil => exact .inl ⟨by simp, rfl, rfl⟩
  | cons p r ih =>
    obtain ⟨n, row⟩ := p
    unfold iterRows
    rw [rowCols_of_ne hne]
    cases ho : rowStep ext x t true false hs row with
    | error e =>
      exact .inr ⟨[], (n, row), r, e, rfl, by simp, ho, rfl, rfl⟩
    | ok o =>
      obtain ⟨d, b, w⟩ := o
      have hb := rowStep_nolog_bad ho
      subst hb
      simp only [Bool.false_eq_true, if_false]
      have hs1 : single ext x t hs (n, row) = [(n, d)] := by unfold single; simp only [ho]
      rcases ih with ⟨i1, i2, i3⟩ | ⟨good, q, rest, e, i1, i2, i3, i4, i5⟩
      · left
        refine ⟨?_, ?_, i3⟩
        · intro p hp
          rcases List.mem_cons.1 hp with rfl | hp
          · simp only [ho]; rfl
          · exact i1 p hp
        · rw [List.flatMap_cons, hs1, i2]; rfl
      · right
        refine ⟨(n, row) :: good, q, rest, e, by rw [i1]; rfl, ?_, i3, ?_, i5⟩
        · intro p hp
          rcases List.mem_cons.1 hp with rfl | hp
          · simp only [ho]; rfl
          · exact i2 p hp
        · rw [List.flatMap_cons, hs1, i4]; rfl

end Csvw.Table
