import Verif.Lemmas.Db
import Verif.Spec.Dsv
/-!
# Lemmas about association tables
-/

namespace Csvw.Db
open Csvw.Datatypes Csvw.Py Csvw.Spec

theorem all2_append {α β : Type} {R : α → β → Prop} {as as' : List α} {bs bs' : List β} (h : All2 R as bs) (h' : All2 R as' bs') :
    All2 R (as ++ as') (bs ++ bs') := by
  induction h with
  | nil => exact h'
  | cons h1 _ ih => exact .cons h1 ih

theorem all2_filter {α β : Type} {R : α → β → Prop} {p : α → Bool} {q : β → Bool} {as : List α} {bs : List β} (h : All2 R as bs)
    (hpq : ∀ a ∈ as, ∀ b, R a b → p a = q b) : All2 R (as.filter p) (bs.filter q) := by
  induction h with
  | nil => exact .nil
  | @cons a b as bs h1 _ ih =>
    have := hpq a (List.mem_cons_self ..) b h1
    have ih' := ih fun a ha => hpq a (List.mem_cons_of_mem _ ha)
    cases hq : q b with
    | true =>
      rw [List.filter_cons_of_pos hq, List.filter_cons_of_pos (by rw [this, hq])]
      exact .cons h1 ih'
    | false =>
      rw [List.filter_cons_of_neg (p := p) (by rw [this, hq]; simp), List.filter_cons_of_neg (p := q) (by simp [hq])]
      exact ih'

theorem all2_eq_map {α β : Type} {R : α → β → Prop} {f : α → β} {as : List α} {bs : List β} (h : All2 R as bs)
    (hf : ∀ a ∈ as, ∀ b, R a b → b = f a) : bs = as.map f := by
  induction h with
  | nil => rfl
  | cons h1 _ ih =>
    rw [List.map_cons, ← hf _ (List.mem_cons_self ..) _ h1, ← ih fun a ha => hf a (List.mem_cons_of_mem _ ha)]

section
variable {ext : Ext} {sx : SqlExt} {tr : Translator} {skip : Bool}

/-- The names of the columns of an association table. -/
def assocKeys (tr : Translator) (a : AssocSpec) : List Str := (atKey a).2.map fun k => tr a.name (some k)

theorem writeRefs_same {a : AssocSpec} {refs : Refs} {db db' : Database} {u : DbTable} (h : writeRefs sx tr refs db = .ok db')
    (hl : lookup (tr a.name none) db = some u) (ha : ∀ p ∈ refs, foldName (tr p.1.name none) = foldName (tr a.name none) → p.1 = a) :
    ∃ u' vss, lookup (tr a.name none) db' = some u' ∧ u'.name = u.name ∧ u'.columns = u.columns ∧
      All2 (fun p vs => bindAll p.2 = .ok vs) (refs.filter fun p => tr p.1.name none = tr a.name none) vss ∧
      u'.rows = u.rows ++ vss.map (newRow sx u.columns (assocKeys tr a)) := by
  induction refs generalizing db u with
  | nil =>
    unfold writeRefs at h
    cases h
    exact ⟨u, [], hl, rfl, rfl, .nil, by simp⟩
  | cons p r ih =>
    obtain ⟨b, row⟩ := p
    unfold writeRefs at h
    have har := fun p hp => ha p (List.mem_cons_of_mem _ hp)
    split at h
    · cases h
    · rename_i vs hvs
      split at h
      · cases h
      · rename_i db1 hi
        by_cases hb : foldName (tr b.name none) = foldName (tr a.name none)
        · have := ha (b, row) (List.mem_cons_self ..) hb
          simp only at this
          subst this
          obtain ⟨u1, hu1, hins⟩ := insert_same hi hl
          obtain ⟨e1, e2, e3, -⟩ := insertRows_ok hins
          obtain ⟨u', vss, f1, f2, f3, f4, f5⟩ := ih h hu1 har
          refine ⟨u', vs :: vss, f1, f2.trans e1, f3.trans e2, ?_, ?_⟩
          · rw [List.filter_cons_of_pos (by simp)]
            exact .cons hvs f4
          · rw [f5, e3, e2]
            simp [assocKeys]
        · have hl1 : lookup (tr a.name none) db1 = some u := by
            rw [insert_other hi (Ne.symm hb)]
            exact hl
          obtain ⟨u', vss, f1, f2, f3, f4, f5⟩ := ih h hl1 har
          refine ⟨u', vss, f1, f2, f3, ?_, f5⟩
          rw [List.filter_cons_of_neg (by simpa using fun he => hb (congrArg foldName he))]
          exact f4

/-- Tables without rows in `items` remain unchanged. -/
theorem writeTables_unchanged {items : List (Str × List RowDict)} {ts : List TableSpec} {db db' : Database} {refs refs' : Refs}
    (h : writeTables ext sx tr skip items db refs ts = .ok (db', refs')) {n : Str}
    (hn : ∀ t ∈ ts, foldName (tr t.name none) = foldName n → Dict.get t.name items = none) : lookup n db' = lookup n db := by
  induction ts generalizing db refs with
  | nil => unfold writeTables at h; cases h; rfl
  | cons t r ih =>
    unfold writeTables at h
    have hr := fun t ht => hn t (List.mem_cons_of_mem _ ht)
    split at h
    · exact ih h hr
    · rename_i rows hg
      cases hw : writeTable ext sx tr skip t rows db with
      | error e => rw [hw] at h; cases h
      | ok p =>
        rw [hw] at h
        simp only at h
        rw [ih h hr]
        unfold writeTable at hw
        cases hl : rowLoop ext sx t skip rows with
        | error e => rw [hl] at hw; cases hw
        | ok sts =>
          rw [hl] at hw
          simp only at hw
          split at hw
          · cases hw
          · rename_i db1 hi
            cases hw
            apply insert_other hi
            intro he
            rw [hn t (List.mem_cons_self ..) he.symm] at hg
            cases hg

/-- The references which belong to a table. -/
theorem writeTables_filter {items : List (Str × List RowDict)} {ts : List TableSpec} {db db' : Database} {refs refs' : Refs}
    (h : writeTables ext sx tr skip items db refs ts = .ok (db', refs')) {P : AssocSpec × List CVal → Bool} {t : TableSpec}
    (hnd : ts.Nodup) (ht : t ∈ ts) {rows : List RowDict} (hg : Dict.get t.name items = some rows)
    (hP : ∀ t' ∈ ts, t' ≠ t → ∀ p ∈ t'.manyToMany, ∀ l, P (p.2, l) = false) :
    ∃ sts, rowLoop ext sx t skip rows = .ok sts ∧ refs'.filter P = refs.filter P ++ (sts.flatMap RowState.refs).filter P := by
  have hnone : ∀ {ts : List TableSpec} {db db' : Database} {refs refs' : Refs},
      writeTables ext sx tr skip items db refs ts = .ok (db', refs') →
      (∀ t' ∈ ts, ∀ p ∈ t'.manyToMany, ∀ l, P (p.2, l) = false) → refs'.filter P = refs.filter P := by
    intro ts
    induction ts with
    | nil =>
      intro db db' refs refs' h _
      unfold writeTables at h
      cases h
      rfl
    | cons t0 r ih =>
      intro db db' refs refs' h hP
      unfold writeTables at h
      have hr := fun t ht => hP t (List.mem_cons_of_mem _ ht)
      split at h
      · exact ih h hr
      · rename_i rows0 hg0
        cases hw : writeTable ext sx tr skip t0 rows0 db with
        | error e => rw [hw] at h; cases h
        | ok p =>
          rw [hw] at h
          simp only at h
          rw [ih h hr, List.filter_append]
          unfold writeTable at hw
          cases hl : rowLoop ext sx t0 skip rows0 with
          | error e => rw [hl] at hw; cases hw
          | ok sts =>
            rw [hl] at hw
            simp only at hw
            split at hw
            · cases hw
            · cases hw
              have : (sts.flatMap RowState.refs).filter P = [] := by
                rw [List.filter_eq_nil_iff]
                intro q hq
                obtain ⟨st, hst, hq⟩ := List.mem_flatMap.1 hq
                obtain ⟨k, hk⟩ := rowLoop_refs hl st hst q hq
                rw [hP t0 (List.mem_cons_self ..) _ hk q.2]
                simp
              rw [this, List.append_nil]
  induction ts generalizing db refs with
  | nil => simp at ht
  | cons t0 r ih =>
    rw [List.nodup_cons] at hnd
    have hr := fun t ht => hP t (List.mem_cons_of_mem _ ht)
    rcases List.mem_cons.1 ht with rfl | htr
    · unfold writeTables at h
      rw [hg] at h
      simp only at h
      cases hw : writeTable ext sx tr skip t rows db with
      | error e => rw [hw] at h; cases h
      | ok p =>
        rw [hw] at h
        simp only at h
        unfold writeTable at hw
        cases hl : rowLoop ext sx t skip rows with
        | error e => rw [hl] at hw; cases hw
        | ok sts =>
          rw [hl] at hw
          simp only at hw
          split at hw
          · cases hw
          · cases hw
            refine ⟨sts, rfl, ?_⟩
            rw [hnone h (fun t' ht' => hr t' ht' (fun he => hnd.1 (he ▸ ht'))), List.filter_append]
    · have hne : t0 ≠ t := fun he => hnd.1 (he ▸ htr)
      unfold writeTables at h
      split at h
      · exact ih h hnd.2 htr hr
      · rename_i rows0 hg0
        cases hw : writeTable ext sx tr skip t0 rows0 db with
        | error e => rw [hw] at h; cases h
        | ok p =>
          rw [hw] at h
          simp only at h
          obtain ⟨sts, h1, h2⟩ := ih h hnd.2 htr hr
          refine ⟨sts, h1, ?_⟩
          rw [h2, List.filter_append]
          unfold writeTable at hw
          cases hl : rowLoop ext sx t0 skip rows0 with
          | error e => rw [hl] at hw; cases hw
          | ok sts0 =>
            rw [hl] at hw
            simp only at hw
            split at hw
            · cases hw
            · cases hw
              have : (sts0.flatMap RowState.refs).filter P = [] := by
                rw [List.filter_eq_nil_iff]
                intro q hq
                obtain ⟨st, hst, hq⟩ := List.mem_flatMap.1 hq
                obtain ⟨k, hk⟩ := rowLoop_refs hl st hst q hq
                rw [hP t0 (List.mem_cons_self ..) hne _ hk q.2]
                simp
              rw [this, List.append_nil]

/-- The references of an item. -/
def refsOfItem (ext : Ext) (t : TableSpec) (pk : CVal) (p : Str × CVal) : Refs :=
  match Dict.get p.1 t.manyToMany with
  | some a => match refItems ext p.2 with
    | .ok l => l.map fun i => (a, [pk, i, .one (.str p.1)])
    | .error _ => []
  | none => []

theorem itemLoop_refs_eq {t : TableSpec} {pk : CVal} {row : RowDict} {st st' : RowState}
    (h : itemLoop ext sx t skip pk st row = .ok st') : st'.refs = st.refs ++ row.flatMap (refsOfItem ext t pk) := by
  induction row generalizing st with
  | nil => unfold itemLoop at h; cases h; simp
  | cons kv r ih =>
    obtain ⟨k, v⟩ := kv
    unfold itemLoop at h
    cases hs : itemStep ext sx t skip pk st k v with
    | error e => rw [hs] at h; cases h
    | ok st1 =>
      rw [hs] at h
      simp only at h
      rw [ih h, List.flatMap_cons, ← List.append_assoc]
      congr 1
      unfold refsOfItem
      unfold itemStep at hs
      split at hs
      · rename_i a ha
        simp only [ha]
        split at hs
        · cases hs
        · split at hs
          · cases hs
          · rename_i l hl
            cases hs
            rw [hl]
      · rename_i hnone
        simp only [hnone, List.append_nil]
        split at hs
        · split at hs <;> cases hs
          rfl
        · split at hs <;> cases hs
          rfl

theorem rowLoop_refs_eq {t : TableSpec} {rows : List RowDict} {sts : List RowState} (h : rowLoop ext sx t skip rows = .ok sts) :
    All2 (fun row st => ∃ pk, pkOf t row = .ok pk ∧ st.refs = row.flatMap (refsOfItem ext t pk)) rows sts := by
  induction rows generalizing sts with
  | nil => unfold rowLoop at h; cases h; exact .nil
  | cons row r ih =>
    unfold rowLoop at h
    cases hs : rowStep ext sx t skip row with
    | error e => rw [hs] at h; cases h
    | ok st0 =>
      rw [hs] at h
      simp only at h
      cases hr : rowLoop ext sx t skip r with
      | error e => rw [hr] at h; cases h
      | ok sts0 =>
        rw [hr] at h
        cases h
        refine .cons ?_ (ih hr)
        unfold rowStep at hs
        split at hs
        · cases hs
        · rename_i pk hpk
          refine ⟨pk, hpk, ?_⟩
          simpa using itemLoop_refs_eq hs

/-- The rows of the association table after `write`. -/
theorem write_assoc {tables : List TableSpec} {items : List (Str × List RowDict)} {db : Database}
    (h : write ext sx tr skip tables items = .ok db) (hn : (tables.map fun t => foldName (tr t.name none)).Nodup)
    {t : TableSpec} (ht : t ∈ tables) {rows : List RowDict} (hg : Dict.get t.name items = some rows)
    {a : AssocSpec} (hat : a.toSpec ∈ tables) (hai : Dict.get a.name items = none)
    (hother : ∀ t' ∈ tables, t' ≠ t → ∀ p ∈ t'.manyToMany, foldName (tr p.2.name none) ≠ foldName (tr a.name none))
    (hsame : ∀ p ∈ t.manyToMany, foldName (tr p.2.name none) = foldName (tr a.name none) → p.2 = a) :
    ∃ u vss sts, lookup (tr a.name none) db = some u ∧ u.columns = sqlColumns tr a.toSpec ∧ (Dict.keys u.columns).Nodup ∧
      rowLoop ext sx t skip rows = .ok sts ∧
      All2 (fun p vs => bindAll p.2 = .ok vs) ((sts.flatMap RowState.refs).filter fun p => tr p.1.name none = tr a.name none) vss ∧
      u.rows = vss.map (newRow sx u.columns (assocKeys tr a)) := by
  unfold write at h
  cases hc : createAll tr [] tables with
  | error e => rw [hc] at h; cases h
  | ok db0 =>
    rw [hc] at h
    simp only at h
    obtain ⟨h1, h2⟩ := createAll_ok hc (by simpa using hn)
    simp only [List.nil_append] at h1
    subst h1
    cases hw : writeTables ext sx tr skip items (tables.map (emptyTable tr)) [] tables with
    | error e => rw [hw] at h; cases h
    | ok p =>
      obtain ⟨db1, refs⟩ := p
      rw [hw] at h
      simp only at h
      have hnd : tables.Nodup := by
        have := List.pairwise_map.1 hn
        exact this.imp fun hne he => hne (by rw [he])
      have hl : lookup (tr a.name none) db1 = some (emptyTable tr a.toSpec) := by
        rw [writeTables_unchanged hw]
        · exact lookup_created hn hat
        · intro t' ht' he
          have : t' = a.toSpec := by
            have hp := List.pairwise_map.1 hn
            by_cases heq : t' = a.toSpec
            · exact heq
            · exfalso
              have hinj : ∀ (l : List TableSpec), (l.map fun t => foldName (tr t.name none)).Nodup → t' ∈ l → a.toSpec ∈ l →
                  foldName (tr t'.name none) = foldName (tr a.toSpec.name none) → t' = a.toSpec := by
                intro l
                induction l with
                | nil => intro _ h; simp at h
                | cons x l ih =>
                  intro hnd h1 h2 he
                  rw [List.map_cons, List.nodup_cons] at hnd
                  rcases List.mem_cons.1 h1 with rfl | h1 <;> rcases List.mem_cons.1 h2 with h2 | h2
                  · exact h2.symm
                  · exact absurd (List.mem_map.2 ⟨_, h2, he.symm⟩) hnd.1
                  · rw [← h2] at hnd
                    exact absurd (List.mem_map.2 ⟨_, h1, he⟩) hnd.1
                  · exact ih hnd.2 h1 h2 he
              exact heq (hinj tables hn ht' hat he)
          rw [this]
          exact hai
      have hrefs : ∀ p ∈ refs, foldName (tr p.1.name none) = foldName (tr a.name none) → p.1 = a := by
        intro p hp he
        rcases writeTables_refs hw p hp with hp | ⟨t', ht', k, hk⟩
        · simp at hp
        · by_cases htt : t' = t
          · subst htt
            exact hsame _ hk he
          · exact absurd he (hother t' ht' htt _ hk)
      obtain ⟨u, vss, f1, f2, f3, f4, f5⟩ := writeRefs_same h hl hrefs
      obtain ⟨sts, g1, g2⟩ := writeTables_filter hw (P := fun p => decide (tr p.1.name none = tr a.name none)) hnd ht hg (by
        intro t' ht' hne p hp l
        simpa using fun he => hother t' ht' hne p hp (congrArg foldName he))
      refine ⟨u, vss, sts, f1, f3, ?_, g1, ?_, ?_⟩
      · rw [f3]
        exact h2 _ hat
      · rw [g2] at f4
        simpa using f4
      · rw [f5, f3]
        rfl

end
end Csvw.Db
