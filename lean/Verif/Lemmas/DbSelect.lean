import Verif.Lemmas.DbRefs
import Verif.Py.StrLemmas
/-!
# Lemmas about reading association tables
-/

namespace Csvw.Db
open Csvw.Datatypes Csvw.Py Csvw.Spec

/-! ## Splitting contexts -/

theorem bars_acc (k : Nat) (acc acc' s : Str) : (splitGo ['|', '|'] k acc s).length = (splitGo ['|', '|'] k acc' s).length := by
  induction s generalizing k acc acc' with
  | nil => simp [splitGo]
  | cons c s ih =>
    cases k with
    | succ k => simp only [splitGo]; exact ih ..
    | zero =>
      simp only [splitGo]
      split
      · simp only [List.length_cons]
      · exact ih ..

theorem bars_mono (n : Nat) (s : Str) (hn : s.length ≤ n) (c : Char) :
    (splitGo ['|', '|'] 0 [] s).length ≤ (splitGo ['|', '|'] 0 [] (c :: s)).length := by
  induction n using Nat.strongRecOn generalizing s c with
  | ind n ih =>
    show _ ≤ (if _ then _ else _ : List Str).length
    split
    · simp only [List.reverse_nil, List.length_cons, List.length_nil]
      cases s with
      | nil => simp [splitGo]
      | cons d s' =>
        show (splitGo ['|', '|'] 0 [] (d :: s')).length ≤ (splitGo ['|', '|'] 0 [] s').length + 1
        show (if _ then _ else _ : List Str).length ≤ _
        split
        · simp only [List.reverse_nil, List.length_cons, List.length_nil]
          cases s' with
          | nil => simp [splitGo]
          | cons e s'' =>
            show (splitGo ['|', '|'] 0 [] s'').length + 1 ≤ _
            have := ih s''.length (by simp only [List.length_cons] at hn; omega) s'' (Nat.le_refl _) e
            omega
        · rw [bars_acc 0 [d] []]
          omega
    · rw [bars_acc 0 [c] []]
      exact Nat.le_refl _

theorem bars_append (x s : Str) : (splitGo ['|', '|'] 0 [] s).length ≤ (splitGo ['|', '|'] 0 [] (x ++ s)).length := by
  induction x with
  | nil => exact Nat.le_refl _
  | cons c x ih => exact Nat.le_trans ih (bars_mono _ _ (Nat.le_refl _) c)

/-- Splitting joined strings at `||` yields at least as many parts. -/
theorem bars_length (l : List Str) : l.length ≤ (split ['|', '|'] (join ['|', '|'] l)).length := by
  unfold split
  induction l with
  | nil => simp
  | cons x r ih =>
    cases r with
    | nil =>
      simp only [join, List.length_cons, List.length_nil]
      exact List.length_pos_iff.2 (splitGo_ne_nil _ _ _ _)
    | cons y r =>
      simp only [join]
      rw [List.append_assoc]
      refine Nat.le_trans ?_ (bars_append x _)
      show _ ≤ (splitGo ['|', '|'] 0 [] ('|' :: '|' :: join ['|', '|'] (y :: r))).length
      have : splitGo ['|', '|'] 0 [] ('|' :: '|' :: join ['|', '|'] (y :: r))
          = [] :: splitGo ['|', '|'] 0 [] (join ['|', '|'] (y :: r)) := by
        simp [splitGo, List.isPrefixOf]
      rw [this]
      simp only [List.length_cons] at ih ⊢
      omega

/-! ## Splitting at whitespace -/

/-- The loop of `splitSpace`. -/
def spaceGo (s : Str) : List Str :=
  s.foldr (fun c acc => if isSpace c then [] :: acc else match acc with
    | [] => [[c]]
    | w :: ws => (c :: w) :: ws) [[]]

theorem spaceGo_ne (s : Str) : spaceGo s ≠ [] := by
  cases s with
  | nil => simp [spaceGo]
  | cons c s =>
    unfold spaceGo
    rw [List.foldr_cons]
    split
    · simp
    · split <;> simp

theorem spaceGo_word {x : Str} (hx : ∀ c ∈ x, isSpace c = false) (s w : Str) (ws : List Str) (hs : spaceGo s = w :: ws) :
    spaceGo (x ++ s) = (x ++ w) :: ws := by
  induction x with
  | nil => exact hs
  | cons c x ih =>
    have := ih fun c hc => hx c (List.mem_cons_of_mem _ hc)
    unfold spaceGo at this ⊢
    rw [List.cons_append, List.foldr_cons, this, hx c (List.mem_cons_self ..)]
    simp

theorem spaceGo_join {l : List Str} (hl : l ≠ []) (h : ∀ x ∈ l, ∀ c ∈ x, isSpace c = false) : spaceGo (join [' '] l) = l := by
  induction l with
  | nil => exact absurd rfl hl
  | cons x r ih =>
    cases r with
    | nil =>
      have := spaceGo_word (h x (List.mem_cons_self ..)) [] [] [] rfl
      simpa [join] using this
    | cons y r =>
      have hr := ih (by simp) fun x hx => h x (List.mem_cons_of_mem _ hx)
      have hsp : spaceGo ([' '] ++ join [' '] (y :: r)) = [] :: (y :: r) := by
        unfold spaceGo at hr ⊢
        rw [List.cons_append, List.nil_append, List.foldr_cons, hr]
        rfl
      have := spaceGo_word (h x (List.mem_cons_self ..)) _ _ _ hsp
      simp only [join, List.append_assoc]
      rw [this]
      simp

/-- Words joined by spaces are found again. -/
theorem splitSpace_join {l : List Str} (hl : l ≠ []) (h : ∀ x ∈ l, x ≠ [] ∧ ∀ c ∈ x, isSpace c = false) :
    splitSpace (join [' '] l) = l := by
  show (spaceGo (join [' '] l)).filter _ = l
  rw [spaceGo_join hl fun x hx => (h x hx).2, List.filter_eq_self]
  intro x hx
  simpa using (h x hx).1

/-! ## Selecting -/

/-- Key, item, and context. -/
structure Link where
  key : Str
  item : Str
  ctx : Str

/-- A row of an association table. -/
def linkRow (A B C : Str) (x : Link) : Row := [(A, .text x.key), (B, .text x.item), (C, .text x.ctx)]

theorem column_A {A B C : Str} (l : List Link) : column A (l.map (linkRow A B C)) = l.map fun x => .text x.key := by
  unfold column
  rw [List.map_map]
  apply List.map_congr_left
  intro x _
  simp [linkRow, Dict.get]

theorem column_B {A B C : Str} (hAB : A ≠ B) (l : List Link) : column B (l.map (linkRow A B C)) = l.map fun x => .text x.item := by
  unfold column
  rw [List.map_map]
  apply List.map_congr_left
  intro x _
  simp [linkRow, Dict.get, hAB, hAB.symm]

theorem groupConcat_texts (l : List Link) (hl : l ≠ []) :
    groupConcat (l.map fun x => .text x.item) = some (join [' '] (l.map Link.item)) := by
  unfold groupConcat
  have : (l.map fun x => Sql.text x.item).filterMap sqlText = l.map Link.item := by
    rw [List.filterMap_map]
    simp [Function.comp_def, sqlText]
  rw [this]
  cases l with
  | nil => exact absurd rfl hl
  | cons x l => rfl

theorem mapM_ok {α β : Type} {f : α → Res β} {g : α → β} {l : List α} (h : ∀ x ∈ l, f x = .ok (g x)) : l.mapM f = .ok (l.map g) := by
  induction l with
  | nil => rfl
  | cons x r ih =>
    rw [List.mapM_cons, h x (List.mem_cons_self ..), ih fun y hy => h y (List.mem_cons_of_mem _ hy)]
    rfl

theorem zip_fst {α β : Type} (l : List α) (m : List β) (h : l.length ≤ m.length) : (l.zip m).map Prod.fst = l := by
  rw [List.map_fst_zip h]

/-- The items for a key. -/
def itemsOf (k : Sql) (l : List Link) : List Str := (l.filter fun x => decide (Sql.text x.key = k)).map Link.item

/-- `select_many_to_many` for a table which contains certain links. -/
theorem select_links {tr : Translator} {a : AssocSpec} {context : Str} {db : Database} {u : DbTable} {L : List Link}
    (hq : '\'' ∉ context) (hl : lookup (tr a.name none) db = some u)
    (hu : u.rows = L.map (linkRow (tr a.name (some a.acol)) (tr a.name (some a.bcol)) "context".toList))
    (hAB : tr a.name (some a.acol) ≠ tr a.name (some a.bcol)) (hAC : tr a.name (some a.acol) ≠ "context".toList)
    (hBC : tr a.name (some a.bcol) ≠ "context".toList)
    (hw : ∀ x ∈ L, x.ctx = context → x.item ≠ [] ∧ ∀ c ∈ x.item, isSpace c = false) :
    selectManyToMany tr a context db = .ok ((((L.filter fun x => decide (x.ctx = context)).map fun x => Sql.text x.key).eraseDups).map fun k =>
      (k, itemsOf k (L.filter fun x => decide (x.ctx = context)))) := by
  unfold selectManyToMany
  generalize "context".toList = C at *
  rw [if_neg hq, show db.find? (fun t => foldName t.name = foldName (tr a.name none)) = some u from hl]
  simp only
  generalize hM : (L.filter fun x => decide (x.ctx = context)) = M
  have hMw : ∀ x ∈ M, x.item ≠ [] ∧ ∀ c ∈ x.item, isSpace c = false := by
    intro x hx
    rw [← hM, List.mem_filter] at hx
    exact hw x hx.1 (by simpa using hx.2)
  have hrows : (u.rows.filter fun r => decide (Dict.get C r = some (.text context)))
      = M.map (linkRow (tr a.name (some a.acol)) (tr a.name (some a.bcol)) C) := by
    rw [hu, List.filter_map, ← hM]
    congr 1
    apply List.filter_congr
    intro x _
    have h1 := hAC.symm
    have h2 := hBC.symm
    simp [Function.comp_def, linkRow, Dict.get, h1, h2, hAC, hBC]
  rw [hrows, column_A]
  apply mapM_ok
  intro k hk
  rw [List.mem_eraseDups, List.mem_map] at hk
  obtain ⟨x0, hx0, hxk⟩ := hk
  have hmine : (M.map (linkRow (tr a.name (some a.acol)) (tr a.name (some a.bcol)) C)).filter
      (fun r => decide (Dict.get (tr a.name (some a.acol)) r = some k))
      = (M.filter fun x => decide (Sql.text x.key = k)).map (linkRow (tr a.name (some a.acol)) (tr a.name (some a.bcol)) C) := by
    rw [List.filter_map]
    congr 1
    apply List.filter_congr
    intro x _
    simp [Function.comp_def, linkRow, Dict.get]
  rw [hmine, column_B hAB, groupConcat_texts]
  · simp only
    have hne : (M.filter fun x => decide (Sql.text x.key = k)).map Link.item ≠ [] := by
      intro he
      rw [List.map_eq_nil_iff] at he
      have : x0 ∈ (M.filter fun x => decide (Sql.text x.key = k)) := List.mem_filter.2 ⟨hx0, by simpa using hxk⟩
      rw [he] at this
      simp at this
    rw [splitSpace_join hne, zip_fst]
    · rfl
    · refine Nat.le_trans ?_ (bars_length _)
      simp
    · intro s hs
      obtain ⟨x, hx, rfl⟩ := List.mem_map.1 hs
      exact hMw x (List.mem_filter.1 hx).1
  · intro he
    have : x0 ∈ (M.filter fun x => decide (Sql.text x.key = k)) := List.mem_filter.2 ⟨hx0, by simpa using hxk⟩
    rw [he] at this
    simp at this

end Csvw.Db
