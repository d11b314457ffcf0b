import Verif.Lemmas.Db
import Verif.Py.StrLemmas
/-!
# C46: lists of strings in the database
-/

namespace Csvw.Props
open Csvw.Py Csvw.Db Csvw.Datatypes

/-! ## Specification -/

/-- The items of a list can be told apart when joined by the separator: the separator does not occur in the last item, and in any other
item followed by the separator, it occurs at the end only. -/
def Separable (sep : Str) : List Str → Prop
  | [] => True
  | [p] => ∀ a b, p ≠ a ++ sep ++ b
  | p :: q :: r => (∀ a b, p ++ sep = a ++ sep ++ b → b = []) ∧ Separable sep (q :: r)

/-- A value which is written for a column is read as the value `v'`. -/
def ReadAs (ext : Ext) (sx : SqlExt) (c : ColSpec) (v v' : CVal) : Prop :=
  ∃ w, stored ext sx c v = .ok w ∧ loaded ext sx c (affinity sx c.dbType w) = .ok v'

/-! ## Proof -/

theorem not_noEarly_head {sep p rest : Str} (hs : sep ≠ []) (h : ¬ NoEarly sep p) :
    ∃ a r, split sep (p ++ sep ++ rest) = a :: r ∧ a.length < p.length := by
  have : ∃ a b, p ++ sep = a ++ sep ++ b ∧ b ≠ [] := by
    unfold NoEarly at h
    simpa using h
  obtain ⟨a, b, hab, hb⟩ := this
  generalize hn : a.length = n
  induction n using Nat.strongRecOn generalizing a b with
  | ind n ih =>
    by_cases ha : NoEarly sep a
    · refine ⟨a, split sep (b ++ rest), ?_, ?_⟩
      · unfold split
        rw [show p ++ sep ++ rest = a ++ sep ++ (b ++ rest) by rw [hab]; simp, splitGo_part sep hs a _ [] ha]
        rfl
      · have := congrArg List.length hab
        simp only [List.length_append] at this
        have hb' : 0 < b.length := List.length_pos_iff.2 hb
        omega
    · have : ∃ a' b', a ++ sep = a' ++ sep ++ b' ∧ b' ≠ [] := by
        unfold NoEarly at ha
        simpa using ha
      obtain ⟨a', b', hab', hb'⟩ := this
      refine ih a'.length ?_ a' (b' ++ b) ?_ ?_ rfl
      · have := congrArg List.length hab'
        simp only [List.length_append] at this
        have hb'' : 0 < b'.length := List.length_pos_iff.2 hb'
        omega
      · rw [hab, hab']; simp
      · simp [hb']

/-- When is splitting the inverse of joining? -/
theorem split_join_iff {sep : Str} (hs : sep ≠ []) {l : List Str} (hl : l ≠ []) : split sep (join sep l) = l ↔ Separable sep l := by
  induction l with
  | nil => exact absurd rfl hl
  | cons p r ih =>
    cases r with
    | nil =>
      simp only [join, Separable]
      cases hc : contains sep p with
      | true =>
        obtain ⟨a, b, hab⟩ := (contains_iff _ _).1 hc
        constructor
        · intro h
          exfalso
          have h1 : ¬ NoEarly sep a ∨ NoEarly sep a := (Classical.em _).symm
          have h2 : ∃ x y, split sep p = x :: y ∧ x.length < p.length := by
            have hlen : a.length < p.length := by
              rw [hab]
              have : 0 < sep.length := List.length_pos_iff.2 hs
              simp only [List.length_append]
              omega
            rcases h1 with h1 | h1
            · obtain ⟨x, y, hxy, hx⟩ := not_noEarly_head (rest := b) hs h1
              exact ⟨x, y, by rw [hab]; exact hxy, by omega⟩
            · refine ⟨a, split sep b, ?_, hlen⟩
              unfold split
              rw [hab, splitGo_part sep hs a _ [] h1]
              rfl
          obtain ⟨x, y, hxy, hx⟩ := h2
          rw [h] at hxy
          cases hxy
          omega
        · intro h
          exact absurd hab (h a b)
      | false =>
        constructor
        · intro _ a b hab
          rw [(contains_iff _ _).2 ⟨a, b, hab⟩] at hc
          cases hc
        · intro _
          unfold split
          rw [splitGo_last sep hs p [] hc]
          rfl
    | cons q r =>
      rw [join_cons_cons]
      simp only [Separable]
      by_cases hp : NoEarly sep p
      · rw [← ih (by simp)]
        have : split sep (p ++ sep ++ join sep (q :: r)) = p :: split sep (join sep (q :: r)) := by
          unfold split
          rw [splitGo_part sep hs p _ [] hp]
          rfl
        rw [this]
        constructor
        · intro h
          exact ⟨hp, (List.cons.injEq .. ▸ h).2⟩
        · rintro ⟨-, h⟩
          rw [h]
      · constructor
        · intro h
          obtain ⟨a, r', ha, hlen⟩ := not_noEarly_head (rest := join sep (q :: r)) hs hp
          rw [h] at ha
          cases ha
          omega
        · rintro ⟨h, -⟩
          exact absurd h hp

/-- For a separator of one character, the condition is that the items do not contain it. -/
theorem separable_char {ch : Char} {l : List Str} : Separable [ch] l ↔ ∀ p ∈ l, ch ∉ p := by
  have hmem : ∀ {p : Str}, ch ∈ p → ∃ a b, p = a ++ [ch] ++ b := by
    intro p hp
    obtain ⟨a, b, h⟩ := List.append_of_mem hp
    exact ⟨a, b, by rw [h]; simp⟩
  induction l with
  | nil => simp [Separable]
  | cons p r ih =>
    cases r with
    | nil =>
      simp only [Separable, List.mem_singleton, forall_eq]
      constructor
      · intro h hm
        obtain ⟨a, b, hab⟩ := hmem hm
        exact h a b hab
      · intro h a b hab
        apply h
        rw [hab]
        simp
    | cons q r =>
      simp only [Separable]
      constructor
      · rintro ⟨h1, h2⟩ x hx
        rcases List.mem_cons.1 hx with rfl | hx
        · intro hm
          obtain ⟨a, b, hab⟩ := hmem hm
          have := h1 a (b ++ [ch]) (by rw [hab]; simp)
          simp at this
        · exact ih.1 h2 x hx
      · intro h
        exact ⟨noEarly_char ch p (h p (List.mem_cons_self ..)), ih.2 fun x hx => h x (List.mem_cons_of_mem _ hx)⟩

section
variable {ext : Ext} {sx : SqlExt} {c : ColSpec}

theorem joinItems_str (l : List Str) : joinItems ext (l.map .str) = .ok l := by
  induction l with
  | nil => rfl
  | cons a r ih =>
    rw [List.map_cons]
    unfold joinItems
    rw [ih]
    rfl

theorem join_eq_nil {sep : Str} (hs : sep ≠ []) {l : List Str} : join sep l = [] ↔ l = [] ∨ l = [[]] := by
  match l with
  | [] => simp [join]
  | [x] => simp [join]
  | x :: y :: r =>
    rw [join_cons_cons]
    simp [hs]

/-- What a list of strings is read as. -/
theorem read_list (hb : c.base = .string) {sep : Str} (hsep : c.separator = some sep) (hs : sep ≠ []) (l : List Str) :
    ReadAs ext sx c (.many (l.map .str)) (.many ((if l = [] ∨ l = [[]] then [] else split sep (join sep l)).map .str)) := by
  refine ⟨.text (join sep l), ?_, ?_⟩
  · unfold stored asList
    simp only
    rw [if_pos hb, joinItems_str, hsep]
    rfl
  · have hty : c.dbType = .text := by
      unfold ColSpec.dbType
      rw [hsep]
      simp
    rw [hty]
    simp only [affinity]
    unfold loaded
    rw [hsep]
    simp only [sqlFalsy, reduceCtorEq, if_false, decide_eq_true_eq]
    by_cases hj : l = [] ∨ l = [[]]
    · rw [if_pos ((join_eq_nil hs).2 hj), if_pos hj]
      rfl
    · rw [if_neg (fun h => hj ((join_eq_nil hs).1 h)), if_neg hj, if_pos hb]

/-- **C46** Exactly when is a list of strings read as it was written: it is empty, or its items can be told apart (and it is not the list
of one empty string). -/
theorem C46_iff (hb : c.base = .string) {sep : Str} (hsep : c.separator = some sep) (hs : sep ≠ []) (l : List Str) :
    ReadAs ext sx c (.many (l.map .str)) (.many (l.map .str)) ↔ l = [] ∨ (l ≠ [[]] ∧ Separable sep l) := by
  have hr := read_list (ext := ext) (sx := sx) hb hsep hs l
  have huniq : ∀ {v v' v'' : CVal}, ReadAs ext sx c v v' → ReadAs ext sx c v v'' → v' = v'' := by
    rintro v v' v'' ⟨w, h1, h2⟩ ⟨w', h3, h4⟩
    rw [h1] at h3
    cases h3
    rw [h2] at h4
    cases h4
    rfl
  have hinj : ∀ {a b : List Str}, CVal.many (a.map .str) = CVal.many (b.map .str) → a = b := by
    intro a b h
    injection h with h
    exact List.map_inj_right (by intro x y hxy; injection hxy) |>.1 h
  constructor
  · intro h
    have := hinj (huniq hr h)
    by_cases hl : l = []
    · exact .inl hl
    · by_cases hl2 : l = [[]]
      · rw [if_pos (.inr hl2), hl2] at this
        cases this
      · rw [if_neg (by simp [hl, hl2])] at this
        exact .inr ⟨hl2, (split_join_iff hs hl).1 this⟩
  · rintro (rfl | ⟨h1, h2⟩)
    · exact hr
    · by_cases hl : l = []
      · subst hl; exact hr
      · rw [if_neg (by simp [hl, h1]), (split_join_iff hs hl).2 h2] at hr
        exact hr

/-- **C46** For a separator of one character. -/
theorem C46_char (hb : c.base = .string) {ch : Char} (hsep : c.separator = some [ch]) (l : List Str) :
    ReadAs ext sx c (.many (l.map .str)) (.many (l.map .str)) ↔ l ≠ [[]] ∧ ∀ p ∈ l, ch ∉ p := by
  rw [C46_iff hb hsep (by simp), separable_char]
  constructor
  · rintro (rfl | h)
    · simp
    · exact h
  · exact .inr

/-- **C46** `None` is read as `None`. -/
theorem C46_none : ReadAs ext sx c (.one .none) (.one .none) := by
  refine ⟨.null, ?_, ?_⟩
  · rfl
  · have : affinity sx c.dbType .null = .null := by unfold affinity; rfl
    rw [this]
    unfold loaded
    cases c.separator <;> simp

/-- **C46 does not hold** for lists with a single empty string, and for items which contain the separator. -/
theorem C46_violated (hb : c.base = .string) (hsep : c.separator = some ";".toList) :
    ReadAs ext sx c (.many [.str []]) (.many []) ∧
    ReadAs ext sx c (.many [.str "a;b".toList]) (.many [.str "a".toList, .str "b".toList]) := by
  constructor
  · exact read_list (ext := ext) (sx := sx) hb hsep (by decide) [[]]
  · exact read_list (ext := ext) (sx := sx) hb hsep (by decide) ["a;b".toList]

end
end Csvw.Props
