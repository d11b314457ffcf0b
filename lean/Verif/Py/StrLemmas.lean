import Verif.Py.Basic
/-! # Lemmas about the string primitives -/

namespace Csvw.Py

theorem replace_char (c : Char) (new : Str) (s : Str) :
    replace [c] new s = s.flatMap (fun x => if x = c then new else [x]) := by
  unfold replace
  induction s with
  | nil => rfl
  | cons x xs ih =>
    simp only [replaceGo, List.flatMap_cons]
    by_cases h : c = x
    · subst h
      simp only [List.isPrefixOf_cons₂_self, List.isPrefixOf_nil_left, if_true, List.length_singleton, Nat.sub_self, ih]
    · have : ([c].isPrefixOf (x :: xs)) = false := by simp [List.isPrefixOf, h]
      simp only [this, Bool.false_eq_true, if_false, ih, Ne.symm h, List.singleton_append]

theorem join_cons_cons (sep x y : Str) (r : List Str) : join sep (x :: y :: r) = x ++ sep ++ join sep (y :: r) := rfl

/-- Every character of a joined string comes from a part or the separator. -/
theorem mem_join {c : Char} {sep : Str} {l : List Str} (h : c ∈ join sep l) : c ∈ sep ∨ ∃ p ∈ l, c ∈ p := by
  induction l with
  | nil => simp [join] at h
  | cons x l ih =>
    cases l with
    | nil => simp only [join] at h; exact .inr ⟨x, by simp, h⟩
    | cons y r =>
      rw [join_cons_cons] at h
      simp only [List.mem_append] at h
      rcases h with (h | h) | h
      · exact .inr ⟨x, by simp, h⟩
      · exact .inl h
      · rcases ih h with h | ⟨p, hp, hc⟩
        · exact .inl h
        · exact .inr ⟨p, by simp [hp], hc⟩

theorem splitGo_ne_nil (sep : Str) (k : Nat) (acc s : Str) : splitGo sep k acc s ≠ [] := by
  induction s generalizing k acc with
  | nil => simp [splitGo]
  | cons c cs ih =>
    cases k with
    | succ k => simp only [splitGo]; exact ih k acc
    | zero =>
      simp only [splitGo]
      split
      · simp
      · exact ih 0 _

/-- Joining what was split. The `k` characters to be skipped are dropped. -/
theorem join_splitGo (sep : Str) (hs : sep ≠ []) (s : Str) :
    ∀ (k : Nat) (acc : Str), join sep (splitGo sep k acc s) = acc.reverse ++ s.drop k := by
  induction s with
  | nil => intro k acc; simp [splitGo, join]
  | cons c cs ih =>
    intro k acc
    cases k with
    | succ k => simp only [splitGo, List.drop_succ_cons]; exact ih k acc
    | zero =>
      simp only [splitGo, List.drop_zero]
      split
      · next h =>
        have hne := splitGo_ne_nil sep (sep.length - 1) [] cs
        have hih := ih (sep.length - 1) []
        cases hsp : splitGo sep (sep.length - 1) [] cs with
        | nil => exact absurd hsp hne
        | cons y r =>
          rw [hsp] at hih
          rw [join_cons_cons, hih]
          simp only [List.reverse_nil, List.nil_append, List.append_assoc]
          congr 1
          obtain ⟨t, ht⟩ := List.isPrefixOf_iff_prefix.1 h
          cases sep with
          | nil => exact absurd rfl hs
          | cons a sep =>
            simp only [List.cons_append, List.cons.injEq] at ht
            obtain ⟨rfl, rfl⟩ := ht
            simp
      · rw [ih]; simp

theorem join_split (sep : Str) (hs : sep ≠ []) (s : Str) : join sep (split sep s) = s := by
  unfold split; rw [join_splitGo sep hs]; simp

/-- `sep` does not occur in `p ++ sep` except at the end: the condition under which splitting finds `p` as a part. -/
def NoEarly (sep p : Str) : Prop := ∀ a b, p ++ sep = a ++ sep ++ b → b = []

theorem splitGo_skip (sep : Str) (acc : Str) (pre s : Str) : splitGo sep pre.length acc (pre ++ s) = splitGo sep 0 acc s := by
  induction pre with
  | nil => rfl
  | cons c cs ih => simp only [List.length_cons, List.cons_append, splitGo, ih]

/-- Splitting at a separator after a part without early occurrence. -/
theorem splitGo_part (sep : Str) (hs : sep ≠ []) (p rest acc : Str) (h : NoEarly sep p) :
    splitGo sep 0 acc (p ++ sep ++ rest) = (acc.reverse ++ p) :: splitGo sep 0 [] rest := by
  induction p generalizing acc with
  | nil =>
    cases sep with
    | nil => exact absurd rfl hs
    | cons a sep =>
      have : (a :: sep).isPrefixOf (a :: (sep ++ rest)) = true := by
        rw [List.isPrefixOf_iff_prefix]; exact ⟨rest, by simp⟩
      simp only [List.nil_append, List.cons_append, splitGo, this, if_true, List.append_nil, List.length_cons,
        Nat.add_sub_cancel]
      rw [splitGo_skip]
  | cons c p ih =>
    have hnp : sep.isPrefixOf (c :: (p ++ sep ++ rest)) = false := by
      rw [Bool.eq_false_iff]
      intro hp
      obtain ⟨t, ht⟩ := List.isPrefixOf_iff_prefix.1 hp
      -- the occurrence at the start lies within `c :: p ++ sep`
      have hlen : sep.length ≤ (c :: p ++ sep).length := by simp; omega
      have hpre : sep <+: (c :: p ++ sep) := by
        have h1 : sep <+: (c :: p ++ sep) ++ rest := ⟨t, by rw [ht]; simp⟩
        exact List.prefix_of_prefix_length_le h1 (List.prefix_append _ _) hlen
      obtain ⟨b, hb⟩ := hpre
      have := h [] b (by rw [List.nil_append, hb])
      subst this
      rw [List.append_nil] at hb
      have := congrArg List.length hb
      simp at this
      omega
    have hpr : NoEarly sep p := by
      intro a b hab
      exact h (c :: a) b (by simp [hab])
    simp only [List.cons_append, splitGo, hnp, Bool.false_eq_true, if_false]
    rw [ih _ hpr]
    simp

theorem splitGo_last (sep : Str) (hs : sep ≠ []) (p acc : Str) (h : contains sep p = false) :
    splitGo sep 0 acc p = [acc.reverse ++ p] := by
  induction p generalizing acc with
  | nil => simp [splitGo]
  | cons c p ih =>
    simp only [contains, Bool.or_eq_false_iff] at h
    simp only [splitGo, h.1, Bool.false_eq_true, if_false]
    rw [ih _ h.2]
    simp

theorem contains_iff (sub s : Str) : contains sub s = true ↔ ∃ a b, s = a ++ sub ++ b := by
  induction s with
  | nil =>
    simp only [contains, List.isEmpty_iff]
    constructor
    · rintro rfl; exact ⟨[], [], rfl⟩
    · rintro ⟨a, b, h⟩
      have := congrArg List.length h
      simp at this
      exact List.eq_nil_of_length_eq_zero (by omega)
  | cons c cs ih =>
    simp only [contains, Bool.or_eq_true, ih, List.isPrefixOf_iff_prefix]
    constructor
    · rintro (⟨t, ht⟩ | ⟨a, b, rfl⟩)
      · exact ⟨[], t, by simp [ht]⟩
      · exact ⟨c :: a, b, by simp⟩
    · rintro ⟨a, b, h⟩
      cases a with
      | nil => exact .inl ⟨b, by simpa using h.symm⟩
      | cons x a =>
        simp only [List.cons_append, List.cons.injEq] at h
        exact .inr ⟨a, b, h.2⟩

/-- Without early occurrence the part does not contain the separator (for the last part). -/
theorem NoEarly.not_contains {sep p : Str} (hs : sep ≠ []) (h : NoEarly sep p) : contains sep p = false := by
  rw [Bool.eq_false_iff]
  intro hc
  obtain ⟨a, b, hab⟩ := (contains_iff _ _).1 hc
  have := h a (b ++ sep) (by rw [hab]; simp)
  simp at this
  exact hs this.2

/-- Splitting what was joined. -/
theorem split_join (sep : Str) (hs : sep ≠ []) (l : List Str) (hl : l ≠ []) (h : ∀ p ∈ l, NoEarly sep p) :
    split sep (join sep l) = l := by
  unfold split
  induction l with
  | nil => exact absurd rfl hl
  | cons x l ih =>
    cases l with
    | nil =>
      simp only [join]
      rw [splitGo_last sep hs x [] ((h x (by simp)).not_contains hs)]
      rfl
    | cons y r =>
      rw [join_cons_cons, splitGo_part sep hs x _ [] (h x (by simp)), ih (by simp) (fun p hp => h p (by simp [hp]))]
      rfl

/-- For a one-character separator the condition is that the part does not contain the character. -/
theorem noEarly_char (c : Char) (p : Str) (h : c ∉ p) : NoEarly [c] p := by
  intro a b hab
  induction p generalizing a with
  | nil =>
    cases a with
    | nil => simpa using hab.symm
    | cons x a =>
      simp only [List.nil_append, List.cons_append, List.cons.injEq] at hab
      have := congrArg List.length hab.2
      simp at this
  | cons y p ih =>
    simp only [List.mem_cons, not_or] at h
    cases a with
    | nil =>
      simp only [List.cons_append, List.nil_append, List.cons.injEq] at hab
      exact absurd hab.1.symm h.1
    | cons x a =>
      simp only [List.cons_append, List.cons.injEq] at hab
      exact ih h.2 a hab.2

/-- The parts of a string split at a character do not contain it. -/
theorem not_mem_splitGo_char (c : Char) (s : Str) :
    ∀ acc : Str, c ∉ acc → ∀ p ∈ splitGo [c] 0 acc s, c ∉ p := by
  induction s with
  | nil => intro acc ha p hp; simp [splitGo] at hp; subst hp; simpa using ha
  | cons x xs ih =>
    intro acc ha p hp
    simp only [splitGo] at hp
    by_cases h : c = x
    · subst h
      simp only [List.isPrefixOf_cons₂_self, List.isPrefixOf_nil_left, if_true, List.length_singleton, Nat.sub_self,
        List.mem_cons] at hp
      rcases hp with rfl | hp
      · simpa using ha
      · exact ih [] (by simp) p hp
    · have : ([c].isPrefixOf (x :: xs)) = false := by simp [List.isPrefixOf, h]
      simp only [this, Bool.false_eq_true, if_false] at hp
      exact ih (x :: acc) (by simp [h, ha]) p hp

theorem not_mem_split_char (c : Char) (s : Str) : ∀ p ∈ split [c] s, c ∉ p :=
  not_mem_splitGo_char c s [] (by simp)

/-- Each part of a split string is made of its characters. -/
theorem mem_of_mem_splitGo (sep : Str) (s : Str) :
    ∀ (k : Nat) (acc : Str), ∀ p ∈ splitGo sep k acc s, ∀ x ∈ p, x ∈ acc ∨ x ∈ s := by
  induction s with
  | nil => intro k acc p hp x hx; simp [splitGo] at hp; subst hp; simp at hx; exact .inl hx
  | cons c cs ih =>
    intro k acc p hp x hx
    cases k with
    | succ k =>
      simp only [splitGo] at hp
      rcases ih k acc p hp x hx with h | h
      · exact .inl h
      · exact .inr (by simp [h])
    | zero =>
      simp only [splitGo] at hp
      split at hp
      · rcases List.mem_cons.1 hp with rfl | hp
        · exact .inl (by simpa using hx)
        · rcases ih _ _ p hp x hx with h | h
          · simp at h
          · exact .inr (by simp [h])
      · rcases ih _ _ p hp x hx with h | h
        · rcases List.mem_cons.1 h with rfl | h
          · exact .inr (by simp)
          · exact .inl h
        · exact .inr (by simp [h])

theorem mem_of_mem_split {sep s p : Str} (hp : p ∈ split sep s) {x : Char} (hx : x ∈ p) : x ∈ s := by
  rcases mem_of_mem_splitGo sep s 0 [] p hp x hx with h | h
  · simp at h
  · exact h

end Csvw.Py
