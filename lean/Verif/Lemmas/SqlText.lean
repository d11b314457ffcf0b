import Verif.Model.Sql
import Verif.Spec.SqlText
import Verif.Lemmas.DecimalStr
/-! # Lemmas: tokens of SQL statements -/

namespace Csvw.Props
open Csvw Csvw.Py Csvw.Db Csvw.Spec.Sql

theorem lex_unique {s : Str} {ts us : List Tok} (h : Lex s ts) (h' : Lex s us) : ts = us := by
  induction h generalizing us with
  | nil => cases h' with
    | nil => rfl
    | skip h => cases h
    | tok h => cases h
  | skip h _ ih => cases h' with
    | nil => cases h
    | skip h1 h2 => rw [h] at h1; cases h1; exact ih h2
    | tok h1 h2 => rw [h] at h1; cases h1
  | tok h _ ih => cases h' with
    | nil => cases h
    | skip h1 h2 => rw [h] at h1; cases h1
    | tok h1 h2 => rw [h] at h1; cases h1; rw [ih h2]

/-- The text starts with a character which ends a token. -/
def Delim (r : Str) : Prop := ∀ c ∈ r.head?, c ∈ [' ', '\n', ',', '(', ')']

theorem unquote_eq {q : Char} {s r : Str} (h : q ∉ s) (hr : r.head? ≠ some q) : unquote q (s ++ q :: r) = some (s, r) := by
  induction s with
  | nil =>
    cases r with
    | nil => simp [unquote]
    | cons c r =>
      have : c ≠ q := by rintro rfl; simp at hr
      simp [unquote, this]
  | cons c s ih =>
    simp only [List.mem_cons, not_or] at h
    have ih := ih h.2
    cases hs : s ++ q :: r with
    | nil => simp at hs
    | cons c' r' =>
      rw [hs] at ih
      rw [List.cons_append, hs]
      unfold unquote
      rw [if_neg (Ne.symm h.1), ih]
      rfl

theorem delim_head {r : Str} (h : Delim r) {q : Char} (hq : q ∉ [' ', '\n', ',', '(', ')']) : r.head? ≠ some q := by
  intro e
  exact hq (h q e)

theorem lex_tick {n r : Str} {us : List Tok} (hn : '`' ∉ n) (hr : Delim r) (h : Lex r us) : Lex (tick n ++ r) (.name n :: us) := by
  refine .tok ?_ h
  have he : tick n ++ r = '`' :: (n ++ '`' :: r) := by simp [tick]
  rw [he]
  show Option.map _ (unquote '`' (n ++ '`' :: r)) = _
  rw [unquote_eq hn (delim_head hr (by decide))]
  rfl

theorem lex_text {n r : Str} {us : List Tok} (hn : '\'' ∉ n) (hr : Delim r) (h : Lex r us) : Lex ('\'' :: (n ++ '\'' :: r)) (.text n :: us) := by
  refine .tok ?_ h
  show Option.map _ (unquote '\'' (n ++ '\'' :: r)) = _
  rw [unquote_eq hn (delim_head hr (by decide))]
  rfl

theorem takeWhile_delim {p : Char → Bool} {s r : Str} (h : ∀ c ∈ s, p c = true) (hr : ∀ c ∈ r.head?, p c = false) :
    (s ++ r).takeWhile p = s ∧ (s ++ r).dropWhile p = r := by
  induction s with
  | nil =>
    cases r with
    | nil => simp
    | cons c r => simp [hr c (by simp)]
  | cons c s ih =>
    obtain ⟨h1, h2⟩ := ih fun d hd => h d (List.mem_cons_of_mem _ hd)
    simp [h c (by simp), h1, h2]

theorem delim_class {p : Char → Bool} {r : Str} (hr : Delim r) (hp : p ' ' = false ∧ p '\n' = false ∧ p ',' = false ∧ p '(' = false ∧ p ')' = false) :
    ∀ c ∈ r.head?, p c = false := by
  intro c hc
  have := hr c hc
  simp only [List.mem_cons, List.not_mem_nil, or_false] at this
  obtain ⟨h1, h2, h3, h4, h5⟩ := hp
  rcases this with rfl | rfl | rfl | rfl | rfl <;> assumption

/-- A keyword. -/
def SqlWord (s : Str) : Prop := ∃ c s', s = c :: s' ∧ c.isAlpha = true ∧ ∀ d ∈ s', isIdChar d = true

theorem alpha_first {c : Char} (h : c.isAlpha = true) : isBlank c = false ∧ ¬ (c = '`' ∨ c = '"') ∧ c ≠ '\'' ∧ c.isDigit = false ∧ isIdStart c = true := by
  refine ⟨?_, ?_, ?_, ?_, ?_⟩
  · unfold isBlank
    simp only [Bool.or_eq_false_iff, decide_eq_false_iff_not]
    refine ⟨⟨⟨⟨?_, ?_⟩, ?_⟩, ?_⟩, ?_⟩ <;> (rintro rfl; revert h; decide)
  · rintro (rfl | rfl) <;> (revert h; decide)
  · rintro rfl; revert h; decide
  · cases hd : c.isDigit with
    | false => rfl
    | true =>
      exfalso
      simp only [Char.isAlpha, Char.isUpper, Char.isLower, Char.isDigit, Bool.or_eq_true, Bool.and_eq_true, decide_eq_true_eq] at h hd
      obtain ⟨h1, h2⟩ := hd
      rcases h with ⟨h, h'⟩ | ⟨h, h'⟩
      · exact absurd (UInt32.le_trans h h2) (by decide)
      · exact absurd (UInt32.le_trans h h2) (by decide)
  · simp [isIdStart, h]

theorem lex_word {s r : Str} {us : List Tok} (hs : SqlWord s) (hr : Delim r) (h : Lex r us) : Lex (s ++ r) (.word s :: us) := by
  obtain ⟨c, s', rfl, hc, hd⟩ := hs
  refine .tok ?_ h
  obtain ⟨h1, h2, h3, h4, h5⟩ := alpha_first hc
  obtain ⟨h6, h7⟩ := takeWhile_delim hd (delim_class hr (p := isIdChar) (by decide))
  rw [List.cons_append]
  unfold first
  dsimp only
  rw [h1, if_neg (by simp), if_neg h2, if_neg h3, h4, if_neg (by simp), if_pos h5, h6, h7]

theorem lex_sym {c : Char} {r : Str} {us : List Tok} (hc : c ∈ ['(', ')', ',', '?', '*', '=']) (h : Lex r us) : Lex (c :: r) (.sym [c] :: us) := by
  refine .tok ?_ h
  simp only [List.mem_cons, List.not_mem_nil, or_false] at hc
  rcases hc with rfl | rfl | rfl | rfl | rfl | rfl <;> rfl

theorem lex_op {c : Char} {r : Str} {us : List Tok} (hc : c = '<' ∨ c = '>') (h : Lex r us) : Lex (c :: '=' :: r) (.sym [c, '='] :: us) := by
  refine .tok ?_ h
  rcases hc with rfl | rfl <;> rfl

theorem lex_blank {c : Char} {r : Str} {us : List Tok} (hc : isBlank c = true) (h : Lex r us) : Lex (c :: r) us :=
  .skip (by unfold first; dsimp only; rw [if_pos hc]) h

/-- Numerals: digits, possibly a fraction and an exponent. -/
structure Numeral (s : Str) : Prop where
  start : ∃ c s', s = c :: s' ∧ c.isDigit = true
  all : ∀ r, Delim r → number (s ++ r) = (s, r)

theorem lex_num {s r : Str} {us : List Tok} (hs : Numeral s) (hr : Delim r) (h : Lex r us) : Lex (s ++ r) (.num s :: us) := by
  obtain ⟨⟨c, s', rfl, hc⟩, h1⟩ := hs
  refine .tok ?_ h
  have h2 := h1 r hr
  have hne : isBlank c = false ∧ ¬ (c = '`' ∨ c = '"') ∧ c ≠ '\'' := by
    refine ⟨?_, ?_, ?_⟩
    · unfold isBlank
      simp only [Bool.or_eq_false_iff, decide_eq_false_iff_not]
      refine ⟨⟨⟨⟨?_, ?_⟩, ?_⟩, ?_⟩, ?_⟩ <;> (rintro rfl; revert hc; decide)
    · rintro (rfl | rfl) <;> (revert hc; decide)
    · rintro rfl; revert hc; decide
  rw [List.cons_append] at h2 ⊢
  unfold first
  dsimp only
  rw [hne.1, if_neg (by simp), if_neg hne.2.1, if_neg hne.2.2, if_pos hc, h2]
  cases r with
  | nil => rfl
  | cons d r =>
    have := delim_class hr (p := isIdChar) (by decide) d (by simp)
    simp [this]

theorem lex_minus {s r : Str} {us : List Tok} (hs : Numeral s) (hr : Delim r) (h : Lex r us) : Lex ('-' :: s ++ r) (.sym ['-'] :: .num s :: us) := by
  refine .tok ?_ (lex_num hs hr h)
  obtain ⟨⟨c, s', rfl, hc⟩, _⟩ := hs
  have hd : c ≠ '-' := by rintro rfl; revert hc; decide
  simp [first, isBlank, Char.isDigit, isIdStart, Char.isAlpha, Char.isUpper, Char.isLower, hd]

theorem exponent_delim {r : Str} (hr : Delim r) : exponent r = ([], r) := by
  have h := delim_class hr (p := fun c => c = 'e' || c = 'E') (by decide)
  match r with
  | [] => rfl
  | [c] => rfl
  | c :: d :: r =>
    have := h c (by simp)
    simp only [Bool.or_eq_false_iff, decide_eq_false_iff_not] at this
    unfold exponent
    dsimp only
    rw [if_neg (by simp [this])]

theorem fraction_delim {r : Str} (hr : Delim r) : fraction r = ([], r) := by
  have h := delim_class hr (p := fun c => c = '.') (by decide)
  match r with
  | [] => rfl
  | c :: r =>
    have := h c (by simp)
    simp only [decide_eq_false_iff_not] at this
    unfold fraction
    split
    · rename_i he
      cases he
      simp at this
    · rfl

/-- The exponent of a numeral. -/
def Exponent (e : Str) : Prop := e = [] ∨ ∃ c d, e = 'E' :: c :: d ∧ (c = '+' ∨ c = '-') ∧ d ≠ [] ∧ ∀ x ∈ d, x.isDigit = true

theorem exponent_eq {e r : Str} (he : Exponent e) (hr : Delim r) : exponent (e ++ r) = (e, r) := by
  rcases he with rfl | ⟨c, d, rfl, hc, hd, hx⟩
  · exact exponent_delim hr
  · obtain ⟨h1, h2⟩ := takeWhile_delim hx (delim_class hr (p := Char.isDigit) (by decide))
    have hcd : c.isDigit = false := by rcases hc with rfl | rfl <;> decide
    obtain ⟨a, d', rfl⟩ : ∃ a d', d = a :: d' := by
      cases d with
      | nil => simp at hd
      | cons a d' => exact ⟨a, d', rfl⟩
    have ha := hx a (by simp)
    simp only [List.cons_append] at h1 h2 ⊢
    unfold exponent
    dsimp only
    rw [if_pos (.inr rfl), hcd, if_neg (by simp), if_pos ⟨hc, ha⟩, h1, h2]

theorem numeral_sql {a b e : Str} (hne : a ≠ []) (ha : ∀ c ∈ a, c.isDigit = true) (hb : ∀ c ∈ b, c.isDigit = true) (he : Exponent e) :
    Numeral (a ++ (if b = [] then [] else '.' :: b) ++ e) := by
  refine ⟨?_, ?_⟩
  · cases a with
    | nil => simp at hne
    | cons c s => exact ⟨c, _, rfl, ha c (by simp)⟩
  · intro r hr
    have hed : ∀ c ∈ (e ++ r).head?, c.isDigit = false ∧ c ≠ '.' := by
      rcases he with rfl | ⟨c, d, rfl, _⟩
      · intro c hc
        refine ⟨delim_class hr (p := Char.isDigit) (by decide) c hc, ?_⟩
        have := delim_class hr (p := fun c => decide (c = '.')) (by decide) c hc
        simpa using this
      · simp
    have hfrac : fraction ((if b = [] then [] else '.' :: b) ++ (e ++ r)) = (if b = [] then [] else '.' :: b, e ++ r) := by
      split
      · rw [List.nil_append]
        unfold fraction
        split
        · rename_i h
          exact absurd rfl (hed '.' (by rw [h]; simp)).2
        · rfl
      · rw [List.cons_append]
        obtain ⟨h1, h2⟩ := takeWhile_delim hb fun c hc => (hed c hc).1
        show ('.' :: List.takeWhile Char.isDigit (b ++ (e ++ r)), List.dropWhile Char.isDigit (b ++ (e ++ r))) = _
        rw [h1, h2]
    have hia : ∀ c ∈ ((if b = [] then [] else '.' :: b) ++ (e ++ r)).head?, c.isDigit = false := by
      split
      · exact fun c hc => (hed c hc).1
      · simp
    obtain ⟨h1, h2⟩ := takeWhile_delim ha hia
    unfold number
    rw [List.append_assoc, List.append_assoc, h1, h2, hfrac]
    dsimp only
    rw [exponent_eq he hr]

theorem numeral_digits_sql {s : Str} (hne : s ≠ []) (h : ∀ c ∈ s, c.isDigit = true) : Numeral s := by
  refine ⟨?_, ?_⟩
  · cases s with
    | nil => simp at hne
    | cons c s => exact ⟨c, s, rfl, h c (by simp)⟩
  · intro r hr
    obtain ⟨h1, h2⟩ := takeWhile_delim h (delim_class hr (p := Char.isDigit) (by decide))
    unfold number
    rw [h1, h2, fraction_delim hr]
    simp [exponent_delim hr]

theorem numeral_dec (c : Nat) (e : Int) : Numeral ((Dec.fin false c e).toStr false) := by
  have hdig := fun x hx => Dec.isDigit_digits (n := c) x hx
  unfold Dec.toStr Dec.toStrDot
  dsimp only
  generalize (if e ≤ 0 ∧ e + ((Dec.digits c).length : Int) > -6 then e + ((Dec.digits c).length : Int) else 1) = dot
  have hs : (Dec.splitDot (Dec.digits c) dot).1 ≠ [] ∧ (∀ x ∈ (Dec.splitDot (Dec.digits c) dot).1, x.isDigit = true) ∧
      ∀ x ∈ (Dec.splitDot (Dec.digits c) dot).2, x.isDigit = true := by
    unfold Dec.splitDot
    split
    · refine ⟨by simp, by simp, ?_⟩
      intro x hx
      rcases List.mem_append.1 hx with h | h
      · rw [(List.mem_replicate.1 h).2]; decide
      · exact hdig x h
    · split
      · refine ⟨by simp [Dec.digits_ne_nil], ?_, by simp⟩
        intro x hx
        rcases List.mem_append.1 hx with h | h
        · exact hdig x h
        · rw [(List.mem_replicate.1 h).2]; decide
      · rename_i h1 h2
        refine ⟨?_, fun x hx => hdig x (List.mem_of_mem_take hx), fun x hx => hdig x (List.mem_of_mem_drop hx)⟩
        intro h
        have := congrArg List.length h
        simp only [List.length_take, List.length_nil] at this
        omega
  refine numeral_sql hs.1 hs.2.1 hs.2.2 ?_
  split
  · exact .inl rfl
  · refine .inr ⟨_, _, rfl, ?_, Dec.digits_ne_nil _, fun x hx => Dec.isDigit_digits x hx⟩
    split
    · exact .inr rfl
    · exact .inl rfl

end Csvw.Props
