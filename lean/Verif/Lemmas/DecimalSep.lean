import Verif.Lemmas.DecimalStr
/-!
# Lemmas on writing and reading decimals with single-character separators
-/

namespace Csvw.Datatypes
open Py

/-- Number format without pattern and with separators of at most one character. -/
def fmtOf (g d : Option Char) : NumFmt := ⟨none, d.map ([·]), g.map ([·])⟩

/-- What writing does with a character. -/
def sepW (g d : Option Char) (x : Char) : Str :=
  if g = some x ∨ d = some x then
    if x = ',' then g.toList else if x = '.' then d.toList else []
  else [x]

/-- What reading does with a character. -/
def sepR (g d : Option Char) (x : Char) : Str :=
  if g = some x then [] else if d = some x then ['.'] else [x]

/-- A character which may be used as separator. -/
def sepOk (c : Char) : Prop := c.isDigit = false ∧ c ≠ '-' ∧ c ≠ '+' ∧ c ≠ 'e' ∧ c ≠ 'E'

theorem flatMap_congr' {l : Str} {f g : Char → Str} (h : ∀ x ∈ l, f x = g x) : l.flatMap f = l.flatMap g := by
  induction l with
  | nil => rfl
  | cons a l ih =>
    simp only [List.flatMap_cons, h a (by simp), ih (fun x hx => h x (by simp [hx]))]

theorem flatMap_single (l : Str) : l.flatMap (fun x => [x]) = l := by
  induction l with
  | nil => rfl
  | cons a l ih => simp only [List.flatMap_cons, ih]; rfl

theorem flatMap_flatMap (l : Str) (f g : Char → Str) : (l.flatMap f).flatMap g = l.flatMap fun x => (f x).flatMap g := by
  induction l with
  | nil => rfl
  | cons a l ih => simp only [List.flatMap_cons, List.flatMap_append, ih]

theorem substSeps_eq (g d : Option Char) (s : Str) : substSeps (fmtOf g d) s = s.flatMap (sepW g d) := by
  unfold substSeps
  have hG : (fmtOf g d).groupChar.getD [] = g.toList := by cases g <;> rfl
  have hD : (fmtOf g d).decimalChar.getD [] = d.toList := by cases d <;> rfl
  simp only [hG, hD]
  split
  · next h =>
    have hg : g = none := by cases g <;> simp_all
    have hd : d = none := by cases d <;> simp_all
    subst hg; subst hd
    symm
    refine (flatMap_congr' (g := fun x => [x]) ?_).trans (flatMap_single s)
    intro x _; simp [sepW]
  · rw [← List.flatMap_def]
    apply flatMap_congr'
    intro x _
    have : ((d.toList ++ g.toList).contains x = true) ↔ (g = some x ∨ d = some x) := by
      simp only [List.contains_iff_mem, List.mem_append, Option.mem_toList, Option.mem_def]
      exact or_comm
    unfold sepW
    by_cases hx : g = some x ∨ d = some x
    · rw [if_pos hx, if_pos (this.2 hx)]
    · rw [if_neg hx, if_neg (fun h => hx (this.1 h))]

theorem sepR_eq (g d : Option Char) (v : Str) :
    (match (fmtOf g d).decimalChar.getD [] with
      | [] => (match (fmtOf g d).groupChar.getD [] with | [] => v | g => replace g [] v)
      | d' => if d' = ['.'] then (match (fmtOf g d).groupChar.getD [] with | [] => v | g => replace g [] v)
        else replace d' ['.'] (match (fmtOf g d).groupChar.getD [] with | [] => v | g => replace g [] v)) =
      v.flatMap (sepR g d) := by
  have hid : ∀ l : Str, l = l.flatMap fun x => [x] := fun l => (flatMap_single l).symm
  have hG : (match (fmtOf g d).groupChar.getD [] with | [] => v | g => replace g [] v) =
      v.flatMap fun x => if g = some x then [] else [x] := by
    cases g with
    | none => simp [fmtOf]
    | some g =>
      simp only [fmtOf, Option.map_some, Option.getD_some, replace_char]
      apply flatMap_congr'; intro x _
      by_cases h : x = g
      · simp [h]
      · have : ¬ g = x := fun hh => h hh.symm
        simp [h, this]
  rw [hG]
  cases d with
  | none =>
    simp only [fmtOf, Option.map_none, Option.getD_none]
    apply flatMap_congr'; intro x _
    simp [sepR]
  | some d =>
    simp only [fmtOf, Option.map_some, Option.getD_some]
    by_cases hd : d = '.'
    · subst hd
      simp only [if_true]
      apply flatMap_congr'; intro x _
      unfold sepR
      by_cases h : g = some x
      · simp [h]
      · by_cases h2 : x = '.'
        · subst h2; simp [h]
        · have : ¬ '.' = x := fun hh => h2 hh.symm
          simp [h, this]
    · have : ¬ ([d] = ['.']) := by simpa using hd
      rw [if_neg this, replace_char, flatMap_flatMap]
      apply flatMap_congr'; intro x _
      unfold sepR
      by_cases h : g = some x
      · simp [h]
      · by_cases h2 : x = d
        · subst h2; simp [h]
        · have : ¬ d = x := fun hh => h2 hh.symm
          simp [h, h2, this]

theorem decToPython_sep {g d : Option Char} {v : Str} (h1 : 'e' ∉ v) (h2 : 'E' ∉ v)
    (h3 : contains [g.getD ',', g.getD ','] v = false) (h4 : ∃ x ∈ v, x.isDigit = true) :
    decToPython (fmtOf g d) v = decFactor (v.flatMap (sepR g d)) := by
  have hs : special v = none := by
    obtain ⟨x, hx, hd⟩ := h4
    have key : ∀ l : Str, (∀ y ∈ l, y.isDigit = false) → v ≠ l := by
      rintro l hl rfl
      rw [hl x hx] at hd; simp at hd
    unfold special
    rw [if_neg (key _ (by decide)), if_neg (key _ (by decide)), if_neg (key _ (by decide))]
  have hg0 : orStr (fmtOf g d).groupChar [','] = [g.getD ','] := by cases g <;> rfl
  have hgc : charFromPattern (fmtOf g d).groupChar (fmtOf g d).pattern ',' = (fmtOf g d).groupChar := by
    cases g <;> rfl
  have hdc : charFromPattern (fmtOf g d).decimalChar (fmtOf g d).pattern '.' = (fmtOf g d).decimalChar := by
    cases d <;> rfl
  unfold decToPython
  simp only [hg0, hgc, hdc]
  rw [if_neg (by simp [h1, h2]), if_neg (by simpa using h3)]
  show (match special v with
    | some d => Except.ok d
    | none => decFactor _) = _
  rw [hs, ← sepR_eq]
  rfl

/-- Adjacent equal characters in a concatenation. -/
theorem contains_double_append {c : Char} {x y : Str} (h : contains [c, c] (x ++ y) = true) :
    contains [c, c] x = true ∨ c ∈ y := by
  induction x with
  | nil =>
    obtain ⟨a, b, hab⟩ := (contains_iff _ _).1 h
    simp only [List.nil_append] at hab
    exact .inr (by rw [hab]; simp)
  | cons d x ih =>
    simp only [List.cons_append, contains, Bool.or_eq_true] at h ⊢
    rcases h with h | h
    · cases x with
      | nil =>
        cases y with
        | nil => simp [List.isPrefixOf] at h
        | cons e y =>
          simp only [List.nil_append, List.isPrefixOf, Bool.and_eq_true, beq_iff_eq] at h
          exact .inr (by simp [h.2.1])
      | cons e x =>
        refine .inl (.inl ?_)
        simpa [List.isPrefixOf] using h
    · rcases ih h with h | h
      · exact .inl (.inr h)
      · exact .inr h

theorem contains_double_append' {c : Char} {x y : Str} (hx : c ∉ x) (h : contains [c, c] (x ++ y) = true) :
    contains [c, c] y = true := by
  induction x with
  | nil => exact h
  | cons d x ih =>
    simp only [List.mem_cons, not_or] at hx
    simp only [List.cons_append, contains, Bool.or_eq_true] at h
    rcases h with h | h
    · simp only [List.isPrefixOf, Bool.and_eq_true, beq_iff_eq] at h
      exact absurd h.1 hx.1
    · exact ih hx.2 h

/-- Adjacent equal characters after mapping characters to single characters. -/
theorem contains_double_map {c : Char} {f : Char → Char} {s : Str} (h : contains [c, c] (s.map f) = true)
    (hf : ∀ x ∈ s, f x = c → x = ',') : contains [',', ','] s = true := by
  induction s with
  | nil => simp [contains] at h
  | cons d s ih =>
    simp only [List.map_cons, contains, Bool.or_eq_true] at h ⊢
    rcases h with h | h
    · cases s with
      | nil => simp [List.isPrefixOf] at h
      | cons e s =>
        simp only [List.map_cons, List.isPrefixOf, Bool.and_eq_true, beq_iff_eq] at h
        have h1 := hf d (by simp) h.1.symm
        have h2 := hf e (by simp) h.2.1.symm
        subst h1; subst h2
        exact .inl (by simp [List.isPrefixOf])
    · exact .inr (ih h (fun x hx => hf x (by simp [hx])))

theorem not_contains_double {c : Char} {s : Str} (h : c ∉ s) : contains [c, c] s = false := by
  rw [Bool.eq_false_iff]; intro hc
  obtain ⟨a, b, hab⟩ := (contains_iff _ _).1 hc
  exact h (by rw [hab]; simp)

/-- A comma makes `Decimal()` fail. -/
theorem parse_comma {neg : Bool} {x : Char} {r : Str} (hx : x.isDigit = true)
    (hr : ∀ y ∈ r, y.isDigit = true ∨ y = ',' ∨ y = '.') (hc : ',' ∈ r) :
    Dec.parse (Dec.signStr neg ++ x :: r) = none := by
  have hrange : ∀ y ∈ Dec.signStr neg ++ x :: r, 43 ≤ y.toNat ∧ y.toNat ≤ 57 := by
    intro y hy
    rcases List.mem_append.1 hy with hy | hy
    · cases neg <;> simp [Dec.signStr] at hy; subst hy; decide
    · rcases List.mem_cons.1 hy with rfl | hy
      · have := (Dec.isDigit_iff y).1 hx; omega
      · rcases hr y hy with h | h | h
        · have := (Dec.isDigit_iff y).1 h; omega
        · subst h; decide
        · subst h; decide
  have hasc : Dec.asciiNumeric (Dec.signStr neg ++ x :: r) = some (Dec.signStr neg ++ x :: r) := by
    unfold Dec.asciiNumeric
    rw [Dec.strip_eq_self, List.filter_eq_self.2]
    · apply Dec.mapOpt_eq_self
      intro c hc
      have := hrange c hc
      simp [Dec.asciiChar, show 0 < c.toNat ∧ c.toNat < 128 by omega]
    · intro c hc
      have := hrange c hc
      have : c ≠ '_' := by intro hh; subst hh; revert this; decide
      simp [this]
    · intro c hc
      have := hrange c hc
      exact Dec.isSpace_eq c (by omega) (by omega)
  have hsign : Dec.takeSign (Dec.signStr neg ++ x :: r) = (neg, x :: r) := by
    cases neg with
    | true => simp [Dec.signStr, Dec.takeSign]
    | false =>
      have h1 : x ≠ '-' := Dec.digit_ne hx (by decide)
      have h2 : x ≠ '+' := Dec.digit_ne hx (by decide)
      simp only [Dec.signStr, Bool.false_eq_true, if_false, List.nil_append]
      unfold Dec.takeSign
      split
      · next h => simp only [List.cons.injEq] at h; exact absurd h.1 h1
      · next h => simp only [List.cons.injEq] at h; exact absurd h.1 h2
      · rfl
  have hl : ∀ d u, Dec.plainChar d = false → Dec.asciiLower (x :: r) ≠ d :: u :=
    fun d u hd => Dec.lower_head_ne (.inl hx) hd
  have hpre : ∀ d u, Dec.plainChar d = false → (d :: u).isPrefixOf (Dec.asciiLower (x :: r)) = false := by
    intro d u hd
    cases hq : Dec.asciiLower (x :: r) with
    | nil => rfl
    | cons e v =>
      have : e ≠ d := fun h => hl d v hd (by rw [hq, h])
      simp [List.isPrefixOf, this.symm]
  have hmem : ∀ (s a b : Str) (f : Bool), Py.partition '.' s = (a, f, b) → ',' ∈ s → ',' ∈ a ++ b := by
    intro s
    induction s with
    | nil => simp
    | cons y s ih =>
      intro a b f h hm
      simp only [Py.partition] at h
      split at h
      · next hy =>
        simp only [Prod.mk.injEq] at h
        obtain ⟨rfl, rfl, rfl⟩ := h
        rcases List.mem_cons.1 hm with hm | hm
        · subst hy; exact absurd hm (by decide)
        · simpa using hm
      · obtain ⟨⟨a', f', b'⟩, hp⟩ : ∃ q, q = Py.partition '.' s := ⟨_, rfl⟩
        rw [← hp] at h
        simp only [Prod.mk.injEq] at h
        obtain ⟨rfl, rfl, rfl⟩ := h
        rcases List.mem_cons.1 hm with hm | hm
        · simp [← hm]
        · simp only [List.cons_append, List.mem_cons]
          exact .inr (ih _ _ _ hp.symm hm)
  unfold Dec.parse
  rw [hasc]
  simp only
  unfold Dec.ofAscii
  rw [hsign]
  obtain ⟨⟨a, f, b⟩, hp⟩ : ∃ q, q = Py.partition '.' (x :: r) := ⟨_, rfl⟩
  simp only [← hp]
  have hab := hmem _ _ _ _ hp.symm (by simp [hc] : ',' ∈ x :: r)
  rw [if_neg, if_neg, if_neg, if_neg]
  · rintro ⟨h, _⟩
    exact absurd (List.all_eq_true.1 h _ hab) (by decide)
  · rintro ⟨h, _⟩; rw [show "snan".toList = 's' :: "nan".toList from rfl, hpre 's' _ (by decide)] at h; simp at h
  · rintro ⟨h, _⟩; rw [show "nan".toList = 'n' :: "an".toList from rfl, hpre 'n' _ (by decide)] at h; simp at h
  · rintro (h | h)
    · exact hl 'i' _ (by decide) h
    · exact hl 'i' _ (by decide) h

end Csvw.Datatypes
