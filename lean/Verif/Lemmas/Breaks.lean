import Verif.Lemmas.Newlines
import Verif.Lemmas.Lines
/-! # Characters read into a cell stay there: `csv.reader` and newlines, with and without an escape character -/

namespace Csvw.CsvLib

open Csvw.Dsv (translateNewlines)
open Csvw.Spec (All2)

/-- The current record contains a character with `P`. -/
def Parser.Bad (P : Char → Prop) (p : Parser) : Prop := (∃ c ∈ p.field, P c) ∨ ∃ f ∈ p.fields, ∃ c ∈ f, P c

/-- Reachable states. -/
structure Reach (p : Parser) : Prop where
  start : p.st = .startRecord → p.field = [] ∧ p.fields = []
  eat : p.st = .eatCrnl → p.field = []
  crnl : p.st = .afterEscapedCrnl → ∃ c ∈ p.field, isNl c = true

/-- Reachable states at the begin of a line. -/
def AtLine (p : Parser) : Prop := p.st = .startRecord ∨ p.st = .inQuoted ∨ p.field ≠ []

theorem reach_init : Reach .init := ⟨fun _ => ⟨rfl, rfl⟩, (by rintro ⟨⟩), (by rintro ⟨⟩)⟩

variable {P : Char → Prop} {d : Fmt} {p p' : Parser}

theorem reach_add {st : St} {c : Char} (h : addChar p st c = .ok p') (hs : st ≠ .startRecord ∧ st ≠ .eatCrnl)
    (hk : st = .afterEscapedCrnl → isNl c = true ∨ ∃ a ∈ p.field, isNl a = true) :
    Reach p' ∧ (p.Bad P → p'.Bad P) ∧ (P c → p'.Bad P) ∧ p'.field ≠ [] ∧ p'.st = st := by
  obtain ⟨_, rfl⟩ := addChar_ok_iff h
  refine ⟨⟨fun h => absurd h hs.1, fun h => absurd h hs.2, fun h => ?_⟩, ?_, ?_, by simp, rfl⟩
  · rcases hk h with h | ⟨a, h1, h2⟩
    · exact ⟨c, List.mem_append_right _ (List.mem_singleton.2 rfl), h⟩
    · exact ⟨a, List.mem_append_left _ h1, h2⟩
  · rintro (⟨a, h1, h2⟩ | h1)
    · exact .inl ⟨a, List.mem_append_left _ h1, h2⟩
    · exact .inr h1
  · intro hc
    exact .inl ⟨c, List.mem_append_right _ (List.mem_singleton.2 rfl), hc⟩

theorem bad_save {st : St} (h : p.Bad P) : (saveField p st).Bad P := by
  rcases h with ⟨a, h1, h2⟩ | ⟨f, h1, h2⟩
  · exact .inr ⟨p.field, List.mem_append_right _ (List.mem_singleton.2 rfl), a, h1, h2⟩
  · exact .inr ⟨f, List.mem_append_left _ h1, h2⟩

theorem reach_save {st : St} (hs : st ≠ .startRecord ∧ st ≠ .afterEscapedCrnl) : Reach (saveField p st) :=
  ⟨fun h => absurd h hs.1, fun _ => rfl, fun h => absurd h hs.2⟩

/-- A character which is not the end of the line. -/
theorem step_bad {c : Char} (hr : Reach p) (h : step d p (some c) = .ok p') : Reach p' ∧ (p.Bad P → p'.Bad P) := by
  have hadd' : ∀ {st : St}, st ≠ .startRecord ∧ st ≠ .eatCrnl → (st = .afterEscapedCrnl → isNl c = true ∨ ∃ a ∈ p.field, isNl a = true) →
      addChar p st c = .ok p' → Reach p' ∧ (p.Bad P → p'.Bad P) :=
    fun hs hk h => ⟨(reach_add (P := P) h hs hk).1, (reach_add h hs hk).2.1⟩
  have hadd : ∀ {st : St}, st ≠ .startRecord ∧ st ≠ .eatCrnl ∧ st ≠ .afterEscapedCrnl → addChar p st c = .ok p' → Reach p' ∧ (p.Bad P → p'.Bad P) :=
    fun hs h => hadd' ⟨hs.1, hs.2.1⟩ (fun e => absurd e hs.2.2) h
  have hsave : ∀ {st : St}, st ≠ .startRecord ∧ st ≠ .afterEscapedCrnl → Except.ok (saveField p st) = (.ok p' : Res Parser) → Reach p' ∧ (p.Bad P → p'.Bad P) := by
    intro st hs h
    injection h with h; subst h
    exact ⟨reach_save hs, bad_save⟩
  have hmove : ∀ {st : St}, st ≠ .startRecord ∧ st ≠ .eatCrnl ∧ st ≠ .afterEscapedCrnl → Except.ok { p with st := st } = (.ok p' : Res Parser) →
      Reach p' ∧ (p.Bad P → p'.Bad P) := by
    intro st hs h
    injection h with h; subst h
    exact ⟨⟨fun h => absurd h hs.1, fun h => absurd h hs.2.1, fun h => absurd h hs.2.2⟩, id⟩
  have hfield : stepStartField d p (some c) = .ok p' → Reach p' ∧ (p.Bad P → p'.Bad P) := by
    intro h
    unfold stepStartField at h
    dsimp only at h
    split at h
    · exact hsave (by decide) h
    split at h
    · exact hmove (by decide) h
    split at h
    · exact hmove (by decide) h
    split at h
    · exact hmove (by decide) h
    split at h
    · exact hsave (by decide) h
    · exact hadd (by decide) h
  have hin : ∀ {cur : St}, cur ≠ .startRecord ∧ cur ≠ .eatCrnl → (cur = .afterEscapedCrnl → isNl c = true ∨ ∃ a ∈ p.field, isNl a = true) → stepInField d p cur (some c) = .ok p' → Reach p' ∧ (p.Bad P → p'.Bad P) := by
    intro cur hs hk h
    unfold stepInField at h
    dsimp only at h
    split at h
    · exact hsave (by decide) h
    split at h
    · exact hmove (by decide) h
    split at h
    · exact hsave (by decide) h
    · exact hadd' hs hk h
  unfold step at h
  cases hst : p.st with
  | startRecord =>
    rw [hst] at h
    dsimp only at h
    split at h
    · injection h with h; subst h
      exact ⟨⟨(by rintro ⟨⟩), fun _ => (hr.start hst).1, (by rintro ⟨⟩)⟩, id⟩
    · exact hfield h
  | startField => rw [hst] at h; exact hfield h
  | escapedChar =>
    rw [hst] at h
    dsimp only at h
    split at h
    · next hc => exact hadd' (by decide) (fun _ => .inl hc) h
    · exact hadd (by decide) h
  | afterEscapedCrnl => rw [hst] at h; exact hin (by decide) (fun _ => .inr (hr.crnl hst)) h
  | inField => rw [hst] at h; exact hin (by decide) (by rintro ⟨⟩) h
  | inQuoted =>
    rw [hst] at h
    dsimp only at h
    split at h
    · exact hmove (by decide) h
    split at h
    · exact hmove (by cases d.doublequote <;> decide) h
    · exact hadd (by decide) h
  | escapeInQuoted => rw [hst] at h; exact hadd (by decide) h
  | quoteInQuoted =>
    rw [hst] at h
    dsimp only at h
    split at h
    · exact hadd (by decide) h
    split at h
    · exact hsave (by decide) h
    split at h
    · exact hsave (by decide) h
    split at h
    · exact hadd (by decide) h
    · cases h
  | eatCrnl =>
    rw [hst] at h
    dsimp only at h
    split at h
    · injection h with h; subst h; exact ⟨hr, id⟩
    · cases h

/-- The end of a line. -/
theorem step_eol_bad (hr : Reach p) (h : step d p none = .ok p') :
    (p'.st = .startRecord → p.Bad P → ∃ f ∈ p'.fields, ∃ c ∈ f, P c) ∧ (p'.st ≠ .startRecord → Reach p' ∧ AtLine p' ∧ (p.Bad P → p'.Bad P)) := by
  have hsave : Except.ok (saveField p .startRecord) = (.ok p' : Res Parser) →
      (p'.st = .startRecord → p.Bad P → ∃ f ∈ p'.fields, ∃ c ∈ f, P c) ∧ (p'.st ≠ .startRecord → Reach p' ∧ AtLine p' ∧ (p.Bad P → p'.Bad P)) := by
    intro h
    injection h with h; subst h
    refine ⟨fun _ hb => ?_, fun h => absurd rfl h⟩
    rcases bad_save (st := .startRecord) hb with ⟨c, h1, _⟩ | h1
    · cases h1
    · exact h1
  have hadd : ∀ {st : St} {c : Char}, st ≠ .startRecord ∧ st ≠ .eatCrnl ∧ st ≠ .afterEscapedCrnl → addChar p st c = .ok p' →
      (p'.st = .startRecord → p.Bad P → ∃ f ∈ p'.fields, ∃ c ∈ f, P c) ∧ (p'.st ≠ .startRecord → Reach p' ∧ AtLine p' ∧ (p.Bad P → p'.Bad P)) := by
    intro st c hs h
    obtain ⟨h1, h2, _, h3, h4⟩ := reach_add (P := P) h ⟨hs.1, hs.2.1⟩ (fun e => absurd e hs.2.2)
    exact ⟨fun h' => absurd (h4.symm.trans h') hs.1, fun _ => ⟨h1, .inr (.inr h3), h2⟩⟩
  unfold step at h
  cases hst : p.st with
  | startRecord =>
    rw [hst] at h
    injection h with h; subst h
    refine ⟨fun _ hb => ?_, fun h => absurd hst h⟩
    rcases hb with ⟨c, h1, _⟩ | h1
    · rw [(hr.start hst).1] at h1; cases h1
    · exact h1
  | startField => rw [hst] at h; exact hsave h
  | inField => rw [hst] at h; exact hsave h
  | quoteInQuoted => rw [hst] at h; exact hsave h
  | escapedChar => rw [hst] at h; exact hadd (by decide) h
  | escapeInQuoted => rw [hst] at h; exact hadd (by decide) h
  | afterEscapedCrnl =>
    rw [hst] at h
    injection h with h; subst h
    exact ⟨fun h => absurd (hst.symm.trans h) (by decide), fun _ => ⟨hr, .inr (.inr fun e => by obtain ⟨c, h1, _⟩ := hr.crnl hst; rw [e] at h1; cases h1), id⟩⟩
  | inQuoted =>
    rw [hst] at h
    injection h with h; subst h
    exact ⟨fun h => absurd (hst.symm.trans h) (by decide), fun _ => ⟨hr, .inr (.inl hst), id⟩⟩
  | eatCrnl =>
    rw [hst] at h
    injection h with h; subst h
    refine ⟨fun _ hb => ?_, fun h => absurd rfl h⟩
    rcases hb with ⟨c, h1, _⟩ | h1
    · rw [hr.eat hst] at h1; cases h1
    · exact h1

/-- A row with a character with `P`. -/
def BadRow (P : Char → Prop) (rows : List (List Str)) : Prop := ∃ r ∈ rows, ∃ f ∈ r, ∃ c ∈ f, P c

theorem endInput_bad {rows : List (List Str)} (hr : Reach p) (ha : AtLine p) (hb : p.Bad P) (h : endInput d p = (rows, none)) : BadRow P rows := by
  unfold endInput at h
  split at h
  · split at h
    · injection h with _ h; cases h
    · injection h with h _; subst h
      refine ⟨_, List.mem_singleton.2 rfl, ?_⟩
      rcases hb with ⟨c, h1, h2⟩ | ⟨f, h1, h2⟩
      · exact ⟨p.field, List.mem_append_right _ (List.mem_singleton.2 rfl), c, h1, h2⟩
      · exact ⟨f, List.mem_append_left _ h1, h2⟩
  · next hn =>
    rcases ha with h1 | h1 | h1
    · rcases hb with ⟨c, h2, _⟩ | ⟨f, h2, _⟩
      · rw [(hr.start h1).1] at h2; cases h2
      · rw [(hr.start h1).2] at h2; cases h2
    · exact absurd (by rw [h1]; simp) hn
    · exact absurd (by cases hf : p.field with | nil => exact absurd hf h1 | cons => rfl) hn

/-- If the reader finds no error, a character of the current record is in a row. -/
theorem run_bad : ∀ (text : Str) {p : Parser} {ml : Bool} {rows : List (List Str)}, Reach p → (ml = false → AtLine p) → p.Bad P →
    run d p ml text = (rows, none) → BadRow P rows := by
  have heol : ∀ {p : Parser} {text : Str} {rows : List (List Str)}, Reach p → p.Bad P →
      (∀ {q : Parser}, Reach q → AtLine q → q.Bad P → ∀ {rows : List (List Str)}, run d q false text = (rows, none) → BadRow P rows) →
      (match step d p none with
        | .error e => (([] : List (List Str)), some e)
        | .ok p'' =>
          if p''.st = .startRecord then
            let r := run d .init false text
            (p''.fields :: r.1, r.2)
          else run d p'' false text) = (rows, none) → BadRow P rows := by
    intro p text rows hr hb ih h
    cases h1 : step d p none with
    | error e => rw [h1] at h; injection h with _ h; cases h
    | ok q =>
      obtain ⟨k1, k2⟩ := step_eol_bad (P := P) hr h1
      rw [h1] at h
      dsimp only at h
      by_cases hst : q.st = .startRecord
      · rw [if_pos hst] at h
        injection h with h _; subst h
        exact ⟨_, List.mem_cons_self, k1 hst hb⟩
      · rw [if_neg hst] at h
        obtain ⟨m1, m2, m3⟩ := k2 hst
        exact ih m1 m2 (m3 hb) h
  intro text
  induction text with
  | nil =>
    intro p ml rows hr ha hb h
    unfold run at h
    cases ml with
    | false => exact endInput_bad hr (ha rfl) hb h
    | true =>
      simp only [if_true] at h
      cases h1 : step d p none with
      | error e => rw [h1] at h; injection h with _ h; cases h
      | ok q =>
        obtain ⟨k1, k2⟩ := step_eol_bad (P := P) hr h1
        rw [h1] at h
        dsimp only at h
        by_cases hst : q.st = .startRecord
        · rw [if_pos hst] at h
          injection h with h _; subst h
          exact ⟨_, List.mem_cons_self, k1 hst hb⟩
        · rw [if_neg hst] at h
          obtain ⟨m1, m2, m3⟩ := k2 hst
          exact endInput_bad m1 m2 (m3 hb) h
  | cons c text ih =>
    intro p ml rows hr ha hb h
    unfold run at h
    cases h1 : step d p (some c) with
    | error e => rw [h1] at h; injection h with _ h; cases h
    | ok q =>
      obtain ⟨k1, k2⟩ := step_bad (P := P) hr h1
      rw [h1] at h
      dsimp only at h
      split at h
      · exact ih k1 (by rintro ⟨⟩) (k2 hb) h
      · split at h
        · exact heol k1 (k2 hb) (fun {q} h1 h2 h3 {rows} h4 => ih h1 (fun _ => h2) h3 h4) h
        · exact ih k1 (by rintro ⟨⟩) (k2 hb) h

/-- Neither the delimiter nor the quote character nor the escape character is a newline. -/
structure NoNl (d : Fmt) : Prop where
  delim : isNl d.delimiter = false
  quote : ∀ q, d.quotechar = some q → isNl q = false
  escape : ∀ e, d.escapechar = some e → isNl e = false

/-- A newline is read into the cell, or ends the record. -/
theorem step_nl (hd : NoNl d) {c : Char} (hc : isNl c = true) (h : step d p (some c) = .ok p') :
    p'.Bad (· = c) ∨ (p'.st = .eatCrnl ∧ (∀ e, isNl e = true → step d p (some e) = .ok p') ∧
      (p.st ≠ .afterEscapedCrnl → step d p none = .ok { p' with st := .startRecord })) := by
  have hadd : ∀ {st : St}, addChar p st c = .ok p' → p'.Bad (· = c) := by
    intro st h
    obtain ⟨_, rfl⟩ := addChar_ok_iff h
    exact .inl ⟨c, List.mem_append_right _ (List.mem_singleton.2 rfl), rfl⟩
  have hqn : ∀ {e : Char}, isNl e = true → (some e == d.quotechar) = false := by
    intro e he
    rw [beq_eq_false_iff_ne]
    intro h'
    rw [hd.quote e h'.symm] at he; cases he
  have hen : ∀ {e : Char}, isNl e = true → (some e == d.escapechar) = false := by
    intro e he
    rw [beq_eq_false_iff_ne]
    intro h'
    rw [hd.escape e h'.symm] at he; cases he
  have hdn : ∀ {e : Char}, isNl e = true → (e == d.delimiter) = false := by
    intro e he
    rw [beq_eq_false_iff_ne]
    intro h'
    rw [h', hd.delim] at he; cases he
  have hfin : ∀ {q : Parser}, q.st = .eatCrnl → (∀ e, isNl e = true → step d p (some e) = .ok q) →
      (p.st ≠ .afterEscapedCrnl → step d p none = .ok { q with st := .startRecord }) →
      p'.Bad (· = c) ∨ (p'.st = .eatCrnl ∧ (∀ e, isNl e = true → step d p (some e) = .ok p') ∧
      (p.st ≠ .afterEscapedCrnl → step d p none = .ok { p' with st := .startRecord })) := by
    intro q h1 h2 h3
    rw [h2 c hc] at h
    injection h with h; subst h
    exact .inr ⟨h1, h2, h3⟩
  generalize hst : p.st = st
  rw [hst] at hfin
  cases st with
  | startRecord =>
    refine hfin (q := { p with st := .eatCrnl }) rfl (fun e he => ?_) fun hn => ?_
    case refine_2 => first | exact absurd rfl hn | (unfold step; rw [hst]; first | rfl | (obtain ⟨a, b, c⟩ := p; dsimp only at hst; subst hst; rfl))
    unfold step; rw [hst]; simp only [he, if_true]
  | startField =>
    refine hfin (q := saveField p .eatCrnl) rfl (fun e he => ?_) fun hn => ?_
    case refine_2 => first | exact absurd rfl hn | (unfold step; rw [hst]; first | rfl | (obtain ⟨a, b, c⟩ := p; dsimp only at hst; subst hst; rfl))
    unfold step; rw [hst]; simp only [stepStartField, he, if_true]
  | inField =>
    refine hfin (q := saveField p .eatCrnl) rfl (fun e he => ?_) fun hn => ?_
    case refine_2 => first | exact absurd rfl hn | (unfold step; rw [hst]; first | rfl | (obtain ⟨a, b, c⟩ := p; dsimp only at hst; subst hst; rfl))
    unfold step; rw [hst]; simp only [stepInField, he, if_true]
  | afterEscapedCrnl =>
    refine hfin (q := saveField p .eatCrnl) rfl (fun e he => ?_) fun hn => ?_
    case refine_2 => first | exact absurd rfl hn | (unfold step; rw [hst]; first | rfl | (obtain ⟨a, b, c⟩ := p; dsimp only at hst; subst hst; rfl))
    unfold step; rw [hst]; simp only [stepInField, he, if_true]
  | eatCrnl =>
    refine hfin (q := p) hst (fun e he => ?_) fun hn => ?_
    case refine_2 => unfold step; rw [hst]
    unfold step; rw [hst]; simp only [he, if_true]
  | quoteInQuoted =>
    refine hfin (q := saveField p .eatCrnl) rfl (fun e he => ?_) fun hn => ?_
    case refine_2 => first | exact absurd rfl hn | (unfold step; rw [hst]; first | rfl | (obtain ⟨a, b, c⟩ := p; dsimp only at hst; subst hst; rfl))
    unfold step; rw [hst]
    simp only [hqn he, hdn he, he, Bool.and_false, Bool.false_eq_true, if_false, if_true]
  | escapedChar =>
    unfold step at h; rw [hst] at h; simp only [hc, if_true] at h
    exact .inl (hadd h)
  | escapeInQuoted =>
    unfold step at h; rw [hst] at h
    exact .inl (hadd h)
  | inQuoted =>
    unfold step at h; rw [hst] at h
    simp only [hen hc, hqn hc, Bool.false_and, Bool.false_eq_true, if_false] at h
    exact .inl (hadd h)

theorem step_eat (h : p.st = .eatCrnl) {c : Char} (hc : isNl c = true) : step d p (some c) = .ok p := by
  unfold step; rw [h]; simp only [hc, if_true]

/-- If the reader finds no error in the text, and no carriage return in a cell, then it reads the same rows from the text with newlines translated. -/
theorem run_noCr (hd : NoNl d) : ∀ (n : Nat) {t : Str} {p : Parser} {ml : Bool} {rows : List (List Str)}, t.length ≤ n → Reach p →
    (ml = false → AtLine p) → run d p ml t = (rows, none) → ¬ BadRow (· = '\r') rows → run d p ml (translateNewlines t) = (rows, none) := by
  have hnl : isNl '\n' = true := by decide
  have hcr : isNl '\r' = true := by decide
  have heol : ∀ {p : Parser} {t : Str} {rows : List (List Str)}, Reach p →
      (∀ {q : Parser} {rows : List (List Str)}, Reach q → AtLine q → run d q false t = (rows, none) → ¬ BadRow (· = '\r') rows →
        run d q false (translateNewlines t) = (rows, none)) →
      (match step d p none with
        | .error e => (([] : List (List Str)), some e)
        | .ok p'' =>
          if p''.st = .startRecord then
            let r := run d .init false t
            (p''.fields :: r.1, r.2)
          else run d p'' false t) = (rows, none) → ¬ BadRow (· = '\r') rows →
      (match step d p none with
        | .error e => (([] : List (List Str)), some e)
        | .ok p'' =>
          if p''.st = .startRecord then
            let r := run d .init false (translateNewlines t)
            (p''.fields :: r.1, r.2)
          else run d p'' false (translateNewlines t)) = (rows, none) := by
    intro p t rows hr ih h hb
    cases h1 : step d p none with
    | error e => rw [h1] at h; injection h with _ h; cases h
    | ok q =>
      obtain ⟨_, k2⟩ := step_eol_bad (P := (· = '\r')) hr h1
      rw [h1] at h
      dsimp only at h ⊢
      by_cases hst : q.st = .startRecord
      · rw [if_pos hst] at h ⊢
        injection h with h2 h3
        have := ih (rows := (run d .init false t).1) reach_init (.inl rfl) (by rw [← h3]) (by
          rintro ⟨r, m1, m2⟩
          exact hb (by rw [← h2]; exact ⟨r, List.mem_cons_of_mem _ m1, m2⟩))
        rw [this, ← h2]
      · rw [if_neg hst] at h ⊢
        obtain ⟨m1, m2, _⟩ := k2 hst
        exact ih m1 m2 h hb
  intro n
  induction n with
  | zero =>
    intro t p ml rows hn _ _ h _
    cases t with
    | nil => exact h
    | cons c t => exact absurd hn (by simp)
  | succ n ih =>
    intro t p ml rows hn hr _ h hb
    cases t with
    | nil => exact h
    | cons c t =>
      have hlen : t.length ≤ n := by simp only [List.length_cons] at hn; omega
      have h0 := h
      unfold run at h
      cases h1 : step d p (some c) with
      | error e => rw [h1] at h; injection h with _ h; cases h
      | ok q =>
        rw [h1] at h
        dsimp only at h
        have hq := (step_bad (P := (· = '\r')) hr h1).1
        -- the character is not read into a cell
        have hnotbad : ∀ {q : Parser} {t : Str} {rows : List (List Str)}, Reach q →
            (match step d q none with
              | .error e => (([] : List (List Str)), some e)
              | .ok p'' =>
                if p''.st = .startRecord then
                  let r := run d .init false t
                  (p''.fields :: r.1, r.2)
                else run d p'' false t) = (rows, none) → q.Bad (· = '\r') → BadRow (· = '\r') rows := by
          intro q t rows hr h hb
          cases h1 : step d q none with
          | error e => rw [h1] at h; injection h with _ h; cases h
          | ok q' =>
            obtain ⟨k1, k2⟩ := step_eol_bad (P := (· = '\r')) hr h1
            rw [h1] at h
            dsimp only at h
            by_cases hst : q'.st = .startRecord
            · rw [if_pos hst] at h
              injection h with h _; subst h
              exact ⟨_, List.mem_cons_self, k1 hst hb⟩
            · rw [if_neg hst] at h
              obtain ⟨m1, m2, m3⟩ := k2 hst
              exact run_bad t m1 (fun _ => m2) (m3 hb) h
        by_cases hc : c = '\r'
        · by_cases ht : t.head? = some '\n'
          · rw [if_pos ⟨hc, ht⟩] at h
            cases t with
            | nil => cases ht
            | cons c2 t2 =>
              injection ht with ht; subst ht; subst hc
              rcases step_nl hd hcr h1 with k | ⟨k1, k2, _⟩
              · exact absurd (run_bad _ hq (by rintro ⟨⟩) k h) hb
              · rw [translate_crnl]
                unfold run at h ⊢
                rw [step_eat k1 hnl] at h
                rw [k2 _ hnl]
                dsimp only at h ⊢
                rw [if_neg (fun h' => absurd h'.1 (by decide)), if_pos (by decide)] at h ⊢
                exact heol hq (fun {q rows} h3 h4 h5 h6 => ih (by simp only [List.length_cons] at hlen; omega) h3 (fun _ => h4) h5 h6) h hb
          · rw [if_neg (fun h' => ht h'.2), if_pos (by rw [hc]; decide)] at h
            subst hc
            rcases step_nl hd hcr h1 with k | ⟨k1, k2, _⟩
            · exact absurd (hnotbad hq h k) hb
            · rw [translate_cr ht]
              unfold run
              rw [k2 _ hnl]
              dsimp only
              rw [if_neg (fun h' => absurd h'.1 (by decide)), if_pos (by decide)]
              exact heol hq (fun {q rows} h3 h4 h5 h6 => ih hlen h3 (fun _ => h4) h5 h6) h hb
        · rw [if_neg (fun h' => hc h'.1)] at h
          rw [translate_cons hc]
          unfold run
          rw [h1]
          dsimp only
          rw [if_neg (fun h' => hc h'.1)]
          by_cases hn2 : isNl c = true
          · rw [if_pos hn2] at h ⊢
            exact heol hq (fun {q rows} h3 h4 h5 h6 => ih hlen h3 (fun _ => h4) h5 h6) h hb
          · rw [if_neg hn2] at h ⊢
            exact ih hlen hq (by rintro ⟨⟩) h hb

/-- The rows of a text with translated newlines, if no cell contains a carriage return. -/
theorem readRows_noCr (hd : NoNl d) {t : Str} {rows : List (List Str)} (h : readRows d (splitLines t) = (rows, none))
    (hn : ∀ r ∈ rows, ∀ c ∈ r, '\r' ∉ c) : readRows d (splitLines (translateNewlines t)) = (rows, none) := by
  rw [readRows_splitLines] at h ⊢
  refine run_noCr hd t.length (Nat.le_refl _) reach_init (fun _ => .inl rfl) h ?_
  rintro ⟨r, h1, f, h2, c, h3, rfl⟩
  exact hn r h1 f h2 h3

theorem toks_bad {l : Str} {p p' : Parser} (hr : Reach p) (h : stepToks d p (l.map some) = .ok p') : Reach p' ∧ (p.Bad P → p'.Bad P) := by
  induction l generalizing p with
  | nil => cases h; exact ⟨hr, id⟩
  | cons c l ih =>
    rw [List.map_cons, stepToks] at h
    cases hs : step d p (some c) with
    | error e => rw [hs] at h; cases h
    | ok q =>
      rw [hs] at h
      obtain ⟨h1, h2⟩ := step_bad (P := P) hr hs
      obtain ⟨h3, h4⟩ := ih h1 h
      exact ⟨h3, fun hb => h4 (h2 hb)⟩

/-- A whole line. -/
theorem line_bad {l : Str} {p p' : Parser} (hr : Reach p) (h : stepToks d p (lineToks l) = .ok p') :
    (p'.st = .startRecord → p.Bad P → ∃ f ∈ p'.fields, ∃ c ∈ f, P c) ∧ (p'.st ≠ .startRecord → Reach p' ∧ AtLine p' ∧ (p.Bad P → p'.Bad P)) := by
  unfold lineToks at h
  rw [stepToks_append] at h
  cases hs : stepToks d p (l.map some) with
  | error e => rw [hs] at h; cases h
  | ok q =>
    rw [hs] at h
    dsimp only at h
    rw [stepToks_single] at h
    obtain ⟨h1, h2⟩ := toks_bad (P := P) hr hs
    obtain ⟨h3, h4⟩ := step_eol_bad (P := P) h1 h
    exact ⟨fun a b => h3 a (h2 b), fun a => ⟨(h4 a).1, (h4 a).2.1, fun b => (h4 a).2.2 (h2 b)⟩⟩

/-- A record which contains a character with `P`. -/
def BadRecord (P : Char → Prop) : Option (List Str × List Str) → Prop
  | none => False
  | some (row, _) => ∃ f ∈ row, ∃ c ∈ f, P c

theorem nextRecord_bad {ks : List Str} {p : Parser} (hr : Reach p) (ha : AtLine p) (hb : p.Bad P) {r : Option (List Str × List Str)}
    (h : nextRecord d p ks = .ok r) : BadRecord P r := by
  induction ks generalizing p with
  | nil =>
    unfold nextRecord at h
    split at h
    · split at h
      · cases h
      · cases h
        rcases hb with ⟨c, h1, h2⟩ | ⟨f, h1, h2⟩
        · exact ⟨p.field, List.mem_append_right _ (List.mem_singleton.2 rfl), c, h1, h2⟩
        · exact ⟨f, List.mem_append_left _ h1, h2⟩
    · next hn =>
      rcases ha with h1 | h1 | h1
      · rcases hb with ⟨c, h2, _⟩ | ⟨f, h2, _⟩
        · rw [(hr.start h1).1] at h2; cases h2
        · rw [(hr.start h1).2] at h2; cases h2
      · exact absurd (by rw [h1]; simp) hn
      · exact absurd (by cases hf : p.field with | nil => exact absurd hf h1 | cons => rfl) hn
  | cons k ks ih =>
    unfold nextRecord at h
    cases hs : stepToks d p (lineToks k) with
    | error e => rw [hs] at h; cases h
    | ok q =>
      rw [hs] at h
      dsimp only at h
      obtain ⟨h1, h2⟩ := line_bad (P := P) hr hs
      split at h
      · next h3 => cases h; exact h1 h3 hb
      · next h3 =>
        obtain ⟨a, b, c⟩ := h2 h3
        exact ih a b (c hb) h

/-- A line without its end, if no newline is read into a cell. -/
theorem line_same (hd : NoNl d) {l k : Str} (hl : Chomped l k) {p p' : Parser} (hr : Reach p) (h : stepToks d p (lineToks k) = .ok p')
    (h1 : p'.st = .startRecord → ¬ ∃ f ∈ p'.fields, ∃ c ∈ f, isNl c = true) (h2 : p'.st ≠ .startRecord → ¬ p'.Bad (isNl · = true)) :
    stepToks d p (lineToks l) = .ok p' := by
  obtain ⟨_, e, he, rfl⟩ := hl
  have hstop : ∀ {q : Parser}, Reach q → q.Bad (isNl · = true) → step d q none = .ok p' → False := by
    intro q hq hb hs
    obtain ⟨a, b⟩ := step_eol_bad (P := (isNl · = true)) hq hs
    by_cases hst : p'.st = .startRecord
    · exact h1 hst (a hst hb)
    · exact h2 hst ((b hst).2.2 hb)
  have hbad : ∀ {q : Parser} {c : Char}, isNl c = true → q.Bad (· = c) → q.Bad (isNl · = true) := by
    intro q c hc hb
    rcases hb with ⟨a, m1, rfl⟩ | ⟨f, m1, a, m2, rfl⟩
    · exact .inl ⟨a, m1, hc⟩
    · exact .inr ⟨f, m1, a, m2, hc⟩
  unfold lineToks at h ⊢
  rw [List.map_append, List.append_assoc, stepToks_append] at h
  rw [stepToks_append]
  cases hs : stepToks d p (l.map some) with
  | error x => rw [hs] at h; cases h
  | ok q =>
    rw [hs] at h
    dsimp only at h ⊢
    rw [stepToks_single]
    have hq := (toks_bad (P := (isNl · = true)) hr hs).1
    have hnl : ∀ {c : Char} {r : Parser}, isNl c = true → step d q (some c) = .ok r → (∃ r', (r.Bad (isNl · = true) → r'.Bad (isNl · = true)) ∧ Reach r' ∧
        (r.st = .eatCrnl → r' = r) ∧ step d r' none = .ok p') → step d q none = .ok p' := by
      intro c r hc hstep ⟨r', k1, k2, k3, k4⟩
      have hrb := step_bad (P := (isNl · = true)) hq hstep
      rcases step_nl hd hc hstep with hb | ⟨m1, m2, m3⟩
      · exact (hstop k2 (k1 (hbad hc hb)) k4).elim
      · have := k3 m1
        subst this
        have hp' : p' = { r' with st := .startRecord } := by
          unfold step at k4
          rw [m1] at k4
          injection k4 with k4; exact k4.symm
        rw [hp']
        refine m3 fun hst => ?_
        obtain ⟨a, n1, n2⟩ := hq.crnl hst
        exact hstop k2 (k1 (hrb.2 (.inl ⟨a, n1, n2⟩))) k4
    rcases he with rfl | rfl | rfl | rfl
    · rw [List.map_nil, List.nil_append, stepToks_single] at h
      exact h
    · rw [List.map_cons, List.map_nil, List.cons_append, List.nil_append, stepToks] at h
      cases hst : step d q (some '\n') with
      | error x => rw [hst] at h; cases h
      | ok r =>
        rw [hst] at h
        dsimp only at h
        rw [stepToks_single] at h
        exact hnl (by decide) hst ⟨r, id, (step_bad (P := (isNl · = true)) hq hst).1, fun _ => rfl, h⟩
    · rw [List.map_cons, List.map_cons, List.map_nil, List.cons_append, List.cons_append, List.nil_append, stepToks] at h
      cases hst : step d q (some '\r') with
      | error x => rw [hst] at h; cases h
      | ok r =>
        rw [hst] at h
        dsimp only at h
        rw [stepToks] at h
        have hr1 := (step_bad (P := (isNl · = true)) hq hst).1
        cases hst2 : step d r (some '\n') with
        | error x => rw [hst2] at h; cases h
        | ok r' =>
          rw [hst2] at h
          dsimp only at h
          rw [stepToks_single] at h
          have hr2 := step_bad (P := (isNl · = true)) hr1 hst2
          refine hnl (by decide) hst ⟨r', hr2.2, hr2.1, fun he => ?_, h⟩
          rw [step_eat he (by decide)] at hst2
          injection hst2 with hst2; exact hst2.symm
    · rw [List.map_cons, List.map_nil, List.cons_append, List.nil_append, stepToks] at h
      cases hst : step d q (some '\r') with
      | error x => rw [hst] at h; cases h
      | ok r =>
        rw [hst] at h
        dsimp only at h
        rw [stepToks_single] at h
        exact hnl (by decide) hst ⟨r, id, (step_bad (P := (isNl · = true)) hq hst).1, fun _ => rfl, h⟩

/-- The record read from lines without line ends. -/
def RecordSame (d : Fmt) (q : Parser) (ls : List Str) : Option (List Str × List Str) → Prop
  | none => nextRecord d q ls = .ok none
  | some (row, rest) => ∃ rest', All2 Chomped rest' rest ∧ nextRecord d q ls = .ok (some (row, rest'))

theorem record_same (hd : NoNl d) {ls ks : List Str} (hl : All2 Chomped ls ks) {p : Parser} (hr : Reach p)
    {r : Option (List Str × List Str)} (h : nextRecord d p ks = .ok r) (hb : ¬ BadRecord (isNl · = true) r) : RecordSame d p ls r := by
  induction hl generalizing p with
  | nil =>
    cases r with
    | none => exact h
    | some q =>
      obtain ⟨row, rest⟩ := q
      have : rest = [] := by
        have := nextRecord_length h
        exact List.length_eq_zero_iff.1 (by simpa using this)
      subst this
      exact ⟨[], .nil, h⟩
  | @cons l k ls ks h1 h2 ih =>
    unfold nextRecord at h
    cases hs : stepToks d p (lineToks k) with
    | error e => rw [hs] at h; cases h
    | ok p' =>
      rw [hs] at h
      dsimp only at h
      obtain ⟨_, m⟩ := line_bad (P := (isNl · = true)) hr hs
      have hline : stepToks d p (lineToks l) = .ok p' := by
        refine line_same hd h1 hr hs (fun h3 h4 => ?_) (fun h3 h4 => ?_)
        · rw [if_pos h3] at h
          cases h
          exact hb h4
        · rw [if_neg h3] at h
          exact hb (nextRecord_bad (m h3).1 (m h3).2.1 h4 h)
      split at h
      · next h5 =>
        cases h
        refine ⟨ls, h2, ?_⟩
        unfold nextRecord
        rw [hline]
        dsimp only
        rw [if_pos h5]
      · next h5 =>
        have hn : nextRecord d p (l :: ls) = nextRecord d p' ls := by
          conv => lhs; unfold nextRecord
          rw [hline]
          dsimp only
          rw [if_neg h5]
        have := ih (m h5).1 h
        cases r with
        | none => exact hn.trans this
        | some q =>
          obtain ⟨rest', a, b⟩ := this
          exact ⟨rest', a, hn.trans b⟩

theorem readRowsFuel_same (hd : NoNl d) (n : Nat) {ls ks : List Str} (hl : All2 Chomped ls ks) {rows : List (List Str)}
    (h : readRowsFuel d n ks = (rows, none)) (hb : ¬ BadRow (isNl · = true) rows) : readRowsFuel d n ls = (rows, none) := by
  induction n generalizing ls ks rows with
  | zero => cases h; rfl
  | succ n ih =>
    rw [readRowsFuel] at h ⊢
    cases hr : nextRecord d .init ks with
    | error e => rw [hr] at h; cases h
    | ok r =>
      rw [hr] at h
      cases r with
      | none =>
        cases h
        rw [show nextRecord d .init ls = .ok none from record_same hd hl reach_init hr id]
      | some q =>
        obtain ⟨row, rest⟩ := q
        dsimp only at h
        cases hq : readRowsFuel d n rest with
        | mk rs e =>
          rw [hq] at h
          dsimp only at h
          injection h with h3 h4
          subst h3 h4
          obtain ⟨rest', h1, h2⟩ := record_same hd hl reach_init hr fun hbad => hb ⟨_, List.mem_cons_self, hbad⟩
          rw [show nextRecord d .init ls = _ from h2]
          dsimp only
          rw [ih h1 hq fun ⟨r, m1, m2⟩ => hb ⟨r, List.mem_cons_of_mem _ m1, m2⟩]

/-- Lines without line ends give the rows of the text, if no cell contains a line break. -/
theorem readRows_same (hd : NoNl d) {text : Str} {ls ks : List Str} (hl : Spec.LinesOf text ls ks) {rows : List (List Str)}
    (h : readRows d (splitLines text) = (rows, none)) (hn : ∀ r ∈ rows, ∀ c ∈ r, Spec.OneLine c) : readRows d ls = (rows, none) := by
  rw [splitLines_of hl] at h
  unfold readRows at h ⊢
  rw [All2.length_eq (chomped_of hl)]
  refine readRowsFuel_same hd _ (chomped_of hl) h ?_
  rintro ⟨r, h1, f, h2, c, h3, h4⟩
  have := hn r h1 f h2
  rcases isNl_iff.1 h4 with rfl | rfl
  · exact this.1 h3
  · exact this.2 h3

end Csvw.CsvLib
