import Verif.Model.CsvLib
/-! # A character-level view of `csv.reader` over the lines of a text -/

namespace Csvw.CsvLib

/-- End of input in parser state `p`. -/
def endInput (d : Fmt) (p : Parser) : List (List Str) × Option PyErr :=
  if !p.field.isEmpty || p.st == .inQuoted then
    if d.strict then ([], some .csvError) else ([p.fields ++ [p.field]], Option.none)
  else ([], Option.none)

/-- The reader as a machine over the characters of the text; `ml`: inside a line. -/
def run (d : Fmt) : Parser → Bool → Str → List (List Str) × Option PyErr
  | p, ml, [] =>
    if ml then
      match step d p Option.none with
      | .error e => ([], some e)
      | .ok p' =>
        if p'.st = .startRecord then
          (p'.fields :: (endInput d .init).1, (endInput d .init).2)
        else endInput d p'
    else endInput d p
  | p, _, c :: cs =>
    match step d p (some c) with
    | .error e => ([], some e)
    | .ok p' =>
      if c = '\r' ∧ cs.head? = some '\n' then run d p' true cs
      else if isNl c then
        match step d p' Option.none with
        | .error e => ([], some e)
        | .ok p'' =>
          if p''.st = .startRecord then
            let r := run d .init false cs
            (p''.fields :: r.1, r.2)
          else run d p'' false cs
      else run d p' true cs

/-- Continue reading in state `p` with the given lines. -/
def readFrom (d : Fmt) (p : Parser) (lines : List Str) : List (List Str) × Option PyErr :=
  match nextRecord d p lines with
  | .error e => ([], some e)
  | .ok Option.none => ([], Option.none)
  | .ok (some (row, rest)) => let r := readRows d rest; (row :: r.1, r.2)

theorem nextRecord_length {d : Fmt} {p : Parser} {lines : List Str} {row : List Str} {rest : List Str}
    (h : nextRecord d p lines = .ok (some (row, rest))) : rest.length ≤ lines.length - 1 := by
  induction lines generalizing p with
  | nil =>
    simp only [nextRecord] at h
    split at h
    · split at h
      · simp at h
      · simp at h; simp [h.2]
    · simp at h
  | cons line ls ih =>
    simp only [nextRecord] at h
    split at h
    · simp at h
    · split at h
      · simp at h; simp [← h.2]
      · have := ih h
        simp; omega

theorem nextRecord_init_nil (d : Fmt) : nextRecord d .init [] = .ok Option.none := by
  simp [nextRecord, Parser.init]

theorem readRowsFuel_eq (d : Fmt) (n m : Nat) (lines : List Str) (hn : lines.length < n) (hm : lines.length < m) :
    readRowsFuel d n lines = readRowsFuel d m lines := by
  induction n generalizing m lines with
  | zero => omega
  | succ n ih =>
    cases m with
    | zero => omega
    | succ m =>
      simp only [readRowsFuel]
      cases lines with
      | nil => simp [nextRecord_init_nil]
      | cons l ls =>
        split
        · rfl
        · rfl
        · next row rest h =>
          have hl := nextRecord_length h
          simp only [List.length_cons] at hl hn hm
          rw [ih m rest (by omega) (by omega)]

theorem readRows_eq_readFrom (d : Fmt) (lines : List Str) : readRows d lines = readFrom d .init lines := by
  unfold readRows readFrom
  simp only [readRowsFuel]
  cases lines with
  | nil => simp [nextRecord_init_nil]
  | cons l ls =>
    split
    · next h => rw [h]
    · next h => rw [h]
    · next row rest h =>
      rw [h]
      have hl := nextRecord_length h
      simp only [List.length_cons] at hl
      simp only [readRows]
      rw [readRowsFuel_eq d (l :: ls).length (rest.length + 1) rest (by simp; omega) (by omega)]

theorem stepToks_append (d : Fmt) (p : Parser) (a b : List (Option Char)) :
    stepToks d p (a ++ b) = match stepToks d p a with | .error e => .error e | .ok p' => stepToks d p' b := by
  induction a generalizing p with
  | nil => simp [stepToks]
  | cons t ts ih =>
    simp only [List.cons_append, stepToks]
    cases step d p t with
    | error e => rfl
    | ok p' => exact ih p'

theorem readFrom_nil (d : Fmt) (p : Parser) : readFrom d p [] = endInput d p := by
  unfold readFrom endInput
  simp only [nextRecord]
  split <;> rename_i h
  · split at h
    · split at h
      · next h1 h2 => simp [h1, h2]; simpa using h.symm
      · simp at h
    · simp at h
  · split at h
    · split at h <;> simp at h
    · next h1 => simp [h1]
  · split at h
    · split at h
      · simp at h
      · next h1 h2 =>
        simp at h
        obtain ⟨e1, e2⟩ := h
        subst e1 e2
        have hnil : readRows d [] = ([], Option.none) := by
          simp [readRows, readRowsFuel, nextRecord_init_nil]
        simp [h1, h2, hnil]
    · simp at h

theorem readFrom_cons (d : Fmt) (p : Parser) (line : Str) (ls : List Str) :
    readFrom d p (line :: ls) =
      match stepToks d p (lineToks line) with
      | .error e => ([], some e)
      | .ok p' =>
        if p'.st = .startRecord then ((p'.fields :: (readFrom d .init ls).1), (readFrom d .init ls).2)
        else readFrom d p' ls := by
  conv => lhs; unfold readFrom
  simp only [nextRecord]
  cases stepToks d p (lineToks line) with
  | error e => rfl
  | ok p' =>
    by_cases h : p'.st = .startRecord
    · simp [h, readRows_eq_readFrom]
    · simp only [h, if_false]
      rfl

theorem stepToks_line {d : Fmt} {p0 p : Parser} {acc : Str} (h : stepToks d p0 (acc.reverse.map some) = .ok p)
    (tail : Str) :
    stepToks d p0 (lineToks (acc.reverse ++ tail)) = stepToks d p (lineToks tail) := by
  simp only [lineToks, List.map_append, List.append_assoc]
  rw [stepToks_append, h]

theorem stepToks_single (d : Fmt) (p : Parser) (t : Option Char) : stepToks d p [t] = step d p t := by
  simp only [stepToks]; cases step d p t <;> rfl

theorem splitLinesGo_ne_nil {acc text : Str} (h : acc ≠ []) : splitLinesGo acc text ≠ [] := by
  induction text generalizing acc with
  | nil => simp [splitLinesGo, h]
  | cons c cs ih =>
    unfold splitLinesGo
    split
    · next heq => simp at heq
    · simp
    · next heq =>
      simp only [List.cons.injEq] at heq
      split
      · simp
      · rw [heq.2] at ih; exact ih (by simp)

/-- Line of the text containing the rest `c :: …` of the text after `acc`. -/
theorem splitLinesGo_prefix (acc text : Str) (c : Char) :
    ∃ tail ls, splitLinesGo acc (c :: text) = (acc.reverse ++ c :: tail) :: ls := by
  induction text generalizing acc c with
  | nil =>
    simp only [splitLinesGo]
    by_cases h : isNl c
    · exact ⟨[], [], by simp [h]⟩
    · exact ⟨[], [], by simp [h]⟩
  | cons c' cs ih =>
    by_cases h : c = '\r' ∧ c' = '\n'
    · obtain ⟨rfl, rfl⟩ := h
      exact ⟨['\n'], splitLinesGo [] cs, by simp [splitLinesGo]⟩
    · by_cases h2 : isNl c
      · refine ⟨[], splitLinesGo [] (c' :: cs), ?_⟩
        rw [splitLinesGo]
        · simp [h2]
        · intro cs' h1; simp; intro h3; exact absurd ⟨h1, h3⟩ h
      · obtain ⟨tail, ls, e⟩ := ih (c :: acc) c'
        refine ⟨c' :: tail, ls, ?_⟩
        rw [splitLinesGo]
        · simp only [h2]
          rw [if_neg (by simp), e]; simp
        · intro cs' h1; simp; intro h3; exact absurd ⟨h1, h3⟩ h

theorem run_eq_readFrom (d : Fmt) (text : Str) (p0 p : Parser) (acc : Str)
    (h : stepToks d p0 (acc.reverse.map some) = .ok p) :
    run d p (!acc.isEmpty) text = readFrom d p0 (splitLinesGo acc text) := by
  induction text generalizing p0 p acc with
  | nil =>
    simp only [run, splitLinesGo]
    cases acc with
    | nil =>
      simp only [List.reverse_nil, List.map_nil, stepToks, Except.ok.injEq] at h
      subst h
      simp [readFrom_nil]
    | cons a as =>
      simp only [List.isEmpty_cons, Bool.not_false, if_true, Bool.false_eq_true, if_false]
      rw [readFrom_cons]
      have := stepToks_line h []
      rw [List.append_nil] at this
      rw [this]
      simp only [lineToks, List.map_nil, List.nil_append, stepToks_single]
      cases step d p Option.none with
      | error e => rfl
      | ok p' => simp only [readFrom_nil]
  | cons c cs ih =>
    simp only [run]
    cases hs : step d p (some c) with
    | error e =>
      obtain ⟨tail, ls, e2⟩ := splitLinesGo_prefix acc cs c
      rw [e2, readFrom_cons, stepToks_line h]
      simp [lineToks, stepToks, hs]
    | ok p' =>
      have h' : stepToks d p0 ((c :: acc).reverse.map some) = .ok p' := by
        rw [List.reverse_cons, List.map_append, stepToks_append, h]
        simp [stepToks, hs]
      simp only
      by_cases hcr : c = '\r' ∧ cs.head? = some '\n'
      · rw [if_pos hcr]
        obtain ⟨rfl, hc⟩ := hcr
        cases cs with
        | nil => simp at hc
        | cons c2 cs2 =>
          simp only [List.head?_cons, Option.some.injEq] at hc
          subst hc
          have := ih p0 p' ('\r' :: acc) h'
          simp only [List.isEmpty_cons, Bool.not_false] at this
          rw [this]
          simp [splitLinesGo, isNl]
      · rw [if_neg hcr]
        have hgo : splitLinesGo acc (c :: cs) =
            if isNl c then (c :: acc).reverse :: splitLinesGo [] cs else splitLinesGo (c :: acc) cs := by
          rw [splitLinesGo]
          intro cs' h1 h2
          exact hcr ⟨h1, by simp [h2]⟩
        rw [hgo]
        by_cases hn : isNl c
        · simp only [hn, if_true]
          rw [readFrom_cons]
          have e1 : (c :: acc).reverse = acc.reverse ++ [c] := by simp
          rw [e1, stepToks_line h]
          simp only [lineToks, List.map_cons, List.map_nil, List.cons_append, List.nil_append, stepToks, hs]
          cases hs2 : step d p' Option.none with
          | error e => rfl
          | ok p'' =>
            simp only
            have i1 := ih .init .init [] (by simp [stepToks])
            have i2 := ih p'' p'' [] (by simp [stepToks])
            simp only [List.isEmpty_nil, Bool.not_true] at i1 i2
            rw [i1, i2]
        · simp only [hn]
          have := ih p0 p' (c :: acc) h'
          simp only [List.isEmpty_cons, Bool.not_false] at this
          rw [if_neg (by simp), if_neg (by simp), this]

/-- `csv.reader` over the lines of a text is the character machine. -/
theorem readRows_splitLines (d : Fmt) (text : Str) :
    readRows d (splitLines text) = run d .init false text := by
  rw [readRows_eq_readFrom, splitLines]
  exact (run_eq_readFrom d text .init .init [] (by simp [stepToks])).symm

end Csvw.CsvLib
