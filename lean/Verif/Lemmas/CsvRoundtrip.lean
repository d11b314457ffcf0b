import Verif.Lemmas.CsvRun
/-! # Round trip of `csv.writer` and `csv.reader` (helper lemmas for C01–C04) -/

namespace Csvw.CsvLib

/-- Formats for which the text written can be parsed back. -/
structure WF (v : CsvVer) (d : Fmt) : Prop where
  delim_nl : isNl d.delimiter = false
  quote : d.quoting ≠ .none → ∃ q, d.quotechar = some q ∧ q ≠ d.delimiter ∧ isNl q = false
  esc : ∀ e, d.escapechar = some e → e ≠ d.delimiter ∧ isNl e = false ∧ d.quotechar ≠ some e
  nl : v.quoteNl = true ∨ ('\r' ∈ d.lineterminator ∧ '\n' ∈ d.lineterminator)
  lt : d.lineterminator = ['\r', '\n'] ∨ d.lineterminator = ['\n'] ∨ d.lineterminator = ['\r']
  space : d.skipinitialspace = true → d.delimiter ≠ ' '

/-- Cells which can be represented. -/
def CellOk (d : Fmt) (s : Str) : Prop :=
  s.length ≤ fieldLimit ∧ (d.skipinitialspace = true → s.head? ≠ some ' ')

/-- Does `dbl` (doubling of the escape character by the caller) fit the version's behaviour? -/
def DblOk (v : CsvVer) (d : Fmt) (dbl : Bool) : Prop :=
  (dbl = true → v.escEsc = false ∧ d.quoting ≠ .none) ∧
  (dbl = false → v.escEsc = true ∨ d.quoting = .none ∨ d.escapechar = none)

/-- Optional doubling of the escape character. -/
def pre (d : Fmt) (dbl : Bool) (c : Char) : Str :=
  if dbl && some c == d.escapechar then [c, c] else [c]

theorem special_nl {v : CsvVer} {d : Fmt} (w : WF v d) {c : Char} (h : isNl c = true) : special v d c = true := by
  simp only [isNl, Bool.or_eq_true, beq_iff_eq] at h
  simp only [special]
  rcases w.nl with hn | ⟨h1, h2⟩
  · rcases h with rfl | rfl <;> simp [hn]
  · rcases h with rfl | rfl <;> simp [h1, h2]

theorem not_special {v : CsvVer} {d : Fmt} (w : WF v d) {c : Char} (h : special v d c = false) :
    c ≠ d.delimiter ∧ d.escapechar ≠ some c ∧ d.quotechar ≠ some c ∧ isNl c = false := by
  have hnl : isNl c = false := by
    cases hn : isNl c with
    | false => rfl
    | true => rw [special_nl w hn] at h; simp at h
  simp only [special, Bool.or_eq_false_iff, beq_eq_false_iff_ne, ne_eq] at h
  exact ⟨h.1.1.1.1, fun e => h.1.1.1.2 e.symm, fun e => h.1.1.2 e.symm, hnl⟩

/-- What can be emitted for one original character. -/
inductive Chunk (v : CsvVer) (d : Fmt) (c : Char) : Str → Bool → Prop where
  | plain : special v d c = false → Chunk v d c [c] false
  | quoted : d.quoting ≠ .none → d.quotechar ≠ some c → d.escapechar ≠ some c → Chunk v d c [c] true
  | escaped (e : Char) : d.escapechar = some e → (d.quoting ≠ .none → isNl c = false) → Chunk v d c [e, c] false
  | escq (e : Char) : d.escapechar = some e → c = e → d.quoting ≠ .none → Chunk v d c [e, e] true
  | doubled : d.quoting ≠ .none → d.quotechar = some c → d.doublequote = true → Chunk v d c [c, c] true

theorem emitChars_append (v : CsvVer) (d : Fmt) (a b : Str) :
    emitChars v d (a ++ b) =
      match emitChars v d a with
      | .error e => .error e
      | .ok (x, q) =>
        match emitChars v d b with
        | .error e => .error e
        | .ok (y, q') => .ok (x ++ y, q || q') := by
  induction a with
  | nil =>
    simp only [List.nil_append, emitChars]
    cases emitChars v d b with
    | error e => rfl
    | ok p => obtain ⟨y, q⟩ := p; simp
  | cons c cs ih =>
    simp only [List.cons_append, emitChars, ih]
    cases emitChar v d c with
    | error e => rfl
    | ok p =>
      obtain ⟨x, q⟩ := p
      simp only
      cases emitChars v d cs with
      | error e => rfl
      | ok p2 =>
        obtain ⟨y, q2⟩ := p2
        simp only
        cases emitChars v d b with
        | error e => rfl
        | ok p3 => obtain ⟨z, q3⟩ := p3; simp [Bool.or_assoc]

theorem chunk_of_emit {v : CsvVer} {d : Fmt} (w : WF v d) {dbl : Bool} (hd : DblOk v d dbl) {c : Char}
    {a : Str} {fl : Bool} (h : emitChars v d (pre d dbl c) = .ok (a, fl)) : Chunk v d c a fl := by
  unfold pre at h
  by_cases hpre : (dbl && some c == d.escapechar) = true
  · rw [if_pos hpre] at h
    simp only [Bool.and_eq_true, beq_iff_eq] at hpre
    obtain ⟨hdbl, hesc⟩ := hpre
    obtain ⟨he, hq⟩ := hd.1 hdbl
    have hnq := (w.esc c hesc.symm).2.2
    simp [emitChars, emitChar, special, ← hesc, hq, he, Ne.symm hnq] at h
    obtain ⟨rfl, rfl⟩ := h
    exact .escq c hesc.symm rfl hq
  · rw [if_neg hpre] at h
    simp only [emitChars, emitChar] at h
    by_cases hsp : special v d c = true
    · simp only [hsp, if_true] at h
      by_cases hqn : d.quoting = .none
      · simp only [hqn, if_true] at h
        cases hesc : d.escapechar with
        | none => simp [hesc] at h
        | some e =>
          simp [hesc] at h
          obtain ⟨rfl, rfl⟩ := h
          exact .escaped e hesc (by simp [hqn])
      · simp only [hqn, if_false] at h
        by_cases hqc : some c = d.quotechar
        · have hcnl : isNl c = false := by
            obtain ⟨q, h1, _, h3⟩ := w.quote hqn
            rw [h1] at hqc; cases hqc; exact h3
          simp only [hqc, beq_self_eq_true, if_true] at h
          cases hdq : d.doublequote with
          | true =>
            simp [hdq] at h
            obtain ⟨rfl, rfl⟩ := h
            exact .doubled hqn hqc.symm hdq
          | false =>
            simp only [hdq, Bool.not_false, if_true] at h
            cases hesc : d.escapechar with
            | none => simp [hesc] at h
            | some e =>
              simp [hesc] at h
              obtain ⟨rfl, rfl⟩ := h
              exact .escaped e hesc (fun _ => hcnl)
        · have hqc' : (some c == d.quotechar) = false := by simpa using hqc
          simp only [hqc'] at h
          by_cases hec : some c = d.escapechar
          · -- the escape character itself: escaped in this version
            have hee : v.escEsc = true := by
              cases hdbl : dbl with
              | true => simp [hdbl, hec] at hpre
              | false =>
                rcases hd.2 hdbl with h1 | h1 | h1
                · exact h1
                · exact absurd h1 hqn
                · rw [h1] at hec; simp at hec
            simp only [Bool.false_eq_true, if_false, hee, hec, beq_self_eq_true, Bool.and_true, if_true] at h
            rw [← hec] at h
            simp at h
            obtain ⟨rfl, rfl⟩ := h
            exact .escaped c hec.symm (fun _ => (w.esc c hec.symm).2.1)
          · have hec' : (some c == d.escapechar) = false := by simpa using hec
            simp [hec'] at h
            obtain ⟨rfl, rfl⟩ := h
            exact .quoted hqn (fun e => hqc e.symm) (fun e => hec e.symm)
    · simp [hsp] at h
      obtain ⟨rfl, rfl⟩ := h
      exact .plain (by simpa using hsp)

/-- The text emitted for a cell: chunks of its characters. -/
inductive Chunks (v : CsvVer) (d : Fmt) : Str → Str → Bool → Prop where
  | nil : Chunks v d [] [] false
  | cons {c : Char} {cs a b : Str} {f g : Bool} :
      Chunk v d c a f → Chunks v d cs b g → Chunks v d (c :: cs) (a ++ b) (f || g)

theorem chunks_of_emit {v : CsvVer} {d : Fmt} (w : WF v d) {dbl : Bool} (hd : DblOk v d dbl) (s : Str)
    {a : Str} {fl : Bool} (h : emitChars v d (s.flatMap (pre d dbl)) = .ok (a, fl)) : Chunks v d s a fl := by
  induction s generalizing a fl with
  | nil => simp [emitChars] at h; obtain ⟨rfl, rfl⟩ := h; exact .nil
  | cons c cs ih =>
    rw [List.flatMap_cons, emitChars_append] at h
    cases h1 : emitChars v d (pre d dbl c) with
    | error e => rw [h1] at h; simp at h
    | ok p =>
      obtain ⟨x, q⟩ := p
      rw [h1] at h
      cases h2 : emitChars v d (cs.flatMap (pre d dbl)) with
      | error e => rw [h2] at h; simp at h
      | ok p2 =>
        obtain ⟨y, q2⟩ := p2
        rw [h2] at h
        simp only [Except.ok.injEq, Prod.mk.injEq] at h
        rw [← h.1, ← h.2]
        exact .cons (chunk_of_emit w hd h1) (ih h2)

/-! ## Reading -/

theorem run_ml (d : Fmt) (p : Parser) (ml ml' : Bool) {t : Str} (h : t ≠ []) : run d p ml t = run d p ml' t := by
  cases t with
  | nil => exact absurd rfl h
  | cons c cs => rfl

/-- A character which is no line break. -/
theorem run_char {d : Fmt} {p p' : Parser} {c : Char} {cs : Str} {ml : Bool} (hc : isNl c = false)
    (h : step d p (some c) = .ok p') : run d p ml (c :: cs) = run d p' true cs := by
  have : c ≠ '\r' := by rintro rfl; simp [isNl] at hc
  simp [run, h, hc, this]

/-- A line break which leaves the parser in a state unaffected by the end of the line. -/
theorem run_nl {d : Fmt} {p p' : Parser} {c : Char} {cs : Str} {ml : Bool}
    (h : step d p (some c) = .ok p') (h2 : step d p' none = .ok p') (h3 : p'.st ≠ .startRecord) (hcs : cs ≠ []) :
    run d p ml (c :: cs) = run d p' true cs := by
  simp only [run, h, h2]
  split
  · rfl
  · split
    · exact run_ml d p' _ _ hcs
    · rfl

theorem addChar_ok {p : Parser} {st : St} {c : Char} (h : p.field.length < fieldLimit) :
    addChar p st c = .ok { p with st := st, field := p.field ++ [c] } := by
  simp only [addChar, ge_iff_le]
  rw [if_neg (by omega)]

theorem run_chunk_quoted {v : CsvVer} {d : Fmt} (w : WF v d) (hq : d.quoting ≠ .none) {c : Char} {a : Str}
    {fl : Bool} (h : Chunk v d c a fl) {f : Str} {fs : List Str} (hf : f.length < fieldLimit) {rest : Str}
    (hr : rest ≠ []) (ml : Bool) :
    run d ⟨.inQuoted, f, fs⟩ ml (a ++ rest) = run d ⟨.inQuoted, f ++ [c], fs⟩ true rest := by
  have key : d.quotechar ≠ some c → d.escapechar ≠ some c →
      run d ⟨.inQuoted, f, fs⟩ ml (c :: rest) = run d ⟨.inQuoted, f ++ [c], fs⟩ true rest := by
    intro h1 h2
    apply run_nl _ _ _ hr
    · simp [step, Ne.symm h1, Ne.symm h2]
      rw [addChar_ok hf]
    · simp [step]
    · simp
  have hnn : (d.quoting != Quoting.none) = true := by simpa using hq
  cases h with
  | plain hs =>
    obtain ⟨_, h1, h2, _⟩ := not_special w hs
    exact key h2 h1
  | quoted _ h1 h2 => exact key h1 h2
  | escaped e he hnl =>
    obtain ⟨_, h2, h3⟩ := w.esc e he
    show run d ⟨.inQuoted, f, fs⟩ ml (e :: c :: rest) = _
    rw [run_char h2 (p' := ⟨.escapeInQuoted, f, fs⟩) (by simp [step, he])]
    exact run_char (hnl hq) (by simp [step]; rw [addChar_ok hf])
  | escq e he hce =>
    obtain ⟨_, h2, h3⟩ := w.esc e he
    subst hce
    show run d ⟨.inQuoted, f, fs⟩ ml (c :: c :: rest) = _
    rw [run_char h2 (p' := ⟨.escapeInQuoted, f, fs⟩) (by simp [step, he])]
    exact run_char h2 (by simp [step]; rw [addChar_ok hf])
  | doubled _ hqc hdq =>
    obtain ⟨q, h1, _, h3⟩ := w.quote hq
    rw [h1] at hqc; cases hqc
    have hne : d.escapechar ≠ some c := fun e => (w.esc c e).2.2 h1
    show run d ⟨.inQuoted, f, fs⟩ ml (c :: c :: rest) = _
    rw [run_char h3 (p' := ⟨.quoteInQuoted, f, fs⟩) (by simp [step, h1, Ne.symm hne, hnn, hdq])]
    exact run_char h3 (by simp [step, h1, hnn]; rw [addChar_ok hf])

theorem run_chunks_quoted {v : CsvVer} {d : Fmt} (w : WF v d) (hq : d.quoting ≠ .none) {s a : Str}
    {fl : Bool} (h : Chunks v d s a fl) {f : Str} {fs : List Str} (hf : f.length + s.length ≤ fieldLimit)
    {rest : Str} (hr : rest ≠ []) (ml : Bool) :
    run d ⟨.inQuoted, f, fs⟩ ml (a ++ rest) = run d ⟨.inQuoted, f ++ s, fs⟩ true rest := by
  induction h generalizing f ml with
  | nil => simp; exact run_ml _ _ _ _ hr
  | cons hc _ ih =>
    simp only [List.length_cons] at hf
    rw [List.append_assoc, run_chunk_quoted w hq hc (by omega) (by simp [hr]), ih (by simp; omega)]
    simp

/-- States inside an unquoted field. -/
def InF (st : St) : Prop := st = .inField ∨ st = .afterEscapedCrnl

theorem run_chunk_plain {v : CsvVer} {d : Fmt} (w : WF v d) {c : Char} {a : Str}
    (h : Chunk v d c a false) {p : Parser} (hf : p.field.length < fieldLimit)
    (hp : InF p.st ∨ ((p.st = .startField ∨ p.st = .startRecord) ∧ (d.skipinitialspace = true → c ≠ ' ')))
    {rest : Str} (hr : rest ≠ []) (ml : Bool) :
    ∃ st, InF st ∧ run d p ml (a ++ rest) = run d ⟨st, p.field ++ [c], p.fields⟩ true rest := by
  obtain ⟨st, f, fs⟩ := p
  simp only at hf hp ⊢
  cases h with
  | plain hs =>
    obtain ⟨h0, h1, h2, h3⟩ := not_special w hs
    rcases hp with (rfl | rfl) | ⟨rfl | rfl, hsp⟩
    · refine ⟨.inField, .inl rfl, run_char h3 ?_⟩
      simp [step, stepInField, h3, Ne.symm h1, h0]
      rw [addChar_ok hf]
    · refine ⟨.afterEscapedCrnl, .inr rfl, run_char h3 ?_⟩
      simp [step, stepInField, h3, Ne.symm h1, h0]
      rw [addChar_ok hf]
    · refine ⟨.inField, .inl rfl, run_char h3 ?_⟩
      have : ¬ (c = ' ' ∧ d.skipinitialspace = true) := fun ⟨x, y⟩ => hsp y x
      simp [step, stepStartField, h3, Ne.symm h1, Ne.symm h2, h0, this]
      rw [addChar_ok hf]
    · refine ⟨.inField, .inl rfl, run_char h3 ?_⟩
      have : ¬ (c = ' ' ∧ d.skipinitialspace = true) := fun ⟨x, y⟩ => hsp y x
      simp [step, stepStartField, h3, Ne.symm h1, Ne.symm h2, h0, this]
      rw [addChar_ok hf]
  | escaped e he hnl =>
    obtain ⟨h0, h2, h3⟩ := w.esc e he
    have first : run d ⟨st, f, fs⟩ ml (e :: c :: rest) = run d ⟨.escapedChar, f, fs⟩ true (c :: rest) := by
      apply run_char h2
      rcases hp with (rfl | rfl) | ⟨rfl | rfl, _⟩
      · simp [step, stepInField, h2, he]
      · simp [step, stepInField, h2, he]
      · simp [step, stepStartField, h2, he, Ne.symm h3]
      · simp [step, stepStartField, h2, he, Ne.symm h3]
    show ∃ st', InF st' ∧ run d ⟨st, f, fs⟩ ml (e :: c :: rest) = _
    cases hc : isNl c with
    | false =>
      refine ⟨.inField, .inl rfl, first.trans (run_char hc ?_)⟩
      simp [step, hc]; rw [addChar_ok hf]
    | true =>
      refine ⟨.afterEscapedCrnl, .inr rfl, first.trans (run_nl ?_ ?_ ?_ hr)⟩
      · simp [step, hc]; rw [addChar_ok hf]
      · simp [step]
      · simp

theorem run_chunks_plain {v : CsvVer} {d : Fmt} (w : WF v d) {s a : Str} {fl : Bool}
    (h : Chunks v d s a fl) (hfl : fl = false) {p : Parser} (hf : p.field.length + s.length ≤ fieldLimit)
    (hp : InF p.st) {rest : Str} (hr : rest ≠ []) (ml : Bool) :
    ∃ st, InF st ∧ run d p ml (a ++ rest) = run d ⟨st, p.field ++ s, p.fields⟩ true rest := by
  induction h generalizing p ml with
  | nil => exact ⟨p.st, hp, by simp; exact run_ml _ _ _ _ hr⟩
  | cons hc _ ih =>
    simp only [Bool.or_eq_false_iff] at hfl
    obtain ⟨rfl, rfl⟩ := hfl
    simp only [List.length_cons] at hf
    obtain ⟨st, hst, e⟩ := run_chunk_plain w hc (p := p) (by omega) (.inl hp) (rest := _ ++ rest)
      (by simp [hr]) ml
    obtain ⟨st2, hst2, e2⟩ := ih rfl (p := ⟨st, p.field ++ [_], p.fields⟩) (by simp; omega) hst true
    exact ⟨st2, hst2, by rw [List.append_assoc, e, e2]; simp⟩

/-- The parser has read the field `s` completely: the delimiter or a line break ends it. -/
structure Ended (d : Fmt) (p : Parser) : Prop where
  delim : step d p (some d.delimiter) = .ok (saveField p .startField)
  nl : ∀ c, isNl c = true → step d p (some c) = .ok (saveField p .eatCrnl)

theorem ended_inF {v : CsvVer} {d : Fmt} (w : WF v d) {p : Parser} (h : InF p.st) : Ended d p := by
  obtain ⟨st, f, fs⟩ := p
  have hd : d.escapechar ≠ some d.delimiter := fun e => (w.esc _ e).1 rfl
  rcases h with h | h <;> simp only at h <;> subst h
  · exact ⟨by simp [step, stepInField, w.delim_nl, Ne.symm hd, saveField],
      fun c hc => by simp [step, stepInField, hc, saveField]⟩
  · exact ⟨by simp [step, stepInField, w.delim_nl, Ne.symm hd, saveField],
      fun c hc => by simp [step, stepInField, hc, saveField]⟩

theorem ended_startField {v : CsvVer} {d : Fmt} (w : WF v d) {p : Parser} (h : p.st = .startField) :
    Ended d p := by
  obtain ⟨st, f, fs⟩ := p
  simp only at h; subst h
  have hd : d.escapechar ≠ some d.delimiter := fun e => (w.esc _ e).1 rfl
  have hs : ¬ (d.delimiter = ' ' ∧ d.skipinitialspace = true) := fun ⟨a, b⟩ => w.space b a
  have hq : ¬ (some d.delimiter = d.quotechar ∧ ¬ d.quoting = .none) := by
    rintro ⟨a, b⟩
    obtain ⟨q, h1, h2, _⟩ := w.quote b
    rw [h1] at a; cases a; exact h2 rfl
  exact ⟨by simp [step, stepStartField, w.delim_nl, Ne.symm hd, saveField, hs, hq],
    fun c hc => by simp [step, stepStartField, hc, saveField]⟩

theorem delim_startRecord {v : CsvVer} {d : Fmt} (w : WF v d) {p : Parser} (h : p.st = .startRecord) :
    step d p (some d.delimiter) = .ok (saveField p .startField) := by
  obtain ⟨st, f, fs⟩ := p
  simp only at h; subst h
  have := (ended_startField w (p := ⟨.startField, f, fs⟩) rfl).delim
  simp only [step, w.delim_nl, Bool.false_eq_true, if_false, stepStartField, saveField] at this ⊢
  exact this

theorem ended_quoteInQuoted {v : CsvVer} {d : Fmt} (w : WF v d) (hqn : d.quoting ≠ .none) {p : Parser}
    (h : p.st = .quoteInQuoted) : Ended d p := by
  obtain ⟨st, f, fs⟩ := p
  simp only at h; subst h
  obtain ⟨q, h1, h2, h3⟩ := w.quote hqn
  refine ⟨by simp [step, h1, Ne.symm h2, saveField], fun c hc => ?_⟩
  have hcq : c ≠ q := by rintro rfl; rw [h3] at hc; simp at hc
  have hcd : c ≠ d.delimiter := by rintro rfl; rw [w.delim_nl] at hc; simp at hc
  simp [step, h1, hcq, hcd, hc, saveField]

/-- Reading a quoted field. -/
theorem run_quoted {v : CsvVer} {d : Fmt} (w : WF v d) (hqn : d.quoting ≠ .none) {q : Char}
    (hq : d.quotechar = some q) {s a : Str} {fl : Bool} (h : Chunks v d s a fl) {p : Parser}
    (hp : p.st = .startField ∨ p.st = .startRecord) (hpf : p.field = []) (hs : s.length ≤ fieldLimit)
    {rest : Str} (ml : Bool) :
    ∃ st, Ended d ⟨st, s, p.fields⟩ ∧
      run d p ml (q :: a ++ [q] ++ rest) = run d ⟨st, s, p.fields⟩ true rest := by
  obtain ⟨q', h1, h2, h3⟩ := w.quote hqn
  rw [hq] at h1; cases h1
  have hne : d.escapechar ≠ some q := fun e => (w.esc q e).2.2 hq
  obtain ⟨st, f, fs⟩ := p
  simp only at hp hpf
  subst hpf
  have e1 : run d ⟨st, [], fs⟩ ml (q :: (a ++ (q :: rest))) = run d ⟨.inQuoted, [], fs⟩ true (a ++ (q :: rest)) := by
    apply run_char h3
    rcases hp with rfl | rfl
    · simp [step, stepStartField, h3, hq, hqn]
    · simp [step, stepStartField, h3, hq, hqn]
  have e2 := run_chunks_quoted w hqn h (f := []) (fs := fs) (by simpa using hs) (rest := q :: rest) (by simp) true
  have e3 : run d ⟨.inQuoted, s, fs⟩ true (q :: rest) =
      run d ⟨if d.doublequote then .quoteInQuoted else .inField, s, fs⟩ true rest := by
    apply run_char h3
    simp [step, hq, Ne.symm hne, hqn]
  refine ⟨if d.doublequote then .quoteInQuoted else .inField, ?_, ?_⟩
  · cases d.doublequote with
    | true => exact ended_quoteInQuoted w hqn rfl
    | false => exact ended_inF w (.inl rfl)
  · have : q :: a ++ [q] ++ rest = q :: (a ++ (q :: rest)) := by simp
    rw [this, e1, e2]
    simpa using e3

/-- `t` is a text written for the field `s` (not the special `""` of a single empty field). -/
inductive FieldText (v : CsvVer) (d : Fmt) (s : Str) : Str → Prop where
  | quoted {q : Char} {a : Str} {fl : Bool} : d.quoting ≠ .none → d.quotechar = some q → Chunks v d s a fl →
      FieldText v d s (q :: a ++ [q])
  | plain {a : Str} {fl : Bool} : Chunks v d s a fl → fl = false → FieldText v d s a

theorem fieldText_of_write {v : CsvVer} {d : Fmt} (w : WF v d) {dbl : Bool} (hd : DblOk v d dbl) {s t : Str}
    (h : writeField v d (s.flatMap (pre d dbl)) = .ok t) : FieldText v d s t := by
  unfold writeField at h
  cases he : emitChars v d (s.flatMap (pre d dbl)) with
  | error e => rw [he] at h; simp at h
  | ok p =>
    obtain ⟨body, fl⟩ := p
    rw [he] at h
    have hc := chunks_of_emit w hd s he
    simp only at h
    split at h
    · simp at h
    · next hnot =>
      split at h
      · next hcond =>
        cases hq : d.quotechar with
        | none =>
          rw [hq] at h
          simp only [Except.ok.injEq] at h
          subst h
          have hqn : d.quoting = .none := by
            cases hqq : d.quoting with
            | none => rfl
            | minimal =>
              obtain ⟨q, h1, _⟩ := w.quote (by simp [hqq])
              rw [hq] at h1; simp at h1
            | all =>
              obtain ⟨q, h1, _⟩ := w.quote (by simp [hqq])
              rw [hq] at h1; simp at h1
          simp [hqn] at hcond hnot
          rcases hcond with hcond | hcond
          · -- a quote flag cannot be set under QUOTE_NONE
            exfalso
            clear he hnot
            induction hc with
            | nil => simp at hcond
            | cons hc1 _ ih =>
              simp only [Bool.or_eq_true] at hcond
              rcases hcond with hcond | hcond
              · cases hc1 with
                | plain _ => simp at hcond
                | escaped _ _ _ => simp at hcond
                | quoted h0 _ _ => exact h0 hqn
                | escq _ _ _ h0 => exact h0 hqn
                | doubled h0 _ _ => exact h0 hqn
              · exact ih hcond
          · exact absurd hcond.2 (by simpa using hnot hcond.1.1.1 hcond.1.1.2 hcond.1.2)
        | some q =>
          rw [hq] at h
          simp only [Except.ok.injEq] at h
          subst h
          refine .quoted ?_ hq hc
          intro hqn
          simp [hqn] at hcond hnot
          rcases hcond with hcond | hcond
          · exfalso
            clear he hnot
            induction hc with
            | nil => simp at hcond
            | cons hc1 _ ih =>
              simp only [Bool.or_eq_true] at hcond
              rcases hcond with hcond | hcond
              · cases hc1 with
                | plain _ => simp at hcond
                | escaped _ _ _ => simp at hcond
                | quoted h0 _ _ => exact h0 hqn
                | escq _ _ _ h0 => exact h0 hqn
                | doubled h0 _ _ => exact h0 hqn
              · exact ih hcond
          · exact absurd hcond.2 (by simpa using hnot hcond.1.1.1 hcond.1.1.2 hcond.1.2)
      · next hcond =>
        simp only [Except.ok.injEq] at h
        subst h
        simp only [Bool.or_eq_true, not_or] at hcond
        have : fl = false := by simpa using hcond.1.1
        exact .plain hc this

/-- Reading a field: afterwards the delimiter ends it, and a line break does, unless the text is empty at the
start of the record. -/
theorem run_field {v : CsvVer} {d : Fmt} (w : WF v d) {s t : Str} (h : FieldText v d s t) (hs : CellOk d s)
    {p : Parser} (hp : p.st = .startField ∨ p.st = .startRecord) (hpf : p.field = [])
    {rest : Str} (hr : rest ≠ []) (ml : Bool) :
    ∃ p', p'.field = s ∧ p'.fields = p.fields ∧ run d p ml (t ++ rest) = run d p' true rest ∧
      step d p' (some d.delimiter) = .ok (saveField p' .startField) ∧
      (p.st = .startField ∨ t ≠ [] → Ended d p') := by
  cases h with
  | quoted hqn hq hc =>
    obtain ⟨st, he, hrun⟩ := run_quoted w hqn hq hc hp hpf hs.1 (rest := rest) ml
    exact ⟨⟨st, s, p.fields⟩, rfl, rfl, hrun, he.delim, fun _ => he⟩
  | plain hc hfl =>
    cases hc with
    | nil =>
      refine ⟨p, hpf, rfl, by simp; exact run_ml _ _ _ _ hr, ?_, ?_⟩
      · rcases hp with hp | hp
        · exact (ended_startField w hp).delim
        · exact delim_startRecord w hp
      · rintro (hp | hp)
        · exact ended_startField w hp
        · simp at hp
    | @cons c cs a b f g hc1 hcs =>
      simp only [Bool.or_eq_false_iff] at hfl
      obtain ⟨rfl, rfl⟩ := hfl
      have hlen : cs.length + 1 ≤ fieldLimit := by have := hs.1; simpa using this
      obtain ⟨st, hst, e⟩ := run_chunk_plain w hc1 (p := p) (by rw [hpf]; simp; omega)
        (.inr ⟨hp, fun hsp hsc => hs.2 hsp (by simp [hsc])⟩) (rest := b ++ rest) (by simp [hr]) ml
      obtain ⟨st2, hst2, e2⟩ := run_chunks_plain w hcs rfl (p := ⟨st, p.field ++ [c], p.fields⟩)
        (by rw [hpf]; simp; omega) hst hr true
      refine ⟨⟨st2, c :: cs, p.fields⟩, rfl, rfl, ?_, ?_⟩
      · rw [List.append_assoc, e, e2, hpf]; simp
      · exact ⟨(ended_inF w hst2).delim, fun _ => ended_inF w hst2⟩

/-- The line terminator ends the record. -/
theorem run_lt {v : CsvVer} {d : Fmt} (w : WF v d) {p : Parser}
    (h : ∀ c, isNl c = true → ∃ p', step d p (some c) = .ok p' ∧ p'.st = .eatCrnl ∧ p'.fields = p.fields ++ row)
    {rest : Str} (hrest : d.lineterminator = ['\r'] → rest.head? ≠ some '\n') (ml : Bool) :
    run d p ml (d.lineterminator ++ rest) =
      ((p.fields ++ row) :: (run d .init false rest).1, (run d .init false rest).2) := by
  have hnlN : isNl '\n' = true := rfl
  have hnlR : isNl '\r' = true := rfl
  have eol : ∀ p' : Parser, p'.st = .eatCrnl → p'.fields = p.fields ++ row →
      step d p' none = .ok ⟨.startRecord, p'.field, p.fields ++ row⟩ := by
    intro p' h1 h2
    obtain ⟨st, f, fs⟩ := p'
    simp only at h1 h2; subst h1 h2
    simp [step]
  have eat : ∀ p' : Parser, p'.st = .eatCrnl → step d p' (some '\n') = .ok p' := by
    intro p' h1
    obtain ⟨st, f, fs⟩ := p'
    simp only at h1; subst h1
    simp [step, isNl]
  rcases w.lt with hlt | hlt | hlt
  · obtain ⟨p', h1, h2, h3⟩ := h '\r' hnlR
    rw [hlt]
    simp only [List.cons_append, List.nil_append, run, h1, List.head?_cons, and_self, if_true,
      eat p' h2]
    simp [hnlN, eol p' h2 h3]
  · obtain ⟨p', h1, h2, h3⟩ := h '\n' hnlN
    rw [hlt]
    simp [run, h1, hnlN, eol p' h2 h3]
  · obtain ⟨p', h1, h2, h3⟩ := h '\r' hnlR
    have := hrest hlt
    rw [hlt]
    simp [run, h1, hnlR, eol p' h2 h3, this]

/-- Texts of a list of fields. -/
inductive FieldTexts (v : CsvVer) (d : Fmt) : List Str → List Str → Prop where
  | nil : FieldTexts v d [] []
  | cons {s t : Str} {ss ts : List Str} : FieldText v d s t → FieldTexts v d ss ts →
      FieldTexts v d (s :: ss) (t :: ts)

theorem lt_ne_nil {v : CsvVer} {d : Fmt} (w : WF v d) : d.lineterminator ≠ [] := by
  rcases w.lt with h | h | h <;> simp [h]

/-- Reading the fields of a record, starting at a field. -/
theorem run_fields {v : CsvVer} {d : Fmt} (w : WF v d) {ss ts : List Str} (h : FieldTexts v d ss ts)
    (hne : ss ≠ []) (hok : ∀ s ∈ ss, CellOk d s) {p : Parser}
    (hp : p.st = .startField ∨ (p.st = .startRecord ∧ Py.join [d.delimiter] ts ≠ [])) (hpf : p.field = [])
    {rest : Str} (hrest : d.lineterminator = ['\r'] → rest.head? ≠ some '\n') (ml : Bool) :
    run d p ml (Py.join [d.delimiter] ts ++ d.lineterminator ++ rest) =
      ((p.fields ++ ss) :: (run d .init false rest).1, (run d .init false rest).2) := by
  induction h generalizing p ml with
  | nil => exact absurd rfl hne
  | @cons s t ss ts hft hfts ih =>
    have hp' : p.st = .startField ∨ p.st = .startRecord := hp.imp id And.left
    cases hfts with
    | nil =>
      simp only [Py.join] at hp ⊢
      rw [List.append_assoc]
      obtain ⟨p', h1, h2, h3, h4, h5⟩ := run_field w hft (hok s (by simp)) hp' hpf
        (rest := d.lineterminator ++ rest) (by simp [lt_ne_nil w]) ml
      have hE := h5 (hp.imp id And.right)
      rw [h3, run_lt w (row := [s]) ?_ hrest true, h2]
      intro c hc
      exact ⟨_, hE.nl c hc, rfl, by simp [saveField, h1]⟩
    | @cons s2 t2 ss2 ts2 hft2 hfts2 =>
      simp only [Py.join, List.append_assoc]
      obtain ⟨p', h1, h2, h3, h4, h5⟩ := run_field w hft (hok s (by simp)) hp' hpf
        (rest := [d.delimiter] ++ (Py.join [d.delimiter] (t2 :: ts2) ++ (d.lineterminator ++ rest))) (by simp) ml
      rw [h3]
      simp only [List.cons_append, List.nil_append]
      rw [run_char w.delim_nl h4]
      have := ih (by simp) (fun x hx => hok x (by simp [hx])) (p := saveField p' .startField) (.inl rfl) rfl true
      simp only [List.append_assoc] at this
      rw [this]
      simp [saveField, h1, h2]

theorem fieldTexts_of_write {v : CsvVer} {d : Fmt} (w : WF v d) {dbl : Bool} (hd : DblOk v d dbl) {ss ts : List Str}
    (h : writeFields v d (ss.map (·.flatMap (pre d dbl))) = .ok ts) : FieldTexts v d ss ts := by
  induction ss generalizing ts with
  | nil => simp [writeFields] at h; subst h; exact .nil
  | cons s ss ih =>
    simp only [List.map_cons, writeFields] at h
    cases h1 : writeField v d (s.flatMap (pre d dbl)) with
    | error e => rw [h1] at h; simp at h
    | ok a =>
      rw [h1] at h
      simp only at h
      cases h2 : writeFields v d (ss.map (·.flatMap (pre d dbl))) with
      | error e => rw [h2] at h; simp at h
      | ok r =>
        rw [h2] at h
        simp only [Except.ok.injEq] at h
        subst h
        exact .cons (fieldText_of_write w hd h1) (ih h2)

theorem chunk_ne_nil {v : CsvVer} {d : Fmt} {c : Char} {a : Str} {fl : Bool} (h : Chunk v d c a fl) : a ≠ [] := by
  cases h <;> simp

theorem chunks_nil {v : CsvVer} {d : Fmt} {s a : Str} {fl : Bool} (h : Chunks v d s a fl) (ha : a = []) : s = [] := by
  cases h with
  | nil => rfl
  | cons hc _ => simp at ha; exact absurd ha.1 (chunk_ne_nil hc)

theorem join_nil {delim : Char} {ts : List Str} (h : Py.join [delim] ts = []) : ts = [] ∨ ts = [[]] := by
  cases ts with
  | nil => exact .inl rfl
  | cons t ts =>
    cases ts with
    | nil => simp [Py.join] at h; exact .inr (by rw [h])
    | cons t2 ts => simp [Py.join] at h

/-- Reading back one written row. -/
theorem run_row {v : CsvVer} {d : Fmt} (w : WF v d) {dbl : Bool} (hd : DblOk v d dbl) {row : List Str} {t : Str}
    (h : writeRow v d (row.map (·.flatMap (pre d dbl))) = .ok t) (hok : ∀ s ∈ row, CellOk d s)
    {rest : Str} (hrest : d.lineterminator = ['\r'] → rest.head? ≠ some '\n') :
    run d .init false (t ++ rest) = (row :: (run d .init false rest).1, (run d .init false rest).2) := by
  unfold writeRow at h
  cases hw : writeFields v d (row.map (·.flatMap (pre d dbl))) with
  | error e => rw [hw] at h; simp at h
  | ok ts =>
    rw [hw] at h
    have hts := fieldTexts_of_write w hd hw
    simp only at h
    split at h
    · next hcond =>
      simp only [List.isEmpty_iff, Bool.and_eq_true, Bool.not_eq_true', List.isEmpty_eq_false_iff,
        ne_eq, List.map_eq_nil_iff] at hcond
      obtain ⟨hj, hrow⟩ := hcond
      -- single empty field
      rcases join_nil hj with hts0 | hts1
      · rw [hts0] at hts; cases hts; exact absurd rfl hrow
      · rw [hts1] at hts
        cases hts with
        | @cons s _ ss _ hft hfts =>
          cases hfts
          have hs : s = [] := by
            cases hft with
            | plain hc _ => exact chunks_nil hc rfl
          subst hs
          cases hq : d.quoting with
          | none => simp [hq] at h
          | minimal =>
            obtain ⟨q, h1, _, _⟩ := w.quote (by simp [hq])
            simp [hq, h1] at h
            subst h
            have hF : FieldText v d [] (q :: [] ++ [q]) := .quoted (by simp [hq]) h1 .nil
            have := run_fields w (.cons hF .nil) (by simp) hok (p := .init) (.inr ⟨rfl, by simp [Py.join]⟩) rfl
              hrest false
            simpa [Py.join, Parser.init] using this
          | all =>
            obtain ⟨q, h1, _, _⟩ := w.quote (by simp [hq])
            simp [hq, h1] at h
            subst h
            have hF : FieldText v d [] (q :: [] ++ [q]) := .quoted (by simp [hq]) h1 .nil
            have := run_fields w (.cons hF .nil) (by simp) hok (p := .init) (.inr ⟨rfl, by simp [Py.join]⟩) rfl
              hrest false
            simpa [Py.join, Parser.init] using this
    · next hcond =>
      simp only [Except.ok.injEq] at h
      subst h
      by_cases hrow : row = []
      · subst hrow
        cases hts
        simp only [Py.join, List.nil_append]
        rw [run_lt w (row := []) ?_ hrest false]
        · simp [Parser.init]
        · intro c hc
          exact ⟨⟨.eatCrnl, [], []⟩, by simp [step, Parser.init, hc], rfl, by simp [Parser.init]⟩
      · have hj : Py.join [d.delimiter] ts ≠ [] := by
          intro hj
          simp [hj, hrow] at hcond
        have := run_fields w hts hrow hok (p := .init) (.inr ⟨rfl, hj⟩) rfl hrest false
        simpa [Parser.init] using this

theorem chunks_head {v : CsvVer} {d : Fmt} (w : WF v d) {s a : Str} {fl : Bool} (h : Chunks v d s a fl)
    (hfl : fl = false) : ∀ c, a.head? = some c → isNl c = false := by
  cases h with
  | nil => simp
  | cons hc _ =>
    simp only [Bool.or_eq_false_iff] at hfl
    obtain ⟨rfl, rfl⟩ := hfl
    cases hc with
    | plain hs => intro c hc; simp at hc; subst hc; exact (not_special w hs).2.2.2
    | escaped e he _ => intro c hc; simp at hc; subst hc; exact (w.esc _ he).2.1

theorem fieldText_head {v : CsvVer} {d : Fmt} (w : WF v d) {s t : Str} (h : FieldText v d s t) :
    ∀ c, t.head? = some c → isNl c = false := by
  cases h with
  | quoted hqn hq hc =>
    intro c hc'
    simp at hc'; subst hc'
    obtain ⟨q, h1, _, h3⟩ := w.quote hqn
    rw [hq] at h1; cases h1; exact h3
  | plain hc hfl => exact chunks_head w hc hfl

/-- A written row does not begin with a line feed if the line terminator is CR. -/
theorem row_head {v : CsvVer} {d : Fmt} (w : WF v d) {dbl : Bool} (hd : DblOk v d dbl) {row : List Str} {t : Str}
    (h : writeRow v d (row.map (·.flatMap (pre d dbl))) = .ok t) (hlt : d.lineterminator = ['\r']) :
    t.head? ≠ some '\n' ∧ t ≠ [] := by
  have hN : isNl '\n' = true := rfl
  unfold writeRow at h
  cases hw : writeFields v d (row.map (·.flatMap (pre d dbl))) with
  | error e => rw [hw] at h; simp at h
  | ok ts =>
    rw [hw] at h
    have hts := fieldTexts_of_write w hd hw
    simp only at h
    split at h
    · cases hq : d.quoting with
      | none => simp [hq] at h
      | minimal =>
        obtain ⟨q, h1, _, h3⟩ := w.quote (by simp [hq])
        simp [hq, h1] at h
        subst h
        simp
        rintro rfl; rw [h3] at hN; simp at hN
      | all =>
        obtain ⟨q, h1, _, h3⟩ := w.quote (by simp [hq])
        simp [hq, h1] at h
        subst h
        simp
        rintro rfl; rw [h3] at hN; simp at hN
    · simp only [Except.ok.injEq] at h
      subst h
      refine ⟨?_, by simp [hlt]⟩
      cases hts with
      | nil => simp [Py.join, hlt]
      | @cons s t' ss ts' hft hfts =>
        have hh := fieldText_head w hft
        cases t' with
        | cons c cs =>
          have := hh c rfl
          cases ts' with
          | nil =>
            simp [Py.join]; rintro rfl; rw [this] at hN; simp at hN
          | cons _ _ =>
            simp [Py.join]; rintro rfl; rw [this] at hN; simp at hN
        | nil =>
          cases ts' with
          | nil => simp [Py.join, hlt]
          | cons _ _ =>
            simp [Py.join]; intro hdn; have := w.delim_nl; rw [hdn, hN] at this; simp at this

/-- **Round trip** for `csv.writer`/`csv.reader` (rows possibly with the escape character doubled before writing). -/
theorem roundtrip {v : CsvVer} {d : Fmt} (w : WF v d) {dbl : Bool} (hd : DblOk v d dbl) {rows : List (List Str)}
    {t : Str} (h : writeRows v d (rows.map (·.map (·.flatMap (pre d dbl)))) = .ok t)
    (hok : ∀ row ∈ rows, ∀ s ∈ row, CellOk d s) :
    run d .init false t = (rows, none) := by
  have main : run d .init false t = (rows, none) ∧ (d.lineterminator = ['\r'] → t.head? ≠ some '\n') := by
    induction rows generalizing t with
    | nil =>
      simp [writeRows] at h; subst h
      simp [run, endInput, Parser.init]
    | cons row rows ih =>
      simp only [List.map_cons, writeRows] at h
      cases h1 : writeRow v d (row.map (·.flatMap (pre d dbl))) with
      | error e => rw [h1] at h; simp at h
      | ok a =>
        rw [h1] at h
        simp only at h
        cases h2 : writeRows v d (rows.map (·.map (·.flatMap (pre d dbl)))) with
        | error e => rw [h2] at h; simp at h
        | ok b =>
          rw [h2] at h
          simp only [Except.ok.injEq] at h
          subst h
          obtain ⟨i1, i2⟩ := ih h2 (fun r hr => hok r (by simp [hr]))
          refine ⟨?_, ?_⟩
          · rw [run_row w hd h1 (hok row (by simp)) i2, i1]
          · intro hlt
            obtain ⟨g1, g2⟩ := row_head w hd h1 hlt
            cases a with
            | nil => exact absurd rfl g2
            | cons c cs => simpa using g1
  exact main.1

end Csvw.CsvLib
