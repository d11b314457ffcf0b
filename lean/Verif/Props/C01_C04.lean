import Verif.Lemmas.DsvRoundtrip
/-!
# C01–C04: writing and reading back DSV files

`writeFile v cfg rows` is the content of the file after `with UnicodeWriter(f, …) as w: w.writerows(rows)`,
`readFile cfg text` is the list of rows (and the terminating exception, `none` at the regular end) of
`with UnicodeReader(f, …) as r: list(r)`. `v` is the version-dependent behaviour of the `csv` module.
-/

namespace Csvw.Props
open Dsv CsvLib

/-- **C01** Default writer/reader round-trip: every list of rows, written with default settings, is read back
unchanged (cells up to the field limit of `csv`, data not starting with a byte order mark). -/
theorem C01_default_roundtrip (v : CsvVer) (rows : List (List Str))
    (hlen : ∀ r ∈ rows, ∀ s ∈ r, s.length ≤ 131072) (hb : ¬ Spec.StartsWithBom rows) :
    ∃ text, writeFile v Cfg.default rows = .ok text ∧ readFile Cfg.default text = (rows, none) :=
  default_roundtrip v rows hlen hb

/-- Non-vacuity: rows with quotes, delimiters, line breaks, empty cells, an empty row. -/
example : ∃ rows : List (List Str), rows = [["a\"b".toList, ",\r\n".toList, []], [], [[]]] ∧
    (∀ r ∈ rows, ∀ s ∈ r, s.length ≤ 131072) ∧ ¬ Spec.StartsWithBom rows ∧
    readFile Cfg.default "\"a\"\"b\",\",\r\n\",\r\n\r\n\"\"\r\n".toList = (rows, none) := by
  refine ⟨_, rfl, by decide, ?_, by decide⟩
  rintro ⟨s, c, r, h⟩
  simp [Spec.bom] at h

/-- Witness that the restriction on byte order marks is necessary (known limitation, dsv.py 185-190): a leading
U+FEFF of the first cell is lost. -/
theorem C01_bom_is_dropped :
    ∃ text, writeFile .py311 Cfg.default [[Spec.bom :: ['a']]] = .ok text ∧
      readFile Cfg.default text = ([[['a']]], none) :=
  ⟨Spec.bom :: 'a' :: ['\r', '\n'], by decide, by decide⟩

/-- The family of dialects of C02: delimiter `dl`, quote character `q`, line terminator `lt`. -/
structure QuoteDialect (v : CsvVer) (d : Dialect) (dl q : Char) (lt : Str) : Prop where
  delimiter : d.delimiter = [dl]
  quoteChar : d.quoteChar = .str [q]
  terminator : ∃ more, d.lineTerminators = .str lt :: more
  /-- the line terminator is one that text files can have -/
  isTerminator : lt = ['\r', '\n'] ∨ lt = ['\n'] ∨ lt = ['\r']
  /-- delimiter and quote character are different and no line breaks or byte order marks -/
  distinct : dl ≠ q
  delimOk : dl ≠ '\r' ∧ dl ≠ '\n' ∧ dl ≠ Spec.bom
  quoteOk : q ≠ '\r' ∧ q ≠ '\n' ∧ q ≠ Spec.bom
  /-- with `skipInitialSpace` the delimiter must not be the space -/
  space : d.skipInitialSpace = true → dl ≠ ' '
  /-- older versions of `csv.writer` quote line breaks only if they occur in the line terminator -/
  nl : v.quoteNl = true ∨ lt = ['\r', '\n']

/-- The reader's extra features do not apply to the given rows. -/
structure NoSkipping (d : Dialect) (rows : List (List Str)) : Prop where
  skipRows : d.skipRows = 0
  skipColumns : d.skipColumns = 0
  trim : d.trim = .false_
  comment : ∀ r ∈ rows, ¬ Spec.CommentRow d r
  blank : d.skipBlankRows = true → ∀ r ∈ rows, ¬ Spec.BlankRow r

theorem NoSkipping.transparent {d : Dialect} {rows : List (List Str)} (h : NoSkipping d rows) :
    Transparent d rows := ⟨h.skipRows, h.skipColumns, h.trim, h.comment, h.blank⟩

/-- Cells that can be stored: up to the field limit, and without leading space if the dialect skips those. -/
def Storable (d : Dialect) (rows : List (List Str)) : Prop :=
  ∀ r ∈ rows, ∀ s ∈ r, s.length ≤ 131072 ∧ (d.skipInitialSpace = true → s.head? ≠ some ' ')

theorem isNl_false {c : Char} (h : c ≠ '\r' ∧ c ≠ '\n') : isNl c = false := by
  simp [isNl, h.1, h.2]

/-- The csv format with quote character `q`. -/
@[simp] abbrev qFmt (dl q : Char) (esc : Option Char) (dq sis : Bool) (lt : Str) : Fmt :=
  ⟨dl, some q, esc, dq, sis, lt, .minimal, true⟩
/-- The csv format without quoting. -/
@[simp] abbrev nqFmt (dl : Char) (dq sis : Bool) (lt : Str) : Fmt := ⟨dl, none, none, dq, sis, lt, .none, true⟩

/-- The csv format of a dialect of the family. -/
theorem QuoteDialect.toFmt {v : CsvVer} {d : Dialect} {dl q : Char} {lt : Str} (h : QuoteDialect v d dl q lt) :
    d.toFmt = .ok (qFmt dl q (if d.doubleQuote then none else some '\\') d.doubleQuote d.skipInitialSpace lt) := by
  obtain ⟨more, hm⟩ := h.terminator
  unfold Dialect.toFmt
  rw [hm, h.delimiter, h.quoteChar]
  simp only [Dialect.escapeCharacter, h.quoteChar]
  cases d.doubleQuote <;> simp [qFmt]

theorem QuoteDialect.wf {v : CsvVer} {d : Dialect} {dl q : Char} {lt : Str} (h : QuoteDialect v d dl q lt)
    {f : Fmt} (hf : d.toFmt = .ok f) (he : d.doubleQuote = false → dl ≠ '\\' ∧ q ≠ '\\') : WF v f := by
  rw [h.toFmt] at hf
  cases hf
  refine ⟨isNl_false ⟨h.delimOk.1, h.delimOk.2.1⟩,
    fun _ => ⟨q, rfl, Ne.symm h.distinct, isNl_false ⟨h.quoteOk.1, h.quoteOk.2.1⟩⟩, ?_, ?_, h.isTerminator, h.space⟩
  · intro e hee
    simp only at hee
    cases hdq : d.doubleQuote with
    | true => simp [hdq] at hee
    | false =>
      simp [hdq] at hee
      subst hee
      obtain ⟨h1, h2⟩ := he hdq
      exact ⟨Ne.symm h1, by decide, by simp; exact h2⟩
  · rcases h.nl with hn | hn
    · exact .inl hn
    · exact .inr (by rw [hn]; simp)

/-- **C02** Dialect writer/reader round-trip (`doubleQuote=True`). -/
theorem C02_dialect_roundtrip (v : CsvVer) (d : Dialect) (dl q : Char) (lt : Str) (rows : List (List Str))
    (hd : QuoteDialect v d dl q lt) (hq : d.doubleQuote = true) (hs : NoSkipping d rows) (hc : Storable d rows)
    (hb : ¬ Spec.StartsWithBom rows) :
    ∃ cfg text, Cfg.ofDialect d = .ok cfg ∧ writeFile v cfg rows = .ok text ∧
      readFile cfg text = (rows, none) := by
  have hf := hd.toFmt
  rw [hq] at hf
  simp only [if_true] at hf
  have w := hd.wf hf (by simp [hq])
  refine ⟨⟨qFmt dl q none true d.skipInitialSpace lt, some d⟩, ?_⟩
  obtain ⟨t, ht⟩ := writeRows_isOk (v := v) (d := qFmt dl q none true d.skipInitialSpace lt) (by simp) (.inl rfl) (rows.map (·.map (escapeDoubled
    (qFmt dl q none true d.skipInitialSpace lt))))
  have hw : writeFile v ⟨qFmt dl q none true d.skipInitialSpace lt, some d⟩ rows = .ok t := by
    rw [writeFile_eq]; exact ht
  refine ⟨t, by simp [Cfg.ofDialect, hf], hw, ?_⟩
  apply readFile_transparent _ hs.transparent
  exact read_written (dl := some d) w (dblOk_false (.inl rfl)) (escapeDoubled_none (.inl rfl) rows)
    (fun r hr s hs' => hc r hr s hs') hb (Ne.symm hd.delimOk.2.2) (by simpa using hd.quoteOk.2.2) (by simp) hw

/-- A TSV dialect with single quotes, LF line ends, blank rows skipped (for the non-vacuity example). -/
def tsvExample : Dialect where
  delimiter := ['\t']
  quoteChar := .str ['\'']
  lineTerminators := [.str ['\n']]
  commentPrefix := none
  skipBlankRows := true

example : QuoteDialect .py311 tsvExample '\t' '\'' ['\n'] ∧
    NoSkipping tsvExample [["it's".toList, "\t\n\r".toList], [[], "x".toList]] ∧
    Storable { skipInitialSpace := true } [["it's".toList, "\t\n\r".toList], [[], "x".toList]] := by
  refine ⟨⟨rfl, rfl, ⟨[], rfl⟩, by simp, by decide, by decide, by decide, by simp, .inl rfl⟩,
    ⟨rfl, rfl, rfl, ?_, ?_⟩, by unfold Storable; decide⟩
  · rintro r _ ⟨p, s, rest, h, _⟩; simp [tsvExample] at h
  · decide

/-- Cell `s` with each backslash doubled. -/
def backslashesDoubled (s : Str) : Str := s.flatMap (fun c => if c = '\\' then ['\\', '\\'] else [c])

theorem escapeDoubled_backslash (f : Fmt) (h : f.escapechar = some '\\') (hq : f.quoting = .minimal) (s : Str) :
    escapeDoubled f s = backslashesDoubled s := by
  unfold escapeDoubled backslashesDoubled
  simp [h, hq, replace_single]

/-- **C03**, older `csv` (Python ≤ 3.9, which does not escape the escape character itself): with
`doubleQuote=False` (backslash escaping), all rows are read back unchanged. -/
theorem C03_escapechar_roundtrip_old_csv (v : CsvVer) (hv : v.escEsc = false)
    (d : Dialect) (dl q : Char) (lt : Str) (rows : List (List Str))
    (hd : QuoteDialect v d dl q lt) (hq : d.doubleQuote = false) (he : dl ≠ '\\' ∧ q ≠ '\\')
    (hs : NoSkipping d rows) (hc : Storable d rows) (hb : ¬ Spec.StartsWithBom rows) :
    ∃ cfg text, Cfg.ofDialect d = .ok cfg ∧ writeFile v cfg rows = .ok text ∧
      readFile cfg text = (rows, none) := by
  have hf := hd.toFmt
  have w := hd.wf hf (fun _ => he)
  rw [hq] at hf w
  simp only [Bool.false_eq_true, if_false] at hf w
  refine ⟨⟨qFmt dl q (some '\\') false d.skipInitialSpace lt, some d⟩, ?_⟩
  obtain ⟨t, ht⟩ := writeRows_isOk (v := v) (d := qFmt dl q (some '\\') false d.skipInitialSpace lt) (by simp) (.inr rfl) (rows.map (·.map (escapeDoubled
    (qFmt dl q (some '\\') false d.skipInitialSpace lt))))
  have hw : writeFile v ⟨qFmt dl q (some '\\') false d.skipInitialSpace lt, some d⟩ rows = .ok t := by
    rw [writeFile_eq]; exact ht
  refine ⟨t, by simp [Cfg.ofDialect, hf], hw, ?_⟩
  apply readFile_transparent _ hs.transparent
  refine read_written (dl := some d) (dbl := true) w ⟨fun _ => ⟨hv, by simp⟩, by simp⟩ ?_
    (fun r hr s hs' => hc r hr s hs') hb (Ne.symm hd.delimOk.2.2) (by simpa using hd.quoteOk.2.2)
    (by simp; decide) hw
  apply List.map_congr_left; intro r _
  apply List.map_congr_left; intro s _
  rw [escapeDoubled_eq]
  simp

/-- **C03**, current `csv` (Python ≥ 3.10): the exact effect of writing and re-reading with `doubleQuote=False` is
that each backslash of each cell is doubled, because both `UnicodeWriter` (dsv.py 81-85) and `csv.writer` escape it. -/
theorem C03_escapechar_effect_new_csv (v : CsvVer) (hv : v.escEsc = true)
    (d : Dialect) (dl q : Char) (lt : Str) (rows : List (List Str))
    (hd : QuoteDialect v d dl q lt) (hq : d.doubleQuote = false) (he : dl ≠ '\\' ∧ q ≠ '\\')
    (hs : NoSkipping d (rows.map (·.map backslashesDoubled))) (hc : Storable d (rows.map (·.map backslashesDoubled)))
    (hb : ¬ Spec.StartsWithBom (rows.map (·.map backslashesDoubled))) :
    ∃ cfg text, Cfg.ofDialect d = .ok cfg ∧ writeFile v cfg rows = .ok text ∧
      readFile cfg text = (rows.map (·.map backslashesDoubled), none) := by
  have hf := hd.toFmt
  have w := hd.wf hf (fun _ => he)
  rw [hq] at hf w
  simp only [Bool.false_eq_true, if_false] at hf w
  refine ⟨⟨qFmt dl q (some '\\') false d.skipInitialSpace lt, some d⟩, ?_⟩
  obtain ⟨t, ht⟩ := writeRows_isOk (v := v) (d := qFmt dl q (some '\\') false d.skipInitialSpace lt) (by simp) (.inr rfl) (rows.map (·.map (escapeDoubled
    (qFmt dl q (some '\\') false d.skipInitialSpace lt))))
  have hw : writeFile v ⟨qFmt dl q (some '\\') false d.skipInitialSpace lt, some d⟩ rows = .ok t := by
    rw [writeFile_eq]; exact ht
  refine ⟨t, by simp [Cfg.ofDialect, hf], hw, ?_⟩
  apply readFile_transparent _ hs.transparent
  refine read_written (dl := some d) (dbl := false) w (dblOk_false (.inr (.inr hv))) ?_
    (fun r hr s hs' => hc r hr s hs') hb (Ne.symm hd.delimOk.2.2) (by simpa using hd.quoteOk.2.2)
    (by simp; decide) hw
  rw [List.map_map]
  apply List.map_congr_left; intro r _
  simp only [Function.comp_def, List.map_map]
  apply List.map_congr_left; intro s _
  rw [escapeDoubled_backslash _ rfl rfl, flatMap_pre_false]

theorem backslashesDoubled_eq_self {s : Str} (h : '\\' ∉ s) : backslashesDoubled s = s := by
  unfold backslashesDoubled
  induction s with
  | nil => rfl
  | cons c cs ih =>
    simp only [List.mem_cons, not_or] at h
    simp only [List.flatMap_cons, if_neg (Ne.symm h.1), ih h.2, List.singleton_append]

/-- **C03** On every version of `csv`, rows whose cells contain no backslash are read back unchanged.
(With backslashes, on Python ≥ 3.10 the round trip fails:
`C03_violated_new_csv`, exact effect in `C03_escapechar_effect_new_csv`.) -/
theorem C03_escapechar_roundtrip_no_backslash (v : CsvVer)
    (d : Dialect) (dl q : Char) (lt : Str) (rows : List (List Str))
    (hd : QuoteDialect v d dl q lt) (hq : d.doubleQuote = false) (he : dl ≠ '\\' ∧ q ≠ '\\')
    (hs : NoSkipping d rows) (hc : Storable d rows) (hb : ¬ Spec.StartsWithBom rows)
    (hbs : ∀ r ∈ rows, ∀ s ∈ r, '\\' ∉ s) :
    ∃ cfg text, Cfg.ofDialect d = .ok cfg ∧ writeFile v cfg rows = .ok text ∧
      readFile cfg text = (rows, none) := by
  cases hv : v.escEsc with
  | false => exact C03_escapechar_roundtrip_old_csv v hv d dl q lt rows hd hq he hs hc hb
  | true =>
    have e : rows.map (·.map backslashesDoubled) = rows := by
      conv => rhs; rw [← List.map_id rows]
      apply List.map_congr_left; intro r hr
      conv => rhs; rw [id, ← List.map_id r]
      apply List.map_congr_left; intro s hs
      exact backslashesDoubled_eq_self (hbs r hr s hs)
    have := C03_escapechar_effect_new_csv v hv d dl q lt rows hd hq he (by rw [e]; exact hs) (by rw [e]; exact hc)
      (by rw [e]; exact hb)
    rw [e] at this
    exact this

/-- What `csv.reader` finds in the file which is written. -/
theorem dialect_written {v : CsvVer} {d : Dialect} {dl q : Char} {lt : Str} {rows : List (List Str)}
    (hd : QuoteDialect v d dl q lt) (hq : Spec.EscapesKept v d rows) (hc : Storable d rows) (hb : ¬ Spec.StartsWithBom rows) :
    ∃ cfg text, Cfg.ofDialect d = .ok cfg ∧ cfg.dialect = some d ∧ writeFile v cfg rows = .ok text ∧
      readRows cfg.fmt (splitLines (dropBom text)) = (rows, none) ∧ text.head? ≠ some Spec.bom := by
  have hf := hd.toFmt
  have w := hd.wf hf (fun hdq => by
    rcases hq with h | ⟨h1, h2, _⟩
    · rw [h] at hdq; cases hdq
    · exact ⟨fun e => h1 (by rw [hd.delimiter, e]), fun e => h2 (by rw [hd.quoteChar, e])⟩)
  generalize hfmt : qFmt dl q (if d.doubleQuote then none else some '\\') d.doubleQuote d.skipInitialSpace lt = f at hf w
  have e1 : f.quoting ≠ .none := by rw [← hfmt]; simp
  have e2 : f.doublequote = true ∨ f.escapechar.isSome = true := by
    rw [← hfmt]
    cases d.doubleQuote
    · exact .inr rfl
    · exact .inl rfl
  obtain ⟨t, ht⟩ := writeRows_isOk (v := v) (d := f) e1 e2 (rows.map (·.map (escapeDoubled f)))
  have hw : writeFile v ⟨f, some d⟩ rows = .ok t := by rw [writeFile_eq]; exact ht
  have b1 : Spec.bom ≠ f.delimiter := by rw [← hfmt]; exact Ne.symm hd.delimOk.2.2
  have b2 : f.quotechar ≠ some Spec.bom := by rw [← hfmt]; simpa using hd.quoteOk.2.2
  have b3 : f.escapechar ≠ some Spec.bom := by
    rw [← hfmt]
    dsimp only
    split
    · simp
    · decide
  have hok : ∀ r ∈ rows, ∀ s ∈ r, CellOk f s := by
    rw [← hfmt]; exact fun r hr s hs' => hc r hr s hs'
  -- what happens to the escape character
  obtain ⟨dbl, hdbl, ho⟩ : ∃ dbl, DblOk v f dbl ∧ rows.map (·.map (escapeDoubled f)) = rows.map (·.map (·.flatMap (pre f dbl))) := by
    rcases hq with h | ⟨_, _, h | h⟩
    · have he : f.escapechar = none := by rw [← hfmt]; simp [h]
      exact ⟨false, dblOk_false (.inl he), escapeDoubled_none (.inl he) rows⟩
    · cases hdq : d.doubleQuote with
      | true =>
        have he : f.escapechar = none := by rw [← hfmt]; simp [hdq]
        exact ⟨false, dblOk_false (.inl he), escapeDoubled_none (.inl he) rows⟩
      | false =>
        refine ⟨true, ⟨fun _ => ⟨h, e1⟩, by simp⟩, ?_⟩
        apply List.map_congr_left; intro r _
        apply List.map_congr_left; intro s _
        rw [escapeDoubled_eq]
        rw [← hfmt]
        simp
    · cases hv : v.escEsc with
      | true =>
        refine ⟨false, dblOk_false (.inr (.inr hv)), ?_⟩
        apply List.map_congr_left; intro r hr
        apply List.map_congr_left; intro s hs
        rw [flatMap_pre_false]
        cases hdq : d.doubleQuote with
        | true => unfold escapeDoubled; rw [← hfmt]; simp [hdq]
        | false =>
          rw [escapeDoubled_backslash _ (by rw [← hfmt]; simp [hdq]) (by rw [← hfmt])]
          exact backslashesDoubled_eq_self (h r hr s hs)
      | false =>
        cases hdq : d.doubleQuote with
        | true =>
          have he : f.escapechar = none := by rw [← hfmt]; simp [hdq]
          exact ⟨false, dblOk_false (.inl he), escapeDoubled_none (.inl he) rows⟩
        | false =>
          refine ⟨true, ⟨fun _ => ⟨hv, e1⟩, by simp⟩, ?_⟩
          apply List.map_congr_left; intro r _
          apply List.map_congr_left; intro s _
          rw [escapeDoubled_eq]
          rw [← hfmt]
          simp
  refine ⟨⟨f, some d⟩, t, by simp [Cfg.ofDialect, hf], rfl, hw, read_written (dl := some d) w hdbl ho hok hb b1 b2 b3 hw, ?_⟩
  intro hx
  rw [writeFile_eq] at hw
  dsimp only at hw
  rw [ho] at hw
  exact hb (writeRows_head w hdbl hw b1 b2 b3 isNl_bom hx)

/-- **C02, C03** together. -/
theorem dialect_roundtrip {v : CsvVer} {d : Dialect} {dl q : Char} {lt : Str} {rows : List (List Str)}
    (hd : QuoteDialect v d dl q lt) (hq : Spec.EscapesKept v d rows) (hs : NoSkipping d rows) (hc : Storable d rows) (hb : ¬ Spec.StartsWithBom rows) :
    ∃ cfg text, Cfg.ofDialect d = .ok cfg ∧ writeFile v cfg rows = .ok text ∧ readFile cfg text = (rows, none) := by
  obtain ⟨⟨f, dd⟩, text, h1, h2, h3, h4, _⟩ := dialect_written hd hq hc hb
  cases h2
  exact ⟨_, text, h1, h3, readFile_transparent h4 hs.transparent⟩

/-- **C03 is violated** on Python ≥ 3.10 for cells with backslashes. -/
theorem C03_violated_new_csv :
    ∃ cfg text, Cfg.ofDialect { doubleQuote := false } = .ok cfg ∧
      writeFile .py311 cfg [["a\\b".toList]] = .ok text ∧
      readFile cfg text = ([["a\\\\b".toList]], none) :=
  ⟨_, "a\\\\\\\\b\r\n".toList, rfl, by decide, by decide⟩

/-- Non-vacuity of C03: a cell with quotes, delimiter and backslash. -/
example : QuoteDialect .py38 { doubleQuote := false, commentPrefix := none } ',' '"' ['\r', '\n'] ∧
    NoSkipping { doubleQuote := false, commentPrefix := none } [["a\"\\,\n".toList]] ∧
    Storable { doubleQuote := false, commentPrefix := none } [["a\"\\,\n".toList]] := by
  refine ⟨⟨rfl, rfl, ⟨_, rfl⟩, by simp, by decide, by decide, by decide, by simp, .inr rfl⟩,
    ⟨rfl, rfl, rfl, ?_, by simp⟩, by unfold Storable; decide⟩
  rintro r _ ⟨p, s, rest, h, _⟩; simp at h

/-- Dialects with quoting disabled (`quoteChar=None`): delimiter `dl`, line terminator `lt`. -/
structure NoQuoteDialect (v : CsvVer) (d : Dialect) (dl : Char) (lt : Str) : Prop where
  delimiter : d.delimiter = [dl]
  quoteChar : d.quoteChar = .null
  terminator : ∃ more, d.lineTerminators = .str lt :: more
  isTerminator : lt = ['\r', '\n'] ∨ lt = ['\n'] ∨ lt = ['\r']
  delimOk : dl ≠ '\r' ∧ dl ≠ '\n' ∧ dl ≠ Spec.bom
  space : d.skipInitialSpace = true → dl ≠ ' '
  nl : v.quoteNl = true ∨ lt = ['\r', '\n']

/-- **C04** No silent corruption with quoting disabled: whatever is written without an error is read back
unchanged. -/
theorem C04_noquote_no_corruption (v : CsvVer) (d : Dialect) (dl : Char) (lt : Str) (rows : List (List Str))
    (hd : NoQuoteDialect v d dl lt) (hs : NoSkipping d rows) (hc : Storable d rows)
    (hb : ¬ Spec.StartsWithBom rows) :
    ∃ cfg, Cfg.ofDialect d = .ok cfg ∧
      ((∃ e, writeFile v cfg rows = .error e) ∨
       ∃ text, writeFile v cfg rows = .ok text ∧ readFile cfg text = (rows, none)) := by
  obtain ⟨more, hm⟩ := hd.terminator
  have hf : d.toFmt = .ok (nqFmt dl d.doubleQuote d.skipInitialSpace lt) := by
    unfold Dialect.toFmt
    rw [hm, hd.delimiter, hd.quoteChar]
  refine ⟨⟨nqFmt dl d.doubleQuote d.skipInitialSpace lt, some d⟩, by simp [Cfg.ofDialect, hf], ?_⟩
  cases hw : writeFile v ⟨nqFmt dl d.doubleQuote d.skipInitialSpace lt, some d⟩ rows with
  | error e => exact .inl ⟨e, rfl⟩
  | ok t =>
    refine .inr ⟨t, rfl, ?_⟩
    apply readFile_transparent _ hs.transparent
    refine read_written (dl := some d) (f := nqFmt dl d.doubleQuote d.skipInitialSpace lt) ?_ (dblOk_false (.inl rfl)) (escapeDoubled_none (.inl rfl) rows)
      (fun r hr s hs' => hc r hr s hs') hb (Ne.symm hd.delimOk.2.2) (by simp) (by simp) hw
    refine ⟨isNl_false ⟨hd.delimOk.1, hd.delimOk.2.1⟩, by simp, by simp, ?_, hd.isTerminator, hd.space⟩
    rcases hd.nl with hn | hn
    · exact .inl hn
    · exact .inr (by rw [hn]; simp)

/-- **C04**, when writing fails: exactly if a cell contains the delimiter or a line break, or a row is a single
empty cell. -/
theorem C04_noquote_error_iff (v : CsvVer) (d : Dialect) (dl : Char) (lt : Str) (rows : List (List Str)) (cfg : Cfg)
    (hd : NoQuoteDialect v d dl lt) (hsi : d.skipInitialSpace = false) (hcfg : Cfg.ofDialect d = .ok cfg) :
    (∃ e, writeFile v cfg rows = .error e) ↔
      ∃ r ∈ rows, r = [[]] ∨ ∃ s ∈ r, dl ∈ s ∨ '\r' ∈ s ∨ '\n' ∈ s := by
  obtain ⟨more, hm⟩ := hd.terminator
  have hf : d.toFmt = .ok (nqFmt dl d.doubleQuote false lt) := by
    unfold Dialect.toFmt
    rw [hm, hd.delimiter, hd.quoteChar, hsi]
  simp only [Cfg.ofDialect, hf, Except.ok.injEq] at hcfg
  subst hcfg
  rw [writeFile_eq, escapeDoubled_none (.inl rfl)]
  simp only [flatMap_pre_false]
  rw [show (fun x : Row => x.map fun x => x) = id from by funext x; simp, List.map_id]
  generalize hg : nqFmt dl d.doubleQuote false lt = f
  have hsp : ∀ c, special v f c = true ↔ (c = dl ∨ c = '\r' ∨ c = '\n') := by
    intro c
    subst hg
    simp only [special, Bool.or_eq_true, beq_iff_eq]
    constructor
    · rintro ((((h | h) | h) | h) | h)
      · exact .inl h
      · simp at h
      · simp at h
      · simp at h; rcases h.2 with h | h
        · exact .inr (.inr h)
        · exact .inr (.inl h)
      · rcases hd.isTerminator with e | e | e <;> rw [e] at h <;> simp at h
        · exact .inr h
        · exact .inr (.inr h)
        · exact .inr (.inl h)
    · rintro (h | h)
      · exact .inl (.inl (.inl (.inl h)))
      · rcases hd.nl with hn | hn
        · refine .inl (.inr ?_); simp [hn]; exact h.symm
        · refine .inr ?_; rw [hn]; simp; exact h
  have hchars : ∀ s : Str, (∃ e, emitChars v f s = .error e) ∨
      (emitChars v f s = .ok (s, false)) := by
    intro s
    induction s with
    | nil => exact .inr rfl
    | cons c cs ih =>
      by_cases hc : special v f c = true
      · left
        refine ⟨.csvError, ?_⟩
        subst hg
        simp [emitChars, emitChar, hc]
      · simp only [emitChars, emitChar, hc]
        rcases ih with ⟨e, h⟩ | h
        · exact .inl ⟨e, by simp [h]⟩
        · exact .inr (by simp [h])
  have hcharsiff : ∀ s : Str, (∃ e, emitChars v f s = .error e) ↔ (dl ∈ s ∨ '\r' ∈ s ∨ '\n' ∈ s) := by
    intro s
    induction s with
    | nil => simp [emitChars]
    | cons c cs ih =>
      by_cases hc : special v f c = true
      · have hc' := (hsp c).1 hc
        constructor
        · intro _
          rcases hc' with h | h | h <;> subst h <;> simp
        · intro _
          refine ⟨.csvError, ?_⟩
          subst hg
          simp [emitChars, emitChar, hc]
      · have hc' : ¬ (c = dl ∨ c = '\r' ∨ c = '\n') := fun h => hc ((hsp c).2 h)
        simp only [not_or] at hc'
        have e1 : (∃ e, emitChars v f (c :: cs) = .error e) ↔ (∃ e, emitChars v f cs = .error e) := by
          simp only [emitChars, emitChar, hc]
          rcases hchars cs with ⟨e, h⟩ | h <;> simp [h]
        rw [e1, ih]
        simp [Ne.symm hc'.1, Ne.symm hc'.2.1, Ne.symm hc'.2.2]
  have hfield : ∀ s : Str, writeField v f s = (match emitChars v f s with | .error e => .error e | .ok _ => .ok s) := by
    intro s
    unfold writeField
    rcases hchars s with ⟨e, h⟩ | h
    · simp [h]
    · simp only [h]
      subst hg
      simp
  have hfields : ∀ l : List Str, ((∃ e, writeFields v f l = .error e) ↔ ∃ s ∈ l, dl ∈ s ∨ '\r' ∈ s ∨ '\n' ∈ s) ∧
      ((∃ e, writeFields v f l = .error e) ∨ writeFields v f l = .ok l) := by
    intro l
    induction l with
    | nil => simp [writeFields]
    | cons s ss ih =>
      obtain ⟨i1, i2⟩ := ih
      simp only [writeFields, hfield]
      have hx := hcharsiff s
      rcases hchars s with ⟨e, h⟩ | h
      · have hs := hx.1 ⟨e, h⟩
        simp only [h]
        exact ⟨⟨fun _ => ⟨s, by simp, hs⟩, fun _ => ⟨e, rfl⟩⟩, .inl ⟨e, rfl⟩⟩
      · have hs : ¬ (dl ∈ s ∨ '\r' ∈ s ∨ '\n' ∈ s) := fun hh => by
          obtain ⟨e, he⟩ := hx.2 hh; rw [h] at he; simp at he
        simp only [h]
        rcases i2 with ⟨e, he⟩ | he
        · have := i1.1 ⟨e, he⟩
          simp only [he]
          refine ⟨⟨fun _ => ?_, fun _ => ⟨e, rfl⟩⟩, .inl ⟨e, rfl⟩⟩
          obtain ⟨s', h1, h2⟩ := this
          exact ⟨s', by simp [h1], h2⟩
        · simp only [he]
          refine ⟨⟨by simp, ?_⟩, .inr (by simp)⟩
          rintro ⟨s', h1, h2⟩
          rcases List.mem_cons.1 h1 with rfl | h1
          · exact absurd h2 hs
          · obtain ⟨e, he'⟩ := i1.2 ⟨s', h1, h2⟩
            rw [he] at he'; simp at he'
  have hrow : ∀ r : List Str, (∃ e, writeRow v f r = .error e) ↔ (r = [[]] ∨ ∃ s ∈ r, dl ∈ s ∨ '\r' ∈ s ∨ '\n' ∈ s) := by
    intro r
    obtain ⟨i1, i2⟩ := hfields r
    rcases i2 with ⟨e, he⟩ | he
    · have := i1.1 ⟨e, he⟩
      simp only [writeRow, he]
      exact ⟨fun _ => .inr this, fun _ => ⟨e, rfl⟩⟩
    · have hno : ¬ ∃ s ∈ r, dl ∈ s ∨ '\r' ∈ s ∨ '\n' ∈ s := fun hh => by
        obtain ⟨e, he'⟩ := i1.2 hh; rw [he] at he'; simp at he'
      simp only [writeRow, he]
      have hqn : f.quoting = .none := by subst hg; rfl
      by_cases hj : Py.join [f.delimiter] r = [] ∧ r ≠ []
      · have : r = [[]] := by
          rcases join_nil hj.1 with h | h
          · exact absurd h hj.2
          · exact h
        subst this
        simp [Py.join, hqn]
      · have hne : r ≠ [[]] := by
          rintro rfl; exact hj (by simp [Py.join])
        have hcond : ((Py.join [f.delimiter] r).isEmpty && !r.isEmpty) = false := by
          rw [Bool.eq_false_iff]
          intro hh
          simp at hh
          exact hj hh
        simp only [hcond]
        constructor
        · rintro ⟨e, h⟩; simp at h
        · rintro (h | h)
          · exact absurd h hne
          · exact absurd h hno
  induction rows with
  | nil => simp [writeRows]
  | cons r rs ih =>
    have ih' := ih
    have hr := hrow r
    cases h1 : writeRow v f r with
    | error e =>
      simp only [writeRows, h1]
      exact ⟨fun _ => ⟨r, by simp, hr.1 ⟨e, h1⟩⟩, fun _ => ⟨e, rfl⟩⟩
    | ok a =>
      have hnr : ¬ (r = [[]] ∨ ∃ s ∈ r, dl ∈ s ∨ '\r' ∈ s ∨ '\n' ∈ s) := fun hh => by
        obtain ⟨e, he⟩ := hr.2 hh; rw [h1] at he; simp at he
      have e1 : (∃ e, writeRows v f (r :: rs) = .error e) ↔ ∃ e, writeRows v f rs = .error e := by
        simp only [writeRows, h1]
        cases writeRows v f rs <;> simp
      refine e1.trans (Iff.trans ih' ?_)
      constructor
      · rintro ⟨r', h, h'⟩; exact ⟨r', by simp [h], h'⟩
      · rintro ⟨r', h, h'⟩
        rcases List.mem_cons.1 h with rfl | h
        · exact absurd h' hnr
        · exact ⟨r', h, h'⟩

/-- Non-vacuity of C04. -/
example : NoQuoteDialect .py311 { quoteChar := .null, delimiter := ['|'], commentPrefix := none } '|' ['\r', '\n'] ∧
    (∃ cfg, Cfg.ofDialect { quoteChar := .null, delimiter := ['|'], commentPrefix := none } = .ok cfg ∧
      writeFile .py311 cfg [["a\"b".toList, []], [["c".toList]].flatten] = .ok "a\"b|\r\nc\r\n".toList) :=
  ⟨⟨rfl, rfl, ⟨_, rfl⟩, by simp, by decide, by simp, .inl rfl⟩, _, rfl, by decide⟩

end Csvw.Props
