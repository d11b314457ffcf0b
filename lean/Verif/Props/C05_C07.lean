import Verif.Lemmas.DsvRoundtrip
/-!
# C05–C07: skipping, comments, line numbers

`collect dl s` iterates a `UnicodeReaderWithLineNumber` in state `s` to the end; its components are the
(line number, row) pairs, the exception which ended the iteration, and the final state with `comments`.
A freshly opened reader has the raw rows of `csv.reader` pending, line number -1 and no comments.
-/

namespace Csvw.Props
open Dsv CsvLib

/-- A freshly opened reader for which `csv.reader` yields `raw` and then stops or raises `err`. -/
def fresh (raw : List (List Str)) (err : Option PyErr) : RState := { pending := raw, err := err }

theorem finished_finishRow (d : Dialect) (r : List Str) : Spec.Finished d r (finishRow d r) := by
  refine ⟨r.map d.trim.apply, ?_, rfl⟩
  induction r with
  | nil => exact .nil
  | cons s ss ih => exact .cons (trimmed_apply _ _) ih

/-- The specification of reading: rows `out` are the non-skipped ones among the numbered rows, finished, with their
1-based line numbers, in order. -/
inductive YieldSpec (d : Dialect) : List (Int × List Str) → List (Int × List Str) → Prop where
  | nil : YieldSpec d [] []
  | skip {n : Int} {r : List Str} {l out : List (Int × List Str)} :
      Spec.Skipped d n r → YieldSpec d l out → YieldSpec d ((n, r) :: l) out
  | row {n : Int} {r o : List Str} {l out : List (Int × List Str)} :
      ¬ Spec.Skipped d n r → Spec.Finished d r o → YieldSpec d l out →
      YieldSpec d ((n, r) :: l) ((n + 1, o) :: out)

theorem yieldSpec_yielded (d : Dialect) (raw : List (List Str)) :
    ∀ n, YieldSpec d (Spec.numberFrom n raw) (yielded d (Spec.numberFrom n raw)) := by
  induction raw with
  | nil => exact fun _ => .nil
  | cons r rs ih =>
    intro n
    simp only [Spec.numberFrom, yielded, List.filter_cons]
    have ih' := ih (n + 1 + Spec.lineFeeds r)
    simp only [yielded] at ih'
    by_cases hs : Spec.Skipped d (n + 1 + Spec.lineFeeds r) r
    · have : isSkipped d (n + 1 + Spec.lineFeeds r) r = true := (isSkipped_iff _ _ _).2 hs
      simp only [this, Bool.not_true, Bool.false_eq_true, if_false]
      exact .skip hs ih'
    · have : isSkipped d (n + 1 + Spec.lineFeeds r) r = false := by
        rw [Bool.eq_false_iff]; exact fun h => hs ((isSkipped_iff _ _ _).1 h)
      simp only [this, Bool.not_false, if_true, List.map_cons]
      exact .row hs (finished_finishRow d r) ih'

/-- **C05** The reader yields exactly the non-skipped rows, in order, trimmed and without the skipped columns, and ends
as `csv.reader` does. -/
theorem C05_reader_yields_nonskipped (d : Dialect) (raw : List (List Str)) (err : Option PyErr) :
    YieldSpec d (Spec.numbered raw) (collect (some d) (fresh raw err)).1 ∧
    (collect (some d) (fresh raw err)).2.1 = err := by
  obtain ⟨h1, h2, _⟩ := collectFuel_some d (raw.length + 1) raw err (-1) [] (by simp)
  refine ⟨?_, h2⟩
  unfold collect fresh
  simp only
  rw [h1]
  exact yieldSpec_yielded d raw (-1)

/-- **C05**, without a dialect: all rows are yielded as they are. -/
theorem C05_reader_without_dialect (raw : List (List Str)) (err : Option PyErr) :
    (collect none (fresh raw err)).1.map Prod.snd = raw ∧ (collect none (fresh raw err)).2.1 = err := by
  obtain ⟨h1, h2⟩ := collectFuel_none (raw.length + 1) raw err (-1) [] (by simp)
  refine ⟨?_, h2⟩
  unfold collect fresh
  simp only
  rw [h1, List.map_map]
  exact numberFrom_snd _ _

/-- Trimming is determined by its specification: `Spec.Trimmed` admits one result only. -/
theorem C05_trimming_unique (t : Trim) (s u u' : Str) (h : Spec.Trimmed t s u) (h' : Spec.Trimmed t s u') : u = u' := by
  have right : ∀ {s t t' : Str}, Spec.IsTrimmedRight Py.isSpace s t → Spec.IsTrimmedRight Py.isSpace s t' → t = t' := by
    intro s t t' h h'
    obtain ⟨b, e, h1, h2⟩ := h
    obtain ⟨b', e', h1', h2'⟩ := h'
    have := isTrimmedLeft_unique (p := Py.isSpace) (s := s.reverse) (t := t.reverse) (t' := t'.reverse)
      ⟨b.reverse, by rw [e]; simp, fun c hc => h1 c (by simpa using hc), fun c cs hc => h2 c cs.reverse
        (by have := congrArg List.reverse hc; simpa using this)⟩
      ⟨b'.reverse, by rw [e']; simp, fun c hc => h1' c (by simpa using hc), fun c cs hc => h2' c cs.reverse
        (by have := congrArg List.reverse hc; simpa using this)⟩
    simpa using congrArg List.reverse this
  cases t with
  | false_ => rw [h, h']
  | start => exact isTrimmedLeft_unique h h'
  | end_ => exact right h h'
  | true_ =>
    obtain ⟨v, h1, h2⟩ := h
    obtain ⟨v', h1', h2'⟩ := h'
    have := isTrimmedLeft_unique h1 h1'
    subst this
    exact right h2 h2'

/-- Non-vacuity: two skipped lines, a comment, a blank row, trimming, a skipped column, a multi-line cell. -/
example : (collect (some { skipRows := 1, skipBlankRows := true, trim := .true_, skipColumns := 1 })
    (fresh [["title".toList], ["# c".toList], [[], []], ["x".toList, " a\nb ".toList], ["y".toList, "z".toList]] none)).1
    = [(5, ["a\nb".toList]), (6, ["z".toList])] := by decide

/-- **C06** After reading to the end, `comments` holds exactly one entry for each comment row and each non-blank row among
the first `skipRows` lines, in order. -/
theorem C06_comments_exact (d : Dialect) (raw : List (List Str)) (err : Option PyErr) :
    (collect (some d) (fresh raw err)).2.2.comments =
      ((Spec.numbered raw).filter (fun p => decide (Spec.IsRecorded d p.1 p.2))).map
        (fun p => (p.1, commentText d p.2)) := by
  obtain ⟨_, _, h3⟩ := collectFuel_some d (raw.length + 1) raw err (-1) [] (by simp)
  unfold collect fresh
  simp only
  rw [h3]
  simp only [List.nil_append, recorded, Spec.numbered]
  congr 1
  apply List.filter_congr
  intro p _
  exact isRecorded_eq d p.1 p.2

/-- **C06** The text of a comment: the row's cells joined by the delimiter, stripped. -/
theorem C06_comment_text (d : Dialect) (row : List Str) :
    ∃ u, Spec.IsTrimmedLeft (fun c => match d.commentPrefix with | some p => p.contains c | none => Py.isSpace c)
        (Py.join d.delimiter row) u ∧
      ∃ w, Spec.IsTrimmedLeft Py.isSpace u w ∧ Spec.IsTrimmedRight Py.isSpace w (commentText d row) := by
  unfold commentText
  cases d.commentPrefix with
  | none => exact ⟨_, Py.lstripP_spec _ _, _, Py.lstripP_spec _ _, Py.rstripP_spec _ _⟩
  | some p => exact ⟨_, Py.lstripP_spec _ _, _, Py.lstripP_spec _ _, Py.rstripP_spec _ _⟩

/-- **C06** No row is both yielded and recorded. -/
theorem C06_not_both (d : Dialect) (n : Int) (r : List Str) : ¬ (Spec.IsRecorded d n r ∧ ¬ Spec.Skipped d n r) :=
  fun ⟨h1, h2⟩ => h2 (recorded_skipped h1)

example : (collect (some { skipRows := 1, skipBlankRows := true }) (fresh [["title".toList, "x".toList],
    ["#  c".toList], [[]], ["a".toList]] none)).2.2.comments = [(0, "title,x".toList), (1, "c".toList)] := by decide

/-! ## Line numbers -/

theorem numberFrom_gt (n : Int) (l : List (List Str)) : ∀ p ∈ Spec.numberFrom n l, n < p.1 := by
  induction l generalizing n with
  | nil => simp [Spec.numberFrom]
  | cons r rs ih =>
    intro p hp
    simp only [Spec.numberFrom, List.mem_cons] at hp
    rcases hp with rfl | hp
    · simp only; omega
    · have := ih _ p hp; omega

theorem numberFrom_sorted (n : Int) (l : List (List Str)) :
    (Spec.numberFrom n l).Pairwise (fun a b => a.1 < b.1) := by
  induction l generalizing n with
  | nil => exact .nil
  | cons r rs ih =>
    refine List.Pairwise.cons ?_ (ih _)
    intro p hp
    exact numberFrom_gt _ _ p hp

/-- **C07** The line numbers reported are strictly increasing (with or without dialect). -/
theorem C07_line_numbers_increasing (dl : Option Dialect) (raw : List (List Str)) (err : Option PyErr) :
    ((collect dl (fresh raw err)).1.map Prod.fst).Pairwise (· < ·) := by
  rw [List.pairwise_map]
  cases dl with
  | none =>
    have h := (collectFuel_none (raw.length + 1) raw err (-1) [] (by simp)).1
    unfold collect fresh
    simp only
    rw [h, List.pairwise_map]
    refine (numberFrom_sorted _ _).imp ?_
    intro a b h; simp only; omega
  | some d =>
    have h := (collectFuel_some d (raw.length + 1) raw err (-1) [] (by simp)).1
    unfold collect fresh
    simp only
    rw [h]
    unfold yielded
    rw [List.pairwise_map]
    refine ((numberFrom_sorted _ _).sublist List.filter_sublist).imp ?_
    intro a b h; simp only; omega

theorem yieldSpec_number {d : Dialect} {k : Int} {raw : List (List Str)} {out : List (Int × List Str)}
    (h : YieldSpec d (Spec.numberFrom k raw) out) {n : Int} {o : List Str} (hm : (n, o) ∈ out) :
    ∃ before r after, raw = before ++ r :: after ∧ Spec.Finished d r o ∧ ¬ Spec.Skipped d (n - 1) r ∧
      n = k + before.length + 2 + Spec.lineFeeds (before ++ [r]).flatten := by
  induction raw generalizing k out with
  | nil => cases h; cases hm
  | cons r rs ih =>
    have step : ∀ out', YieldSpec d (Spec.numberFrom (k + 1 + Spec.lineFeeds r) rs) out' → (n, o) ∈ out' →
        ∃ before r' after, r :: rs = before ++ r' :: after ∧ Spec.Finished d r' o ∧ ¬ Spec.Skipped d (n - 1) r' ∧
          n = k + before.length + 2 + Spec.lineFeeds (before ++ [r']).flatten := by
      intro out' h' hm'
      obtain ⟨b, r', a, e1, e2, e3, e4⟩ := ih h' hm'
      refine ⟨r :: b, r', a, by rw [e1]; rfl, e2, e3, ?_⟩
      rw [e4]
      simp only [List.length_cons, Spec.lineFeeds, List.cons_append, List.flatten_cons, List.flatten_append,
        List.count_append]
      omega
    cases h with
    | skip _ h => exact step _ h hm
    | row hs hf h =>
      rcases List.mem_cons.1 hm with hm | hm
      · cases hm
        refine ⟨[], r, rs, rfl, hf, by simpa using hs, ?_⟩
        simp [Spec.lineFeeds]
        omega
      · exact step _ h hm

/-- **C07** The exact number reported with a row, for every dialect and every sequence of rows of the file: 1, plus the number
of rows before it (whether skipped, comments or data), plus the number of line feeds in the cells of these rows *and of the
row itself*. -/
theorem C07_number_exact (d : Dialect) (raw : List (List Str)) (err : Option PyErr) (n : Int) (o : List Str)
    (h : (n, o) ∈ (collect (some d) (fresh raw err)).1) :
    ∃ before r after, raw = before ++ r :: after ∧ Spec.Finished d r o ∧ ¬ Spec.Skipped d (n - 1) r ∧
      n = before.length + 1 + Spec.lineFeeds (before ++ [r]).flatten := by
  obtain ⟨b, r, a, h1, h2, h3, h4⟩ := yieldSpec_number (k := -1) (C05_reader_yields_nonskipped d raw err).1 h
  exact ⟨b, r, a, h1, h2, h3, by omega⟩

/-- The same without a dialect. -/
theorem C07_number_exact_without_dialect (raw : List (List Str)) (err : Option PyErr) (n : Int) (o : List Str)
    (h : (n, o) ∈ (collect none (fresh raw err)).1) :
    ∃ before after, raw = before ++ o :: after ∧
      n = before.length + 1 + Spec.lineFeeds (before ++ [o]).flatten := by
  have h1 := (collectFuel_none (raw.length + 1) raw err (-1) [] (by simp)).1
  unfold collect fresh at h
  simp only at h
  rw [h1] at h
  clear h1
  suffices H : ∀ (k : Int), (n, o) ∈ (Spec.numberFrom k raw).map (fun p => (p.1 + 1, p.2)) →
      ∃ before after, raw = before ++ o :: after ∧
      n = k + before.length + 2 + Spec.lineFeeds (before ++ [o]).flatten by
    obtain ⟨b, a, e1, e2⟩ := H (-1) h
    exact ⟨b, a, e1, by omega⟩
  clear h
  intro k
  induction raw generalizing k with
  | nil => simp [Spec.numberFrom]
  | cons r rs ih =>
    intro h
    simp only [Spec.numberFrom, List.map_cons, List.mem_cons, Prod.mk.injEq] at h
    rcases h with ⟨h, rfl⟩ | h
    · refine ⟨[], rs, rfl, ?_⟩
      simp [Spec.lineFeeds]
      simp [Spec.lineFeeds] at h
      omega
    · obtain ⟨b, a, e1, e2⟩ := ih _ h
      refine ⟨r :: b, a, by rw [e1]; rfl, ?_⟩
      rw [e2]
      simp only [List.length_cons, Spec.lineFeeds, List.cons_append, List.flatten_cons, List.flatten_append,
        List.count_append]
      omega

theorem count_chunk {v : CsvVer} {d : Fmt} (w : WF v d) {c : Char} {a : Str} {fl : Bool} (h : Chunk v d c a fl) :
    a.count '\n' = [c].count '\n' := by
  have hne : ∀ x : Char, isNl x = false → (x == '\n') = false := by
    intro x hx; simp [isNl] at hx; simpa using hx.1
  cases h with
  | plain _ => rfl
  | quoted _ _ _ => rfl
  | escaped e he _ => simp [List.count_cons, hne e (w.esc e he).2.1]
  | escq e he hce _ => subst hce; simp [List.count_cons, hne c (w.esc c he).2.1]
  | doubled hq hqc _ =>
    obtain ⟨q, h1, _, h3⟩ := w.quote hq
    rw [h1] at hqc; cases hqc
    simp [List.count_cons, hne c h3]

theorem count_chunks {v : CsvVer} {d : Fmt} (w : WF v d) {s a : Str} {fl : Bool} (h : Chunks v d s a fl) :
    a.count '\n' = s.count '\n' := by
  induction h with
  | nil => rfl
  | @cons c cs a b f g hc _ ih =>
    rw [List.count_append, ih, count_chunk w hc, ← List.count_append]; rfl

theorem count_fieldText {v : CsvVer} {d : Fmt} (w : WF v d) {s t : Str} (h : FieldText v d s t) :
    t.count '\n' = s.count '\n' := by
  cases h with
  | @quoted q a fl hqn hq hc =>
    obtain ⟨q', h1, _, h3⟩ := w.quote hqn
    rw [hq] at h1; cases h1
    have : q ≠ '\n' := by simp [isNl] at h3; exact h3.1
    simp [List.count_append, List.count_cons, this, count_chunks w hc]
  | plain hc _ => exact count_chunks w hc

theorem count_join {v : CsvVer} {d : Fmt} (w : WF v d) {ss ts : List Str} (h : FieldTexts v d ss ts) :
    (Py.join [d.delimiter] ts).count '\n' = Spec.lineFeeds ss := by
  have hd : d.delimiter ≠ '\n' := by have := w.delim_nl; simp [isNl] at this; exact this.1
  induction h with
  | nil => rfl
  | @cons s t ss ts hf hfs ih =>
    cases hfs with
    | nil => simp [Py.join, Spec.lineFeeds, count_fieldText w hf]
    | cons _ _ =>
      simp only [Py.join, List.count_append, count_fieldText w hf]
      simp only [Spec.lineFeeds, List.flatten_cons, List.count_append] at ih ⊢
      rw [ih]
      simp [List.count_cons, hd]

/-- The text of a row written without doubling is `body ++ lineterminator` with as many line feeds in `body` as in
the cells. -/
theorem count_writeRow {v : CsvVer} {d : Fmt} (w : WF v d) (hd : DblOk v d false) {row : List Str} {t : Str}
    (h : writeRow v d row = .ok t) :
    ∃ body, t = body ++ d.lineterminator ∧ body.count '\n' = Spec.lineFeeds row := by
  have e : row = row.map (·.flatMap (pre d false)) := by simp [flatMap_pre_false]
  rw [e] at h
  unfold writeRow at h
  cases hw : writeFields v d (row.map (·.flatMap (pre d false))) with
  | error e => rw [hw] at h; simp at h
  | ok ts =>
    rw [hw] at h
    have hts := fieldTexts_of_write w hd hw
    simp only at h
    split at h
    · next hcond =>
      simp only [List.isEmpty_iff, Bool.and_eq_true, Bool.not_eq_true', List.isEmpty_eq_false_iff,
        ne_eq, List.map_eq_nil_iff] at hcond
      obtain ⟨hj, hrow⟩ := hcond
      have hl : Spec.lineFeeds row = 0 := by rw [← count_join w hts, hj]; rfl
      cases hq : d.quoting with
      | none => simp [hq] at h
      | minimal =>
        obtain ⟨q, h1, _, h3⟩ := w.quote (by simp [hq])
        have : q ≠ '\n' := by simp [isNl] at h3; exact h3.1
        simp [hq, h1] at h
        subst h
        exact ⟨[q, q], rfl, by simp [List.count_cons, this, hl]⟩
      | all =>
        obtain ⟨q, h1, _, h3⟩ := w.quote (by simp [hq])
        have : q ≠ '\n' := by simp [isNl] at h3; exact h3.1
        simp [hq, h1] at h
        subst h
        exact ⟨[q, q], rfl, by simp [List.count_cons, this, hl]⟩
    · simp only [Except.ok.injEq] at h
      subst h
      exact ⟨_, rfl, count_join w hts⟩

/-- `w` splits the file into `before`, the text `body` of the row `r` without its line end, and the rest. Line numbers of
a position are the 1-based count of line feeds before it. -/
def lineAfter (text : Str) : Int := 1 + (text.count '\n' : Int)

/-- The text of a file and its decomposition into rows. -/
inductive Layout (lt : Str) : List (List Str × Str) → Str → Prop where
  | nil : Layout lt [] []
  | cons {r : List Str} {body text : Str} {l : List (List Str × Str)} :
      Layout lt l text → Layout lt ((r, body) :: l) (body ++ lt ++ text)

/-- Positions: text before each row and the row's own text. -/
def positions (lt : Str) : Str → List (List Str × Str) → List (Str × Str)
  | _, [] => []
  | before, (_, body) :: l => (before, body) :: positions lt (before ++ body ++ lt) l

theorem layout_exists {v : CsvVer} {d : Fmt} (w : WF v d) (hd : DblOk v d false) {rows : List (List Str)} {t : Str}
    (h : writeRows v d rows = .ok t) :
    ∃ l, Layout d.lineterminator l t ∧ l.map Prod.fst = rows ∧
      ∀ p ∈ l, p.2.count '\n' = Spec.lineFeeds p.1 := by
  induction rows generalizing t with
  | nil => simp [writeRows] at h; subst h; exact ⟨[], .nil, rfl, by simp⟩
  | cons r rs ih =>
    simp only [writeRows] at h
    cases h1 : writeRow v d r with
    | error e => rw [h1] at h; simp at h
    | ok a =>
      rw [h1] at h
      simp only at h
      cases h2 : writeRows v d rs with
      | error e => rw [h2] at h; simp at h
      | ok b =>
        rw [h2] at h
        simp only [Except.ok.injEq] at h
        subst h
        obtain ⟨l, i1, i2, i3⟩ := ih h2
        obtain ⟨body, e1, e2⟩ := count_writeRow w hd h1
        subst e1
        refine ⟨(r, body) :: l, .cons i1, by simp [i2], ?_⟩
        intro p hp
        rcases List.mem_cons.1 hp with rfl | hp
        · exact e2
        · exact i3 p hp

/-- **C07** What the numbers are, for every file written by `UnicodeWriter` with default settings and read with
default settings: the number reported for a row is the number of the text line on which the row **ends**. -/
theorem C07_line_number_is_end_of_row (v : CsvVer) (rows : List (List Str))
    (hlen : ∀ r ∈ rows, ∀ s ∈ r, s.length ≤ 131072) (hb : ¬ Spec.StartsWithBom rows) :
    ∃ text layout, writeFile v Cfg.default rows = .ok text ∧
      Layout ['\r', '\n'] layout text ∧ layout.map Prod.fst = rows ∧
      (collect none (openText Cfg.default text)).1 =
        ((positions ['\r', '\n'] [] layout).map (fun p => lineAfter (p.1 ++ p.2))).zip rows := by
  obtain ⟨t, hw, hr⟩ := default_roundtrip v rows hlen hb
  have hw' := hw
  rw [writeFile_eq, escapeDoubled_none (.inl rfl)] at hw'
  simp only [flatMap_pre_false, List.map_id'] at hw'
  obtain ⟨l, h1, h2, h3⟩ := layout_exists (wf_excel v) (dblOk_false (.inl rfl)) hw'
  refine ⟨t, l, hw, h1, h2, ?_⟩
  have hopen : openText Cfg.default t = fresh rows none := by
    have : readRows Fmt.excel (splitLines (dropBom t)) = (rows, none) := by
      rw [← readFile_none]; exact hr
    simp [openText, Cfg.default, this, fresh]
  rw [hopen]
  have h := (collectFuel_none (rows.length + 1) rows none (-1) [] (by simp)).1
  unfold collect fresh
  simp only
  rw [h]
  clear h hopen hr hw hw' hb hlen
  have gen : ∀ (l : List (List Str × Str)) (before : Str) (n : Int), n + 1 = before.count '\n' →
      (∀ p ∈ l, p.2.count '\n' = Spec.lineFeeds p.1) →
      (Spec.numberFrom n (l.map Prod.fst)).map (fun p => (p.1 + 1, p.2)) =
        ((positions ['\r', '\n'] before l).map (fun p => lineAfter (p.1 ++ p.2))).zip (l.map Prod.fst) := by
    intro l
    induction l with
    | nil => intro before n _ _; rfl
    | cons p l ih =>
      obtain ⟨r, body⟩ := p
      intro before n hn hp
      have hbody := hp (r, body) (by simp)
      simp only at hbody
      simp only [List.map_cons, Spec.numberFrom, positions, List.zip_cons_cons, List.cons.injEq, Prod.mk.injEq,
        and_true]
      refine ⟨?_, ?_⟩
      · simp only [lineAfter, List.count_append, hbody]; omega
      · apply ih
        · simp [List.count_append, hbody, List.count_cons]; omega
        · exact fun p hp' => hp p (by simp [hp'])
  have := gen l [] (-1) (by simp) h3
  rw [h2] at this
  exact this

/-- **C07** (partial): for rows whose cells contain no line feed, the number reported is that of the line where the row
starts. Missing: rows with multi-line cells, for which the property is false (`C07_violated_multiline`). -/
theorem C07_line_number_is_start (v : CsvVer) (rows : List (List Str))
    (hlen : ∀ r ∈ rows, ∀ s ∈ r, s.length ≤ 131072) (hb : ¬ Spec.StartsWithBom rows)
    (hnl : ∀ r ∈ rows, ∀ s ∈ r, '\n' ∉ s) :
    ∃ text layout, writeFile v Cfg.default rows = .ok text ∧
      Layout ['\r', '\n'] layout text ∧ layout.map Prod.fst = rows ∧
      (collect none (openText Cfg.default text)).1 =
        ((positions ['\r', '\n'] [] layout).map (fun p => lineAfter p.1)).zip rows := by
  obtain ⟨t, hw, hr⟩ := default_roundtrip v rows hlen hb
  have hw' := hw
  rw [writeFile_eq, escapeDoubled_none (.inl rfl)] at hw'
  simp only [flatMap_pre_false, List.map_id'] at hw'
  obtain ⟨l, h1, h2, h3⟩ := layout_exists (wf_excel v) (dblOk_false (.inl rfl)) hw'
  refine ⟨t, l, hw, h1, h2, ?_⟩
  have hopen : openText Cfg.default t = fresh rows none := by
    have : readRows Fmt.excel (splitLines (dropBom t)) = (rows, none) := by
      rw [← readFile_none]; exact hr
    simp [openText, Cfg.default, this, fresh]
  rw [hopen]
  have h := (collectFuel_none (rows.length + 1) rows none (-1) [] (by simp)).1
  unfold collect fresh
  simp only
  rw [h]
  have hzero : ∀ p ∈ l, Spec.lineFeeds p.1 = 0 := by
    intro p hp
    have : p.1 ∈ rows := by rw [← h2]; exact List.mem_map_of_mem hp
    simp only [Spec.lineFeeds, List.count_eq_zero, List.mem_flatten, not_exists, not_and]
    exact fun s hs => hnl p.1 this s hs
  clear h hopen hr hw hw' hb hlen
  have gen : ∀ (l : List (List Str × Str)) (before : Str) (n : Int), n + 1 = before.count '\n' →
      (∀ p ∈ l, p.2.count '\n' = Spec.lineFeeds p.1) → (∀ p ∈ l, Spec.lineFeeds p.1 = 0) →
      (Spec.numberFrom n (l.map Prod.fst)).map (fun p => (p.1 + 1, p.2)) =
        ((positions ['\r', '\n'] before l).map (fun p => lineAfter p.1)).zip (l.map Prod.fst) := by
    intro l
    induction l with
    | nil => intro before n _ _ _; rfl
    | cons p l ih =>
      obtain ⟨r, body⟩ := p
      intro before n hn hp hz
      have hbody := hp (r, body) (by simp)
      have hz' := hz (r, body) (by simp)
      simp only at hbody hz'
      simp only [List.map_cons, Spec.numberFrom, positions, List.zip_cons_cons, List.cons.injEq, Prod.mk.injEq,
        and_true]
      refine ⟨?_, ?_⟩
      · simp only [lineAfter, hz']; omega
      · apply ih
        · simp [List.count_append, hbody, List.count_cons]; omega
        · exact fun p hp' => hp p (by simp [hp'])
        · exact fun p hp' => hz p (by simp [hp'])
  have := gen l [] (-1) (by simp) h3 hzero
  rw [h2] at this
  exact this

/-- **C07 is violated** for multi-line cells: the first row of the file starts on line 1 but is reported with line 2
(the docstring dsv.py 248-251 promises the line where the row starts). -/
theorem C07_violated_multiline :
    (collect none (openText Cfg.default "\"a\nb\",c\r\nd,e\r\n".toList)).1 =
      [(2, ["a\nb".toList, "c".toList]), (3, ["d".toList, "e".toList])] := by decide

/-- **C07 is violated** for files with CR line ends and multi-line cells, too: `\r` inside cells is not counted, so the
numbers after such a cell refer to no line at all. -/
theorem C07_violated_carriage_return :
    (collect none (openText Cfg.default "\"a\rb\"\rc\r".toList)).1 =
      [(1, ["a\rb".toList]), (2, ["c".toList])] := by decide

end Csvw.Props
