import Verif.Props.C01_C04
import Verif.Props.C05_C07
import Verif.Lemmas.Rewrite
/-!
# C10–C13: rewriting files in place

`rewrite`, `addRows`, `filterRowsAsDict` return the trace of file system operations and the outcome; `execAll fs ops`
is the state of the files after the operations; a crash after `k` operations leaves `execAll fs (ops.take k)`.
-/

namespace Csvw.Props
open Dsv CsvLib

/-- After every prefix of the trace (crash point), `target` holds its old content or the complete new content, which
is the one of the finished operation; if the operation fails, `target` always holds its old content. -/
def NeverTorn {ρ α : Type} [DecidableEq ρ] (fs : Fs ρ) (target : ρ) (r : List (FsOp ρ) × Res α) : Prop :=
  (∀ k, execAll fs (r.1.take k) target = fs target ∨
    execAll fs (r.1.take k) target = execAll fs r.1 target) ∧
  ((∃ e, r.2 = .error e) → ∀ k, execAll fs (r.1.take k) target = fs target)

theorem neverTorn_ok {ρ α : Type} [DecidableEq ρ] (buf : Buffering) {tmp p : ρ} (h : tmp ≠ p) (fs : Fs ρ) (text : Str)
    (a : α) : NeverTorn fs p (tmpOps buf tmp text ++ moveOps true tmp p (buf.pieces text), .ok a) := by
  refine ⟨fun k => ?_, by simp⟩
  simp only [execAll_complete buf true h fs text]
  exact crash_points buf h fs text k

theorem neverTorn_error {ρ α : Type} [DecidableEq ρ] (buf : Buffering) {tmp p : ρ} (h : tmp ≠ p) (fs : Fs ρ)
    (text : Str) (e : PyErr) : NeverTorn fs p (tmpOps buf tmp text, (.error e : Res α)) :=
  ⟨fun k => .inl (crash_points_error buf h fs text k), fun _ k => crash_points_error buf h fs text k⟩

/-- **C10** `rewrite`, temporary file and target on the same file system (for different ones see `C10_nothing_lost` and
`C10_violated_cross_device`). -/
theorem C10_rewrite_atomic {σ ρ : Type} [DecidableEq ρ] (v : CsvVer) (cfg : Cfg) (buf : Buffering)
    (fs : Fs ρ) (fname tmp : ρ) (htmp : tmp ≠ fname) (vis : Visitor σ) (st : σ) (content : Str) :
    NeverTorn fs fname (rewrite v cfg buf true fname tmp vis st content) := by
  unfold rewrite
  simp only
  split
  · exact neverTorn_ok buf htmp fs _ _
  · exact neverTorn_error buf htmp fs _ _

/-- **C10** `add_rows`, same file system. -/
theorem C10_add_rows_atomic {ρ : Type} [DecidableEq ρ] (v : CsvVer) (buf : Buffering) (fs : Fs ρ)
    (fname tmp : ρ) (htmp : tmp ≠ fname) (rows : List (List Cell)) (old : Option Str) :
    NeverTorn fs fname (addRows v buf true fname tmp rows old) := by
  unfold addRows
  simp only
  split
  · split
    · exact neverTorn_ok buf htmp fs _ _
    · exact neverTorn_error buf htmp fs _ _
  · exact neverTorn_error buf htmp fs _ _
  · exact neverTorn_error buf htmp fs _ _

/-- **C10** `filter_rows_as_dict`, same file system. -/
theorem C10_filter_atomic {ρ : Type} [DecidableEq ρ] (v : CsvVer) (cfg : Cfg) (buf : Buffering)
    (fs : Fs ρ) (fname tmp : ρ) (htmp : tmp ≠ fname) (f : List (Str × Str) → Bool) (content : Str) :
    NeverTorn fs fname (filterRowsAsDict v cfg buf true fname tmp f content) := by
  have h := C10_rewrite_atomic v cfg buf fs fname tmp htmp (dictFilter f) {} content
  unfold filterRowsAsDict
  simp only
  refine ⟨h.1, ?_⟩
  rintro ⟨e, he⟩
  apply h.2
  revert he
  simp only
  split
  · simp
  · next e' he' => intro _; exact ⟨e', he'⟩

/-- **C10** An exception (of the visitor, the reader or the writer) leaves the target alone, wherever the temporary
file is. -/
theorem C10_exception_leaves_target {σ ρ : Type} [DecidableEq ρ] (v : CsvVer) (cfg : Cfg) (buf : Buffering)
    (sameDevice : Bool) (fs : Fs ρ) (fname tmp : ρ) (htmp : tmp ≠ fname) (vis : Visitor σ) (st : σ) (content : Str)
    (e : PyErr) (he : (rewrite v cfg buf sameDevice fname tmp vis st content).2 = .error e) (k : Nat) :
    execAll fs ((rewrite v cfg buf sameDevice fname tmp vis st content).1.take k) fname = fs fname := by
  revert he
  unfold rewrite
  simp only
  split
  · simp
  · intro _; exact crash_points_error buf htmp fs _ k

/-- After every prefix of the trace, `target` holds its old content or the complete new content, or else `tmp` holds the complete
new content and `target` the beginning of it. -/
def NothingLost {ρ α : Type} [DecidableEq ρ] (fs : Fs ρ) (target tmp : ρ) (r : List (FsOp ρ) × Res α) : Prop :=
  ∀ k, execAll fs (r.1.take k) target = fs target ∨ execAll fs (r.1.take k) target = execAll fs r.1 target ∨
    ∃ text start, execAll fs r.1 target = some text ∧ execAll fs (r.1.take k) tmp = some text ∧
      start <+: text ∧ execAll fs (r.1.take k) target = some start

theorem nothingLost_ok {ρ α : Type} [DecidableEq ρ] (buf : Buffering) (sameDevice : Bool) {tmp p : ρ} (h : tmp ≠ p)
    (fs : Fs ρ) (text : Str) (a : α) :
    NothingLost fs p tmp (tmpOps buf tmp text ++ moveOps sameDevice tmp p (buf.pieces text), .ok a) := by
  intro k
  simp only [execAll_complete buf sameDevice h fs text]
  cases sameDevice with
  | true => rcases crash_points buf h fs text k with h | h <;> simp [h]
  | false =>
    rcases crash_points_copy buf h fs text k with h | h | ⟨h1, s, h2, h3⟩
    · exact .inl h
    · exact .inr (.inl h)
    · exact .inr (.inr ⟨text, s, rfl, h1, h2, h3⟩)

theorem nothingLost_error {ρ α : Type} [DecidableEq ρ] (buf : Buffering) {tmp p : ρ} (h : tmp ≠ p) (fs : Fs ρ)
    (text : Str) (e : PyErr) : NothingLost fs p tmp (tmpOps buf tmp text, (.error e : Res α)) :=
  fun k => .inl (crash_points_error buf h fs text k)

/-- **C10** Wherever the temporary file is, no crash of `rewrite`, `filter_rows_as_dict` or `add_rows` loses both the old and
the new content: whenever the target is incomplete, the temporary file still has the complete new content. -/
theorem C10_nothing_lost {σ ρ : Type} [DecidableEq ρ] (v : CsvVer) (cfg : Cfg) (buf : Buffering)
    (sameDevice : Bool) (fs : Fs ρ) (fname tmp : ρ) (htmp : tmp ≠ fname) :
    (∀ (vis : Visitor σ) (st : σ) (content : Str),
      NothingLost fs fname tmp (rewrite v cfg buf sameDevice fname tmp vis st content)) ∧
    (∀ (f : List (Str × Str) → Bool) (content : Str),
      NothingLost fs fname tmp (filterRowsAsDict v cfg buf sameDevice fname tmp f content)) ∧
    (∀ (rows : List (List Cell)) (old : Option Str),
      NothingLost fs fname tmp (addRows v buf sameDevice fname tmp rows old)) := by
  have hrw : ∀ {σ : Type} (vis : Visitor σ) (st : σ) (content : Str),
      NothingLost fs fname tmp (rewrite v cfg buf sameDevice fname tmp vis st content) := by
    intro σ vis st content
    unfold rewrite
    simp only
    split
    · exact nothingLost_ok buf sameDevice htmp fs _ _
    · exact nothingLost_error buf htmp fs _ _
  refine ⟨hrw, fun f content => hrw (dictFilter f) {} content, fun rows old => ?_⟩
  unfold addRows
  simp only
  split
  · split
    · exact nothingLost_ok buf sameDevice htmp fs _ _
    · exact nothingLost_error buf htmp fs _ _
  · exact nothingLost_error buf htmp fs _ _
  · exact nothingLost_error buf htmp fs _ _

/-- The two paths of the examples. -/
def oldFs : Fs Bool := fun p => if p then some "a\r\nb\r\n".toList else none

/-- The visitor returning each row unchanged. -/
def keepAll : Visitor Unit := fun st _ r => .ok (st, some (r.map some))

/-- Non-vacuity: an identity rewriting; the new content after the last of four operations. -/
example : (rewrite .py311 Cfg.default Buffering.whole true true false keepAll () "a\nb\n".toList).1.length = 4 ∧
    execAll oldFs (rewrite .py311 Cfg.default Buffering.whole true true false keepAll () "a\nb\n".toList).1 true
      = some "a\r\nb\r\n".toList := by decide

/-- **C10 is violated** if the temporary file is on another file system than the target (`shutil.move` copies): after a
crash at the fourth operation the target is empty, although its old and its new content are not. -/
theorem C10_violated_cross_device :
    let r := rewrite .py311 Cfg.default Buffering.whole false true false keepAll () "a\r\nb\r\n".toList
    execAll oldFs (r.1.take 4) true = some [] ∧ oldFs true = some "a\r\nb\r\n".toList ∧
    execAll oldFs r.1 true = some "a\r\nb\r\n".toList := by decide

/-! ## C11 -/

/-- **C11**, for any reader/writer configuration whose writer/reader round-trip works for the resulting rows: after a
successful `rewrite` reading gives the visitor's results. -/
theorem rewrite_result {σ ρ : Type} [DecidableEq ρ] (v : CsvVer) (cfg : Cfg) (buf : Buffering) (sameDevice : Bool)
    (fs : Fs ρ) (fname tmp : ρ) (htmp : tmp ≠ fname) (vis : Visitor σ) (st st' : σ) (content : Str)
    (rows out : List (List Str)) (hread : readFile cfg content = (rows, none))
    (hv : Spec.Visits vis st 0 rows st' out)
    (hrt : ∃ text, writeFile v cfg out = .ok text ∧ readFile cfg text = (out, none)) :
    ∃ ops text, rewrite v cfg buf sameDevice fname tmp vis st content = (ops, .ok st') ∧
      execAll fs ops fname = some text ∧ readFile cfg text = (out, none) := by
  obtain ⟨text, hw, hr⟩ := hrt
  obtain ⟨ws, h1, h2⟩ := rewriteLoop_of_visits hv hw
  refine ⟨_, text, ?_, execAll_complete buf sameDevice htmp fs text, hr⟩
  simp only [rewrite, hread, h1, h2]

/-- Rows that can be stored with the default format. -/
def DefaultStorable (rows : List (List Str)) : Prop :=
  (∀ r ∈ rows, ∀ s ∈ r, s.length ≤ 131072) ∧ ¬ Spec.StartsWithBom rows

/-- **C11** (default format) After `rewrite(fname, visitor)` reading the file gives exactly the visitor's results. -/
theorem C11_rewrite_applies_visitor {σ ρ : Type} [DecidableEq ρ] (v : CsvVer) (buf : Buffering) (sameDevice : Bool)
    (fs : Fs ρ) (fname tmp : ρ) (htmp : tmp ≠ fname) (vis : Visitor σ) (st st' : σ) (content : Str)
    (rows out : List (List Str)) (hread : readFile Cfg.default content = (rows, none))
    (hv : Spec.Visits vis st 0 rows st' out) (hout : DefaultStorable out) :
    ∃ ops text, rewrite v Cfg.default buf sameDevice fname tmp vis st content = (ops, .ok st') ∧
      execAll fs ops fname = some text ∧ readFile Cfg.default text = (out, none) :=
  rewrite_result v _ buf sameDevice fs fname tmp htmp vis st st' content rows out hread hv
    (default_roundtrip v out hout.1 hout.2)

/-- Rows written with a dialect of the family of C02 are stored as they are: `csv.reader` yields them again. -/
theorem dialect_stored (v : CsvVer) (d : Dialect) (dl q : Char) (lt : Str) (rows : List (List Str))
    (hd : QuoteDialect v d dl q lt) (hq : d.doubleQuote = true) (hc : Storable d rows)
    (hb : ¬ Spec.StartsWithBom rows) :
    ∃ cfg text, Cfg.ofDialect d = .ok cfg ∧ cfg.dialect = some d ∧ writeFile v cfg rows = .ok text ∧
      openText cfg text = fresh rows none := by
  have hf := hd.toFmt
  rw [hq] at hf
  simp only [if_true] at hf
  have w := hd.wf hf (by simp [hq])
  refine ⟨⟨qFmt dl q none true d.skipInitialSpace lt, some d⟩, ?_⟩
  obtain ⟨t, ht⟩ := writeRows_isOk (v := v) (d := qFmt dl q none true d.skipInitialSpace lt) (by simp) (.inl rfl) (rows.map (·.map (escapeDoubled
    (qFmt dl q none true d.skipInitialSpace lt))))
  have hw : writeFile v ⟨qFmt dl q none true d.skipInitialSpace lt, some d⟩ rows = .ok t := by
    rw [writeFile_eq]; exact ht
  refine ⟨t, by simp [Cfg.ofDialect, hf], rfl, hw, ?_⟩
  have := read_written (dl := some d) w (dblOk_false (.inl rfl)) (escapeDoubled_none (.inl rfl) rows)
    (fun r hr s hs' => hc r hr s hs') hb (Ne.symm hd.delimOk.2.2) (by simpa using hd.quoteOk.2.2) (by simp) hw
  simp [openText, this, fresh]

/-- **C11** with a dialect (the family of C02, with skipping, trimming and comments): the visitor's results are the lines of the
new file. Reading it with the dialect skips, trims and drops columns of these rows *again*. -/
theorem C11_rewrite_with_dialect {σ ρ : Type} [DecidableEq ρ] (v : CsvVer) (buf : Buffering) (sameDevice : Bool)
    (fs : Fs ρ) (fname tmp : ρ) (htmp : tmp ≠ fname) (vis : Visitor σ) (st st' : σ) (content : Str)
    (d : Dialect) (dl q : Char) (lt : Str) (cfg : Cfg) (hcfg : Cfg.ofDialect d = .ok cfg)
    (hd : QuoteDialect v d dl q lt) (hq : d.doubleQuote = true)
    (rows out : List (List Str)) (hread : readFile cfg content = (rows, none))
    (hv : Spec.Visits vis st 0 rows st' out) (hc : Storable d out) (hb : ¬ Spec.StartsWithBom out) :
    ∃ ops text pairs, rewrite v cfg buf sameDevice fname tmp vis st content = (ops, .ok st') ∧
      execAll fs ops fname = some text ∧ readFile cfg text = (pairs.map Prod.snd, none) ∧
      YieldSpec d (Spec.numbered out) pairs := by
  obtain ⟨cfg', text, h1, h2, hw, ho⟩ := dialect_stored v d dl q lt out hd hq hc hb
  rw [hcfg] at h1
  cases h1
  obtain ⟨ws, e1, e2⟩ := rewriteLoop_of_visits hv hw
  obtain ⟨y1, y2⟩ := C05_reader_yields_nonskipped d out none
  refine ⟨_, text, (collect (some d) (fresh out none)).1, ?_, execAll_complete buf sameDevice htmp fs text, ?_, y1⟩
  · simp only [rewrite, hread, e1, e2]
  · simp only [readFile, h2, ho, y2]

/-- **C11** with a dialect for which nothing is skipped or trimmed: reading gives exactly the visitor's results. -/
theorem C11_rewrite_with_plain_dialect {σ ρ : Type} [DecidableEq ρ] (v : CsvVer) (buf : Buffering) (sameDevice : Bool)
    (fs : Fs ρ) (fname tmp : ρ) (htmp : tmp ≠ fname) (vis : Visitor σ) (st st' : σ) (content : Str)
    (d : Dialect) (dl q : Char) (lt : Str) (cfg : Cfg) (hcfg : Cfg.ofDialect d = .ok cfg)
    (hd : QuoteDialect v d dl q lt) (hq : d.doubleQuote = true)
    (rows out : List (List Str)) (hread : readFile cfg content = (rows, none))
    (hv : Spec.Visits vis st 0 rows st' out) (hs : NoSkipping d out) (hc : Storable d out)
    (hb : ¬ Spec.StartsWithBom out) :
    ∃ ops text, rewrite v cfg buf sameDevice fname tmp vis st content = (ops, .ok st') ∧
      execAll fs ops fname = some text ∧ readFile cfg text = (out, none) := by
  obtain ⟨cfg', text, h1, h2, h3⟩ := C02_dialect_roundtrip v d dl q lt out hd hq hs hc hb
  rw [hcfg] at h1
  cases h1
  exact rewrite_result v _ buf sameDevice fs fname tmp htmp vis st st' content rows out hread hv ⟨text, h2, h3⟩

/-- **C11** Conversely, whenever `rewrite` succeeds, the old content was read completely and the visitor succeeded on
every row. -/
theorem C11_success_means_all_visited {σ ρ : Type} (v : CsvVer) (cfg : Cfg) (buf : Buffering) (sameDevice : Bool)
    (fname tmp : ρ) (vis : Visitor σ) (st st' : σ) (content : Str)
    (h : (rewrite v cfg buf sameDevice fname tmp vis st content).2 = .ok st') :
    ∃ rows out text, readFile cfg content = (rows, none) ∧ Spec.Visits vis st 0 rows st' out ∧
      writeFile v cfg out = .ok text ∧ ∀ [DecidableEq ρ] (fs : Fs ρ), tmp ≠ fname →
        execAll fs (rewrite v cfg buf sameDevice fname tmp vis st content).1 fname = some text := by
  have hl : ∃ ws s, rewriteLoop v cfg vis (readFile cfg content).2 st 0 (readFile cfg content).1 = (ws, .ok s) ∧ s = st' := by
    revert h
    unfold rewrite
    simp only
    split
    · next s hs => intro h; cases h; exact ⟨_, _, Prod.ext rfl hs, rfl⟩
    · simp
  obtain ⟨ws, s, hl, rfl⟩ := hl
  obtain ⟨h1, out, h2, h3⟩ := rewriteLoop_ok hl
  refine ⟨(readFile cfg content).1, out, ws.flatten, Prod.ext rfl h1, h2, h3, ?_⟩
  intro _ fs htmp
  simp only [rewrite, hl]
  exact execAll_complete buf sameDevice htmp fs _

/-- The visitor `lambda i, row: f(i, row)` for a function `f`. -/
def pureVisitor (f : Nat → List Str → Option (List Str)) : Visitor Unit :=
  fun st i r => .ok (st, (f i r).map (·.map some))

theorem visits_pure (f : Nat → List Str → Option (List Str)) (rows : List (List Str)) (i : Nat) :
    Spec.Visits (pureVisitor f) () i rows () ((rows.zipIdx i).filterMap (fun p => f p.2 p.1)) := by
  induction rows generalizing i with
  | nil => exact .nil
  | cons r rs ih =>
    simp only [List.zipIdx_cons, List.filterMap_cons]
    cases hf : f i r with
    | none => exact .drop (st' := ()) (by simp [pureVisitor, hf]) (ih (i + 1))
    | some c =>
      have := Spec.Visits.keep (vis := pureVisitor f) (st := ()) (st' := ()) (i := i) (r := r) (cells := c.map some)
        (by simp [pureVisitor, hf]) (ih (i + 1))
      simpa [Function.comp_def] using this

/-- **C11** for a visitor given by a function `f`: the new rows are the `f i r` for the `i`-th old row `r`, without
those for which it returned `None`. -/
theorem C11_rewrite_function {ρ : Type} [DecidableEq ρ] (v : CsvVer) (buf : Buffering) (sameDevice : Bool)
    (fs : Fs ρ) (fname tmp : ρ) (htmp : tmp ≠ fname) (f : Nat → List Str → Option (List Str)) (content : Str)
    (rows : List (List Str)) (hread : readFile Cfg.default content = (rows, none))
    (hout : DefaultStorable (rows.zipIdx.filterMap (fun p => f p.2 p.1))) :
    ∃ ops text, rewrite v Cfg.default buf sameDevice fname tmp (pureVisitor f) () content = (ops, .ok ()) ∧
      execAll fs ops fname = some text ∧
      readFile Cfg.default text = (rows.zipIdx.filterMap (fun p => f p.2 p.1), none) :=
  C11_rewrite_applies_visitor v buf sameDevice fs fname tmp htmp _ () () content rows _ hread (visits_pure f rows 0) hout

/-- Rows read with the default format respect the field limit. -/
theorem readFile_limit {content : Str} {rows : List (List Str)} {e : Option PyErr}
    (h : readFile Cfg.default content = (rows, e)) : ∀ r ∈ rows, ∀ s ∈ r, s.length ≤ 131072 := by
  have h' : readFile { fmt := Fmt.excel } content = (rows, e) := h
  rw [readFile_none] at h'
  have := readRows_limit Fmt.excel (splitLines (dropBom content))
  rw [h'] at this
  exact this

theorem zipIdx_some (rows : List (List Str)) (i : Nat) :
    (rows.zipIdx i).filterMap (fun p => some p.1) = rows := by
  induction rows generalizing i with
  | nil => rfl
  | cons r rs ih => simp [List.zipIdx_cons, ih]

/-- **C11** The identity visitor leaves the rows unchanged. -/
theorem C11_identity_unchanged {ρ : Type} [DecidableEq ρ] (v : CsvVer) (buf : Buffering) (sameDevice : Bool)
    (fs : Fs ρ) (fname tmp : ρ) (htmp : tmp ≠ fname) (content : Str)
    (rows : List (List Str)) (hread : readFile Cfg.default content = (rows, none)) (hb : ¬ Spec.StartsWithBom rows) :
    ∃ ops text, rewrite v Cfg.default buf sameDevice fname tmp (pureVisitor fun _ r => some r) () content
        = (ops, .ok ()) ∧
      execAll fs ops fname = some text ∧ readFile Cfg.default text = (rows, none) := by
  have := C11_rewrite_function v buf sameDevice fs fname tmp htmp (fun _ r => some r) content rows hread
  rw [zipIdx_some] at this
  exact this ⟨readFile_limit hread, hb⟩

/-- Non-vacuity: dropping the second row and changing the others. -/
example : readFile Cfg.default "a,b\n1,2\n3,4\n".toList = ([[['a'], ['b']], [['1'], ['2']], [['3'], ['4']]], none) ∧
    Spec.Visits (pureVisitor fun i r => if i = 1 then none else some r.reverse) () 0
      [[['a'], ['b']], [['1'], ['2']], [['3'], ['4']]] () [[['b'], ['a']], [['4'], ['3']]] :=
  ⟨by decide, visits_pure (fun i r => if i = 1 then none else some r.reverse) _ 0⟩

/-- **C11 is violated** for dialects which skip rows: rewriting with the identity loses the skipped line, and reading
skips the first line of the remaining ones again. -/
theorem C11_violated_skip_rows :
    let cfg : Cfg := ⟨Fmt.excel, some { skipRows := 1 }⟩
    let r := rewrite (ρ := Bool) .py311 cfg Buffering.whole true true false keepAll () "title\r\na\r\nb\r\n".toList
    (readFile cfg "title\r\na\r\nb\r\n".toList).1 = [[['a']], [['b']]] ∧
    execAll oldFs r.1 true = some "a\r\nb\r\n".toList ∧
    (readFile cfg "a\r\nb\r\n".toList).1 = [[['b']]] := by decide

/-! ## C12 -/

/-- Row as dict: cells zipped with the header. -/
def asDict (header row : List Str) : List (Str × Str) := Dict.ofPairs (header.zip row)

theorem visits_dictFilter_tail (f : List (Str × Str) → Bool) (header : List Str) (rows : List (List Str)) (i n : Nat) (hi : i ≠ 0) :
    Spec.Visits (dictFilter f) ⟨header, n⟩ i rows
      ⟨header, n + (rows.filter (fun r => decide (r ≠ []) && !f (asDict header r))).length⟩
      (rows.filter (fun r => decide (r ≠ []) && f (asDict header r))) := by
  induction rows generalizing i n with
  | nil => exact .nil
  | cons r rs ih =>
    simp only [List.filter_cons]
    cases r with
    | nil => simpa using Spec.Visits.drop (by simp [dictFilter, hi]) (ih (i + 1) n (by omega))
    | cons c cs =>
      cases hf : f (asDict header (c :: cs)) with
      | true =>
        have := Spec.Visits.keep (vis := dictFilter f) (st := ⟨header, n⟩) (st' := ⟨header, n⟩) (i := i) (r := c :: cs)
          (cells := (c :: cs).map some) (by simp [dictFilter, hi, asDict] at hf ⊢; simp [hf]) (ih (i + 1) n (by omega))
        simpa [Function.comp_def] using this
      | false =>
        have h := ih (i + 1) (n + 1) (by omega)
        have := Spec.Visits.drop (vis := dictFilter f) (st := ⟨header, n⟩) (st' := ⟨header, n + 1⟩) (i := i) (r := c :: cs)
          (by simp [dictFilter, hi, asDict] at hf ⊢; simp [hf]) h
        simp only [ne_eq, reduceCtorEq, not_false_eq_true, decide_true, Bool.not_false, Bool.and_true, if_true,
          List.length_cons, Bool.and_false, Bool.false_eq_true, if_false]
        rw [Nat.add_assoc, Nat.add_comm 1] at this
        exact this

/-- **C12** Exactly: the header and the non-blank rows for which the filter is true remain, in order; the number
returned is the number of non-blank rows for which it is false. -/
theorem C12_filter_exact {ρ : Type} [DecidableEq ρ] (v : CsvVer) (buf : Buffering) (sameDevice : Bool)
    (fs : Fs ρ) (fname tmp : ρ) (htmp : tmp ≠ fname) (f : List (Str × Str) → Bool) (content : Str)
    (header : List Str) (rows : List (List Str)) (hread : readFile Cfg.default content = (header :: rows, none))
    (hb : ¬ Spec.StartsWithBom [header]) :
    ∃ ops text, filterRowsAsDict v Cfg.default buf sameDevice fname tmp f content =
        (ops, .ok (rows.filter (fun r => decide (r ≠ []) && !f (asDict header r))).length) ∧
      execAll fs ops fname = some text ∧
      readFile Cfg.default text = (header :: rows.filter (fun r => decide (r ≠ []) && f (asDict header r)), none) := by
  have hv : Spec.Visits (dictFilter f) {} 0 (header :: rows)
      ⟨header, (rows.filter (fun r => decide (r ≠ []) && !f (asDict header r))).length⟩
      (header :: rows.filter (fun r => decide (r ≠ []) && f (asDict header r))) := by
    have h := visits_dictFilter_tail f header rows 1 0 (by omega)
    have := Spec.Visits.keep (vis := dictFilter f) (st := {}) (st' := ⟨header, 0⟩) (i := 0) (r := header)
      (cells := header.map some) (by simp [dictFilter]) h
    simpa [Function.comp_def] using this
  have hlim := readFile_limit hread
  obtain ⟨ops, text, h1, h2, h3⟩ := C11_rewrite_applies_visitor v buf sameDevice fs fname tmp htmp (dictFilter f) {} _
    content _ _ hread hv ⟨by
      intro r hr s hs
      rcases List.mem_cons.1 hr with rfl | hr
      · exact hlim r (by simp) s hs
      · exact hlim r (by simp [(List.mem_filter.1 hr).1]) s hs, by
      rintro ⟨s, c, r, h⟩
      simp only [List.cons.injEq] at h
      exact hb ⟨s, c, [], by rw [h.1]⟩⟩
  refine ⟨ops, text, ?_, h2, h3⟩
  simp only [filterRowsAsDict, h1]

/-- **C12** with a dialect (of the family of C02; nothing of the remaining rows is skipped or trimmed): the same. -/
theorem C12_filter_with_dialect {ρ : Type} [DecidableEq ρ] (v : CsvVer) (buf : Buffering) (sameDevice : Bool)
    (fs : Fs ρ) (fname tmp : ρ) (htmp : tmp ≠ fname) (f : List (Str × Str) → Bool) (content : Str)
    (d : Dialect) (dl q : Char) (lt : Str) (cfg : Cfg) (hcfg : Cfg.ofDialect d = .ok cfg)
    (hd : QuoteDialect v d dl q lt) (hq : d.doubleQuote = true)
    (header : List Str) (rows : List (List Str)) (hread : readFile cfg content = (header :: rows, none))
    (hs : NoSkipping d (header :: rows.filter (fun r => decide (r ≠ []) && f (asDict header r))))
    (hc : Storable d (header :: rows.filter (fun r => decide (r ≠ []) && f (asDict header r))))
    (hb : ¬ Spec.StartsWithBom [header]) :
    ∃ ops text, filterRowsAsDict v cfg buf sameDevice fname tmp f content =
        (ops, .ok (rows.filter (fun r => decide (r ≠ []) && !f (asDict header r))).length) ∧
      execAll fs ops fname = some text ∧
      readFile cfg text = (header :: rows.filter (fun r => decide (r ≠ []) && f (asDict header r)), none) := by
  have hv : Spec.Visits (dictFilter f) {} 0 (header :: rows)
      ⟨header, (rows.filter (fun r => decide (r ≠ []) && !f (asDict header r))).length⟩
      (header :: rows.filter (fun r => decide (r ≠ []) && f (asDict header r))) := by
    have h := visits_dictFilter_tail f header rows 1 0 (by omega)
    have := Spec.Visits.keep (vis := dictFilter f) (st := {}) (st' := ⟨header, 0⟩) (i := 0) (r := header)
      (cells := header.map some) (by simp [dictFilter]) h
    simpa [Function.comp_def] using this
  obtain ⟨ops, text, h1, h2, h3⟩ := C11_rewrite_with_plain_dialect v buf sameDevice fs fname tmp htmp (dictFilter f) {} _
    content d dl q lt cfg hcfg hd hq _ _ hread hv hs hc (by
      rintro ⟨s, cells, rest, h⟩
      simp only [List.cons.injEq] at h
      exact hb ⟨s, cells, [], by rw [h.1]⟩)
  refine ⟨ops, text, ?_, h2, h3⟩
  simp only [filterRowsAsDict, h1]

/-- **C12** For files without blank rows: exactly the matching rows remain, and the number returned is the number of rows
removed. (With blank rows the number returned is too small, `C12_violated_blank_rows`.) -/
theorem C12_filter_count {ρ : Type} [DecidableEq ρ] (v : CsvVer) (buf : Buffering) (sameDevice : Bool)
    (fs : Fs ρ) (fname tmp : ρ) (htmp : tmp ≠ fname) (f : List (Str × Str) → Bool) (content : Str)
    (header : List Str) (rows : List (List Str)) (hread : readFile Cfg.default content = (header :: rows, none))
    (hb : ¬ Spec.StartsWithBom [header]) (hne : ∀ r ∈ rows, r ≠ []) :
    ∃ ops text n new, filterRowsAsDict v Cfg.default buf sameDevice fname tmp f content = (ops, .ok n) ∧
      execAll fs ops fname = some text ∧ readFile Cfg.default text = (header :: new, none) ∧
      new = rows.filter (fun r => f (asDict header r)) ∧ n + new.length = rows.length := by
  obtain ⟨ops, text, h1, h2, h3⟩ := C12_filter_exact v buf sameDevice fs fname tmp htmp f content header rows hread hb
  refine ⟨ops, text, _, _, h1, h2, h3, ?_, ?_⟩
  · apply List.filter_congr
    intro r hr
    simp [hne r hr]
  · clear h1 h2 h3 hread hb
    induction rows with
    | nil => rfl
    | cons r rs ih =>
      have h1 := hne r (by simp)
      have h2 := ih (fun r hr => hne r (by simp [hr]))
      simp only [List.filter_cons, h1, ne_eq, not_false_eq_true, decide_true, Bool.true_and]
      cases f (asDict header r) <;> simp at h2 ⊢ <;> omega

/-- **C12 is violated** by blank rows: one row (the blank one) is removed although the filter is true for everything,
and 0 is returned. -/
theorem C12_violated_blank_rows :
    let r := filterRowsAsDict (ρ := Bool) .py311 Cfg.default Buffering.whole true true false (fun _ => true)
      "a\r\n\r\nb\r\n".toList
    readFile Cfg.default "a\r\n\r\nb\r\n".toList = ([[['a']], [], [['b']]], none) ∧
    r.2 = .ok 0 ∧ execAll oldFs r.1 true = some "a\r\nb\r\n".toList := by decide

/-! ## C13 -/

/-- **C13** `add_rows` appends: the file reads back as its previous rows followed by the new ones. -/
theorem C13_add_rows_appends {ρ : Type} [DecidableEq ρ] (v : CsvVer) (buf : Buffering) (sameDevice : Bool)
    (fs : Fs ρ) (fname tmp : ρ) (htmp : tmp ≠ fname) (old : Option Str) (oldRows new : List (List Str))
    (hold : match old with | none => oldRows = [] | some t => readFile Cfg.default t = (oldRows, none))
    (hnew : ∀ r ∈ new, ∀ s ∈ r, s.length ≤ 131072) (hb : ¬ Spec.StartsWithBom (oldRows ++ new)) :
    ∃ ops text, addRows v buf sameDevice fname tmp (new.map (·.map some)) old = (ops, .ok ()) ∧
      execAll fs ops fname = some text ∧ readFile Cfg.default text = (oldRows ++ new, none) := by
  have hlim : ∀ r ∈ oldRows, ∀ s ∈ r, s.length ≤ 131072 := by
    cases old with
    | none => simp only at hold; subst hold; simp
    | some t => exact readFile_limit hold
  obtain ⟨text, hw, hr⟩ := default_roundtrip v (oldRows ++ new) (by
    intro r hr
    rcases List.mem_append.1 hr with h | h
    · exact hlim r h
    · exact hnew r h) hb
  have ok : ∀ rows : List (List Str), ∃ t, writeFile v Cfg.default rows = .ok t := by
    intro rows
    obtain ⟨t, ht⟩ := writeRows_isOk (v := v) (d := Fmt.excel) (by simp [Fmt.excel]) (.inl rfl)
      (rows.map (·.map (escapeDoubled Fmt.excel)))
    exact ⟨t, by rw [writeFile_eq]; exact ht⟩
  obtain ⟨t1, h1⟩ := ok oldRows
  obtain ⟨t2, h2⟩ := ok new
  have ht : text = t1 ++ t2 := by
    have := writeFile_append h1 h2
    rw [hw] at this
    exact Except.ok.inj this
  have id : ∀ rows : List (List Str), (rows.map (·.map some)).map (·.map (·.getD [])) = rows := by
    intro rows; simp [List.map_map, Function.comp_def]
  obtain ⟨w1, e1, f1⟩ := rowTexts_ok (rows := oldRows.map (·.map some)) (by rw [id]; exact h1)
  obtain ⟨w2, e2, f2⟩ := rowTexts_ok (rows := new.map (·.map some)) (by rw [id]; exact h2)
  have hf : (w1 ++ w2).flatten = text := by rw [List.flatten_append, f1, f2, ht]
  refine ⟨_, text, ?_, execAll_complete buf sameDevice htmp fs text, hr⟩
  unfold addRows
  cases old with
  | none =>
    simp only at hold
    subst hold
    simp only [e1, e2, hf]
  | some t =>
    simp only [hold, e1, e2, hf]

/-- **C13** Successive calls concatenate. -/
theorem C13_add_rows_twice {ρ : Type} [DecidableEq ρ] (v : CsvVer) (buf : Buffering) (sameDevice : Bool)
    (fs : Fs ρ) (fname tmp tmp' : ρ) (htmp : tmp ≠ fname) (htmp' : tmp' ≠ fname)
    (a b : List (List Str)) (hnew : ∀ r ∈ a ++ b, ∀ s ∈ r, s.length ≤ 131072) (hb : ¬ Spec.StartsWithBom (a ++ b)) :
    ∃ ops text ops' text', addRows v buf sameDevice fname tmp (a.map (·.map some)) none = (ops, .ok ()) ∧
      execAll fs ops fname = some text ∧
      addRows v buf sameDevice fname tmp' (b.map (·.map some)) (some text) = (ops', .ok ()) ∧
      execAll (execAll fs ops) ops' fname = some text' ∧ readFile Cfg.default text' = (a ++ b, none) := by
  obtain ⟨ops, text, h1, h2, h3⟩ := C13_add_rows_appends v buf sameDevice fs fname tmp htmp none [] a rfl
    (fun r hr => hnew r (by simp [hr])) (by
      rintro ⟨s, c, r, h⟩
      rw [List.nil_append] at h
      exact hb ⟨s, c, r ++ b, by rw [h]; rfl⟩)
  obtain ⟨ops', text', g1, g2, g3⟩ := C13_add_rows_appends v buf sameDevice (execAll fs ops) fname tmp' htmp' (some text)
    ([] ++ a) b h3 (fun r hr => hnew r (by simp [hr])) (by simpa using hb)
  exact ⟨ops, text, ops', text', h1, h2, g1, g2, by simpa using g3⟩

/-- Non-vacuity. -/
example : readFile Cfg.default "a\n".toList = ([[['a']]], none) ∧
    execAll oldFs (addRows (ρ := Bool) .py311 Buffering.whole true true false [[some ['b'], none]] (some "a\n".toList)).1
      true = some "a\r\nb,\r\n".toList := by decide

end Csvw.Props
