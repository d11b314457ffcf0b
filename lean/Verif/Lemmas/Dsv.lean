import Verif.Model.Dsv
import Verif.Spec.Dsv
import Verif.Lemmas.CsvRoundtrip
/-! # Helper lemmas about the model of `dsv.py` -/

namespace Csvw

namespace Py

theorem dropWhile_spec (p : Char → Bool) (s : Str) : Spec.IsTrimmedLeft p s (s.dropWhile p) := by
  refine ⟨s.takeWhile p, by simp, ?_, ?_⟩
  · intro c hc
    induction s with
    | nil => simp at hc
    | cons a as ih =>
      rw [List.takeWhile_cons] at hc
      split at hc
      · next ha =>
        rcases List.mem_cons.1 hc with rfl | hc
        · exact ha
        · exact ih hc
      · simp at hc
  · intro c cs h
    induction s with
    | nil => simp at h
    | cons a as ih =>
      rw [List.dropWhile_cons] at h
      split at h
      · exact ih h
      · next ha => cases h; simpa using ha

theorem lstripP_spec (p : Char → Bool) (s : Str) : Spec.IsTrimmedLeft p s (lstripP p s) := dropWhile_spec p s

theorem rstripP_spec (p : Char → Bool) (s : Str) : Spec.IsTrimmedRight p s (rstripP p s) := by
  obtain ⟨a, h1, h2, h3⟩ := dropWhile_spec p s.reverse
  refine ⟨a.reverse, ?_, ?_, ?_⟩
  · have := congrArg List.reverse h1
    simpa [rstripP] using this
  · intro c hc; exact h2 c (by simpa using hc)
  · intro c cs h
    unfold rstripP at h
    have := congrArg List.reverse h
    simp only [List.reverse_reverse, List.reverse_append, List.reverse_cons, List.reverse_nil,
      List.nil_append, List.singleton_append] at this
    exact h3 c _ this

end Py

theorem trimmed_apply (t : Trim) (s : Str) : Spec.Trimmed t s (t.apply s) := by
  cases t with
  | true_ => exact ⟨Py.lstrip s, Py.lstripP_spec _ _, Py.rstripP_spec _ _⟩
  | false_ => rfl
  | start => exact Py.lstripP_spec _ _
  | end_ => exact Py.rstripP_spec _ _

theorem isTrimmedLeft_unique {p : Char → Bool} {s t t' : Str} (h : Spec.IsTrimmedLeft p s t)
    (h' : Spec.IsTrimmedLeft p s t') : t = t' := by
  obtain ⟨a, e, h1, h2⟩ := h
  obtain ⟨a', e', h1', h2'⟩ := h'
  subst e
  induction a generalizing a' with
  | nil =>
    cases a' with
    | nil => simpa using e'
    | cons c cs =>
      simp only [List.nil_append, List.cons_append] at e'
      have x := h2 _ _ e'
      rw [h1' c (by simp)] at x; simp at x
  | cons c cs ih =>
    cases a' with
    | nil =>
      simp only [List.nil_append, List.cons_append] at e'
      have x := h2' _ _ e'.symm
      rw [h1 c (by simp)] at x; simp at x
    | cons c' cs' =>
      simp only [List.cons_append, List.cons.injEq] at e'
      exact ih (fun c hc => h1 c (by simp [hc])) cs' (fun c hc => h1' c (by simp [hc])) e'.2

namespace Dsv

open CsvLib

theorem rowNewlines_eq (r : Row) : rowNewlines r = Spec.lineFeeds r := by
  unfold rowNewlines Spec.lineFeeds
  rw [List.count_flatten]

theorem isComment_iff (d : Dialect) (r : Row) : isComment d r = true ↔ Spec.CommentRow d r := by
  unfold isComment Spec.CommentRow
  cases r with
  | nil => simp
  | cons s rest =>
    cases h : d.commentPrefix with
    | none => simp
    | some p =>
      simp only [Py.startsWith, Bool.and_eq_true, List.isPrefixOf_iff_prefix]
      constructor
      · rintro ⟨h1, h2⟩
        exact ⟨p, s, rest, rfl, by simpa using h1, rfl, h2⟩
      · rintro ⟨p', s', rest', h1, h2, h3, h4⟩
        cases h1; cases h3
        exact ⟨by simpa using h2, h4⟩

theorem isBlank_iff (r : Row) : isBlank r = true ↔ Spec.BlankRow r := by
  simp [isBlank, Spec.BlankRow]

theorem isSkipped_iff (d : Dialect) (n : Int) (r : Row) : isSkipped d n r = true ↔ Spec.Skipped d n r := by
  simp only [isSkipped, Spec.Skipped, Bool.or_eq_true, isComment_iff, Bool.and_eq_true, isBlank_iff,
    decide_eq_true_eq, or_assoc]
  constructor <;> rintro (h | h | h)
  · exact .inl h
  · exact .inr (.inl h.symm)
  · exact .inr (.inr h)
  · exact .inl h
  · exact .inr (.inl h.symm)
  · exact .inr (.inr h)

theorem isSkipped_eq (d : Dialect) (n : Int) (r : Row) : isSkipped d n r = decide (Spec.Skipped d n r) := by
  rw [Bool.eq_iff_iff, isSkipped_iff]; simp

theorem isRecorded_iff (d : Dialect) (n : Int) (r : Row) : isRecorded d n r = true ↔ Spec.IsRecorded d n r := by
  simp [isRecorded, Spec.IsRecorded, isComment_iff]

theorem isRecorded_eq (d : Dialect) (n : Int) (r : Row) : isRecorded d n r = decide (Spec.IsRecorded d n r) := by
  rw [Bool.eq_iff_iff, isRecorded_iff]; simp

theorem recorded_skipped {d : Dialect} {n : Int} {r : Row} (h : Spec.IsRecorded d n r) : Spec.Skipped d n r := by
  rcases h with h | h
  · exact .inl h
  · exact .inr (.inr h.2)

/-- The rows yielded by the reader with dialect `d`, from numbered raw rows. -/
def yielded (d : Dialect) (l : List (Int × Row)) : List (Int × Row) :=
  (l.filter (fun p => !isSkipped d p.1 p.2)).map (fun p => (p.1 + 1, finishRow d p.2))

/-- The comments recorded, from numbered raw rows. -/
def recorded (d : Dialect) (l : List (Int × Row)) : List (Int × Str) :=
  (l.filter (fun p => isRecorded d p.1 p.2)).map (fun p => (p.1, commentText d p.2))

theorem nextGo_pending_length (dl : Option Dialect) (err : Option PyErr) (l : List Row) (n : Int)
    (cm : List (Int × Str)) (row : Row) (s' : RState) (h : nextGo dl err l n cm = (.ok (some row), s')) :
    s'.pending.length < l.length := by
  induction l generalizing n cm with
  | nil =>
    simp only [nextGo] at h
    cases err <;> simp at h
  | cons r rest ih =>
    simp only [nextGo] at h
    cases dl with
    | none => simp at h; simp [← h.2]
    | some d =>
      simp only at h
      split at h
      · have := ih _ _ h; simp; omega
      · simp at h; simp [← h.2]

theorem collectFuel_some (d : Dialect) (fuel : Nat) (l : List Row) (err : Option PyErr) (n : Int)
    (cm : List (Int × Str)) (hf : l.length < fuel) :
    (collectFuel (some d) fuel { pending := l, err := err, lineno := n, comments := cm }).1 =
        yielded d (Spec.numberFrom n l) ∧
    (collectFuel (some d) fuel { pending := l, err := err, lineno := n, comments := cm }).2.1 = err ∧
    (collectFuel (some d) fuel { pending := l, err := err, lineno := n, comments := cm }).2.2.comments =
        cm ++ recorded d (Spec.numberFrom n l) := by
  induction l generalizing fuel n cm with
  | nil =>
    cases fuel with
    | zero => simp at hf
    | succ k =>
      cases err <;> simp [collectFuel, next, nextGo, yielded, recorded, Spec.numberFrom]
  | cons r rest ih =>
    cases fuel with
    | zero => simp at hf
    | succ k =>
      simp only [List.length_cons] at hf
      simp only [Spec.numberFrom]
      rw [← rowNewlines_eq]
      by_cases hs : isSkipped d (n + 1 + rowNewlines r) r = true
      · have hk := ih (k + 1) (n + 1 + rowNewlines r)
          (if isRecorded d (n + 1 + rowNewlines r) r then cm ++ [(n + 1 + rowNewlines r, commentText d r)] else cm)
          (by omega)
        have e : collectFuel (some d) (k + 1) (RState.mk (r :: rest) err n cm) =
            collectFuel (some d) (k + 1) (RState.mk rest err (n + 1 + rowNewlines r)
              (if isRecorded d (n + 1 + rowNewlines r) r then
                cm ++ [(n + 1 + rowNewlines r, commentText d r)] else cm)) := by
          simp only [collectFuel, next]
          conv => lhs; rw [nextGo]
          simp only [hs, if_true]
        rw [e]
        refine ⟨?_, hk.2.1, ?_⟩
        · rw [hk.1]; simp [yielded, hs]
        · rw [hk.2.2]
          by_cases hr : isRecorded d (n + 1 + rowNewlines r) r = true
          · simp [hr, recorded]
          · simp [hr, recorded]
      · have hr : isRecorded d (n + 1 + rowNewlines r) r = false := by
          cases h : isRecorded d (n + 1 + rowNewlines r) r with
          | false => rfl
          | true => exact absurd ((isSkipped_iff _ _ _).2 (recorded_skipped ((isRecorded_iff _ _ _).1 h))) hs
        have hs' : isSkipped d (n + 1 + rowNewlines r) r = false := by simpa using hs
        obtain ⟨k1, k2, k3⟩ := ih k (n + 1 + rowNewlines r) cm (by omega)
        simp only [collectFuel, next, nextGo, hs']
        simp only [Bool.false_eq_true, if_false]
        refine ⟨?_, k2, ?_⟩
        · rw [k1]; simp [yielded, hs']
        · rw [k3]; simp [recorded, hr]

theorem collectFuel_none (fuel : Nat) (l : List Row) (err : Option PyErr) (n : Int)
    (cm : List (Int × Str)) (hf : l.length < fuel) :
    (collectFuel none fuel { pending := l, err := err, lineno := n, comments := cm }).1 =
        (Spec.numberFrom n l).map (fun p => (p.1 + 1, p.2)) ∧
    (collectFuel none fuel { pending := l, err := err, lineno := n, comments := cm }).2.1 = err := by
  induction l generalizing fuel n cm with
  | nil =>
    cases fuel with
    | zero => simp at hf
    | succ k => cases err <;> simp [collectFuel, next, nextGo, Spec.numberFrom]
  | cons r rest ih =>
    cases fuel with
    | zero => simp at hf
    | succ k =>
      simp only [List.length_cons] at hf
      obtain ⟨k1, k2⟩ := ih k (n + 1 + rowNewlines r) cm (by omega)
      simp only [collectFuel, next, nextGo, Spec.numberFrom]
      rw [← rowNewlines_eq]
      refine ⟨?_, k2⟩
      rw [k1]; simp

theorem numberFrom_snd (n : Int) (l : List Row) : (Spec.numberFrom n l).map Prod.snd = l := by
  induction l generalizing n with
  | nil => rfl
  | cons r rs ih => simp [Spec.numberFrom, ih]

/-- Rows read from a file without dialect. -/
theorem readFile_none (f : Fmt) (text : Str) :
    readFile { fmt := f } text = readRows f (splitLines (dropBom text)) := by
  unfold readFile collect openText
  have := collectFuel_none ((readRows f (splitLines (dropBom text))).1.length + 1)
    (readRows f (splitLines (dropBom text))).1 (readRows f (splitLines (dropBom text))).2 (-1) [] (by simp)
  simp only at this ⊢
  rw [this.1, this.2]
  rw [List.map_map]
  have e : (Prod.snd ∘ fun p : Int × Row => (p.1 + 1, p.2)) = Prod.snd := rfl
  rw [e, numberFrom_snd]

/-- A dialect which passes all of the given rows unchanged. -/
structure Transparent (d : Dialect) (rows : List Row) : Prop where
  skipRows : d.skipRows = 0
  skipColumns : d.skipColumns = 0
  trim : d.trim = .false_
  comment : ∀ r ∈ rows, ¬ Spec.CommentRow d r
  blank : d.skipBlankRows = true → ∀ r ∈ rows, ¬ Spec.BlankRow r

theorem yielded_transparent {d : Dialect} {rows : List Row} (h : Transparent d rows) (n : Int) (hn : -1 ≤ n) :
    (yielded d (Spec.numberFrom n rows)).map Prod.snd = rows := by
  induction rows generalizing n with
  | nil => rfl
  | cons r rs ih =>
    have hsk : isSkipped d (n + 1 + Spec.lineFeeds r) r = false := by
      rw [isSkipped_eq, decide_eq_false_iff_not]
      rintro (hc | ⟨hb, hr⟩ | hl)
      · exact h.comment r (by simp) hc
      · exact h.blank hb r (by simp) hr
      · rw [h.skipRows] at hl; simp at hl; omega
    have ht := ih ⟨h.skipRows, h.skipColumns, h.trim, fun r hr => h.comment r (by simp [hr]),
      fun hb r hr => h.blank hb r (by simp [hr])⟩ (n + 1 + Spec.lineFeeds r) (by omega)
    simp only [yielded] at ht ⊢
    simp only [Spec.numberFrom, List.filter_cons, hsk, Bool.not_false, if_true, List.map_cons]
    rw [ht]
    simp only [List.cons.injEq, and_true, finishRow, h.skipColumns, List.drop_zero, h.trim]
    have : Trim.apply .false_ = id := rfl
    rw [this]; simp

theorem readFile_dialect (f : Fmt) (d : Dialect) (text : Str) :
    readFile { fmt := f, dialect := some d } text =
      ((yielded d (Spec.numbered (readRows f (splitLines (dropBom text))).1)).map Prod.snd,
       (readRows f (splitLines (dropBom text))).2) := by
  unfold readFile collect openText
  have := collectFuel_some d ((readRows f (splitLines (dropBom text))).1.length + 1)
    (readRows f (splitLines (dropBom text))).1 (readRows f (splitLines (dropBom text))).2 (-1) [] (by simp)
  simp only at this ⊢
  rw [this.1, this.2.1]
  rfl

/-! ## Writer -/

theorem replace_single (e : Char) (s : Str) :
    Py.replace [e] [e, e] s = s.flatMap (fun c => if c = e then [e, e] else [c]) := by
  unfold Py.replace
  induction s with
  | nil => rfl
  | cons c cs ih =>
    simp only [Py.replaceGo, List.flatMap_cons]
    by_cases h : c = e
    · simp [h, List.isPrefixOf, ih]
    · have h' : (e == c) = false := by simpa using Ne.symm h
      simp [h, List.isPrefixOf, ih, h']

theorem escapeDoubled_eq (d : Fmt) (s : Str) :
    escapeDoubled d s = s.flatMap (pre d (decide (d.quoting ≠ .none))) := by
  unfold escapeDoubled pre
  cases he : d.escapechar with
  | none => simp
  | some e =>
    by_cases hq : d.quoting = .none
    · simp [hq]
    · simp only [hq, ne_eq, not_false_eq_true, if_true, decide_true, Bool.true_and, replace_single]
      congr 1
      funext c
      by_cases h : c = e <;> simp [h]

theorem writerowsFrom_seq (v : CsvVer) (cfg : Cfg) (i : Nat) (s : WState) (rows : List (List Cell)) :
    writerowsFrom v cfg i s (rows.map .seq) =
      match writeRows v cfg.fmt (rows.map (·.map (fun c => escapeDoubled cfg.fmt (cellText c)))) with
      | .error e => .error e
      | .ok t => .ok { out := s.out ++ t, rowsWritten := s.rowsWritten + rows.length } := by
  induction rows generalizing i s with
  | nil => simp [writerowsFrom, writeRows]
  | cons r rs ih =>
    simp only [List.map_cons, writerowsFrom, writerow, writeRows]
    cases writeRow v cfg.fmt (r.map (fun c => escapeDoubled cfg.fmt (cellText c))) with
    | error e => rfl
    | ok t =>
      simp only
      rw [ih]
      cases writeRows v cfg.fmt (rs.map (·.map (fun c => escapeDoubled cfg.fmt (cellText c)))) with
      | error e => rfl
      | ok t2 => simp; omega

/-- `writeFile` in terms of `csv.writer`. -/
theorem writeFile_eq (v : CsvVer) (cfg : Cfg) (rows : List Row) :
    writeFile v cfg rows = writeRows v cfg.fmt (rows.map (·.map (escapeDoubled cfg.fmt))) := by
  unfold writeFile writerows
  have := writerowsFrom_seq v cfg 0 {} (rows.map (·.map some))
  simp only [List.map_map] at this
  have e : (WRow.seq ∘ fun x : Row => x.map some) = fun r : Row => WRow.seq (r.map some) := rfl
  rw [e] at this
  rw [this]
  have e2 : rows.map ((fun x : List Cell => x.map fun c => escapeDoubled cfg.fmt (cellText c)) ∘ fun x => x.map some) =
      rows.map (·.map (escapeDoubled cfg.fmt)) := by
    apply List.map_congr_left
    intro r _
    simp [List.map_map, cellText, Function.comp_def]
  rw [e2]
  cases writeRows v cfg.fmt (rows.map (·.map (escapeDoubled cfg.fmt))) with
  | error e => rfl
  | ok t => simp

end Dsv

/-! ## Success of writing -/
namespace CsvLib

theorem emitChar_isOk {v : CsvVer} {d : Fmt} (hq : d.quoting ≠ .none)
    (h : d.doublequote = true ∨ d.escapechar.isSome = true) (c : Char) : ∃ r, emitChar v d c = .ok r := by
  unfold emitChar
  split
  · simp only [hq]
    by_cases hqc : (some c == d.quotechar) = true
    · simp only [hqc, if_true]
      cases hd : d.doublequote with
      | true => simp
      | false =>
        rw [hd] at h
        simp at h
        obtain ⟨e, he⟩ := Option.isSome_iff_exists.1 h
        simp [he]
    · simp only [Bool.not_eq_true] at hqc
      simp only [hqc, Bool.false_eq_true, if_false]
      by_cases hec : (v.escEsc && some c == d.escapechar) = true
      · simp only [hec, if_true]
        simp only [Bool.and_eq_true, beq_iff_eq] at hec
        simp [← hec.2]
      · simp [hec]
  · exact ⟨_, rfl⟩

theorem emitChars_isOk {v : CsvVer} {d : Fmt} (hq : d.quoting ≠ .none)
    (h : d.doublequote = true ∨ d.escapechar.isSome = true) (s : Str) : ∃ r, emitChars v d s = .ok r := by
  induction s with
  | nil => exact ⟨_, rfl⟩
  | cons c cs ih =>
    obtain ⟨⟨a, q⟩, h1⟩ := emitChar_isOk (v := v) hq h c
    obtain ⟨⟨b, q'⟩, h2⟩ := ih
    exact ⟨(a ++ b, q || q'), by simp [emitChars, h1, h2]⟩

theorem writeField_isOk {v : CsvVer} {d : Fmt} (hq : d.quoting ≠ .none)
    (h : d.doublequote = true ∨ d.escapechar.isSome = true) (s : Str) : ∃ r, writeField v d s = .ok r := by
  obtain ⟨⟨a, q⟩, h1⟩ := emitChars_isOk (v := v) hq h s
  unfold writeField
  rw [h1]
  simp only
  have : (d.quoting == Quoting.none) = false := by simpa using hq
  simp only [this, Bool.and_false, Bool.false_eq_true, if_false]
  split
  · cases d.quotechar <;> simp
  · simp

theorem writeFields_isOk {v : CsvVer} {d : Fmt} (hq : d.quoting ≠ .none)
    (h : d.doublequote = true ∨ d.escapechar.isSome = true) (l : List Str) : ∃ r, writeFields v d l = .ok r := by
  induction l with
  | nil => exact ⟨_, rfl⟩
  | cons s ss ih =>
    obtain ⟨a, h1⟩ := writeField_isOk (v := v) hq h s
    obtain ⟨b, h2⟩ := ih
    exact ⟨a :: b, by simp [writeFields, h1, h2]⟩

theorem writeRow_isOk {v : CsvVer} {d : Fmt} (hq : d.quoting ≠ .none)
    (h : d.doublequote = true ∨ d.escapechar.isSome = true) (l : List Str) : ∃ r, writeRow v d l = .ok r := by
  obtain ⟨a, h1⟩ := writeFields_isOk (v := v) hq h l
  unfold writeRow
  rw [h1]
  simp only
  split
  · cases hqq : d.quoting with
    | none => exact absurd hqq hq
    | minimal => cases d.quotechar <;> simp
    | all => cases d.quotechar <;> simp
  · simp

theorem writeRows_isOk {v : CsvVer} {d : Fmt} (hq : d.quoting ≠ .none)
    (h : d.doublequote = true ∨ d.escapechar.isSome = true) (l : List (List Str)) :
    ∃ r, writeRows v d l = .ok r := by
  induction l with
  | nil => exact ⟨_, rfl⟩
  | cons s ss ih =>
    obtain ⟨a, h1⟩ := writeRow_isOk (v := v) hq h s
    obtain ⟨b, h2⟩ := ih
    exact ⟨a ++ b, by simp [writeRows, h1, h2]⟩

/-! ## The first character of the text -/

theorem chunk_head {v : CsvVer} {d : Fmt} {c x : Char} {a : Str} {fl : Bool} (h : Chunk v d c a fl)
    (hx : a.head? = some x) : x = c ∨ d.escapechar = some x := by
  cases h with
  | plain _ => simp at hx; exact .inl hx.symm
  | quoted _ _ _ => simp at hx; exact .inl hx.symm
  | escaped e he _ => simp at hx; subst hx; exact .inr he
  | escq e he _ _ => simp at hx; subst hx; exact .inr he
  | doubled _ _ _ => simp at hx; exact .inl hx.symm

theorem fieldText_head_char {v : CsvVer} {d : Fmt} {s t : Str} (h : FieldText v d s t) {x : Char}
    (hx : t.head? = some x) : s.head? = some x ∨ d.escapechar = some x ∨ d.quotechar = some x := by
  cases h with
  | quoted _ hq _ => simp at hx; subst hx; exact .inr (.inr hq)
  | plain hc _ =>
    cases hc with
    | nil => simp at hx
    | @cons c cs a b f g hc1 _ =>
      have : a.head? = some x := by
        cases a with
        | nil => exact absurd rfl (chunk_ne_nil hc1)
        | cons y ys => simpa using hx
      rcases chunk_head hc1 this with rfl | h
      · exact .inl rfl
      · exact .inr (.inl h)

/-- A text starting with `x`, which is none of the format's characters: the first cell starts with `x`. -/
theorem writeRows_head {v : CsvVer} {d : Fmt} (w : WF v d) {dbl : Bool} (hd : DblOk v d dbl)
    {rows : List (List Str)} {t : Str} (h : writeRows v d (rows.map (·.map (·.flatMap (pre d dbl)))) = .ok t)
    {x : Char} (h1 : x ≠ d.delimiter) (h2 : d.quotechar ≠ some x) (h3 : d.escapechar ≠ some x)
    (h4 : isNl x = false) (hx : t.head? = some x) :
    ∃ s cells rest, rows = ((x :: s) :: cells) :: rest := by
  have hltx : ∀ y, d.lineterminator.head? = some y → y ≠ x := by
    intro y hy
    rcases w.lt with hl | hl | hl <;> rw [hl] at hy <;> simp at hy <;> subst hy <;> rintro rfl <;> simp [isNl] at h4
  have hltn : d.lineterminator ≠ [] := lt_ne_nil w
  cases rows with
  | nil => simp [writeRows] at h; subst h; simp at hx
  | cons row rows =>
    simp only [List.map_cons, writeRows] at h
    cases e1 : writeRow v d (row.map (·.flatMap (pre d dbl))) with
    | error e => rw [e1] at h; simp at h
    | ok a =>
      rw [e1] at h
      simp only at h
      cases e2 : writeRows v d (rows.map (·.map (·.flatMap (pre d dbl)))) with
      | error e => rw [e2] at h; simp at h
      | ok b =>
        rw [e2] at h
        simp only [Except.ok.injEq] at h
        subst h
        unfold writeRow at e1
        cases hw : writeFields v d (row.map (·.flatMap (pre d dbl))) with
        | error e => rw [hw] at e1; simp at e1
        | ok ts =>
          rw [hw] at e1
          have hts := fieldTexts_of_write w hd hw
          simp only at e1
          split at e1
          · exfalso
            cases hq : d.quoting with
            | none => simp [hq] at e1
            | minimal =>
              obtain ⟨q, g1, _, _⟩ := w.quote (by simp [hq])
              simp [hq, g1] at e1
              subst e1
              simp at hx; subst hx; exact h2 g1
            | all =>
              obtain ⟨q, g1, _, _⟩ := w.quote (by simp [hq])
              simp [hq, g1] at e1
              subst e1
              simp at hx; subst hx; exact h2 g1
          · simp only [Except.ok.injEq] at e1
            subst e1
            have lthead : ∀ z : Str, (d.lineterminator ++ z).head? ≠ some x := by
              intro z hz
              cases hl : d.lineterminator with
              | nil => exact hltn hl
              | cons y ys =>
                rw [hl] at hz; simp at hz
                exact hltx y (by rw [hl]; rfl) hz
            cases hts with
            | nil =>
              simp only [Py.join, List.nil_append] at hx
              exact absurd hx (lthead b)
            | @cons s t' ss ts' hft hfts =>
              cases t' with
              | nil =>
                exfalso
                cases ts' with
                | nil =>
                  simp only [Py.join, List.nil_append] at hx
                  exact lthead b hx
                | cons _ _ => simp [Py.join] at hx; exact h1 hx.symm
              | cons c cs =>
                have hc : c = x := by
                  cases ts' with
                  | nil => simpa [Py.join] using hx
                  | cons _ _ => simpa [Py.join] using hx
                subst hc
                rcases fieldText_head_char hft (x := c) rfl with g | g | g
                · cases s with
                  | nil => simp at g
                  | cons y ys => simp at g; subst g; exact ⟨ys, ss, rows, rfl⟩
                · exact absurd g h3
                · exact absurd g h2

end CsvLib
end Csvw
