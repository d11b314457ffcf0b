import Verif.Model.Terminators
import Verif.Lemmas.Coarse
import Verif.Lemmas.Dsv
import Verif.Spec.Lines
/-!
# C97: the keyword argument `lineterminator` of `UnicodeReader`
-/

namespace Csvw.Props
open Csvw Dsv CsvLib Spec

theorem go_crlf (acc cs : Str) : splitLinesGo acc ('\r' :: '\n' :: cs) = ('\n' :: '\r' :: acc).reverse :: splitLinesGo [] cs := by
  rw [splitLinesGo]

theorem go_other (acc : Str) {c : Char} {cs : Str} (h : ¬ (c = '\r' ∧ cs.head? = some '\n')) :
    splitLinesGo acc (c :: cs) = if isNl c then (c :: acc).reverse :: splitLinesGo [] cs else splitLinesGo (c :: acc) cs := by
  rw [splitLinesGo]
  rintro cs' rfl rfl
  exact h ⟨rfl, rfl⟩

theorem go_pieces : ∀ (n : Nat) (acc text : Str), text.length ≤ n → acc.reverse ++ text ≠ [] → Pieces (acc.reverse ++ text) (splitLinesGo acc text) := by
  intro n
  induction n with
  | zero =>
    intro acc text hn hne
    cases List.length_eq_zero_iff.1 (Nat.le_zero.1 hn)
    rw [splitLinesGo, List.append_nil]
    rw [List.append_nil] at hne
    have : acc.isEmpty = false := by cases acc <;> simp_all
    rw [this]
    exact .last _
  | succ n ih =>
    intro acc text hn hne
    have key : ∀ (pre cs : Str) (c : Char), isNl c = true → cs.length ≤ n → Pieces (pre ++ c :: cs) ((pre ++ [c]) :: splitLinesGo [] cs) := by
      intro pre cs c hc hl
      cases cs with
      | nil => exact .last _
      | cons a cs => exact .cons _ hc (ih [] (a :: cs) hl (by simp))
    cases text with
    | nil =>
      rw [splitLinesGo, List.append_nil]
      rw [List.append_nil] at hne
      have : acc.isEmpty = false := by cases acc <;> simp_all
      rw [this]
      exact .last _
    | cons c cs =>
      rw [List.length_cons] at hn
      by_cases h : c = '\r' ∧ cs.head? = some '\n'
      · obtain ⟨rfl, h⟩ := h
        cases cs with
        | nil => cases h
        | cons a cs =>
          rw [List.head?_cons] at h
          cases h
          rw [go_crlf]
          have := key (acc.reverse ++ ['\r']) cs '\n' (by decide) (by rw [List.length_cons] at hn; omega)
          simpa using this
      · rw [go_other acc h]
        split
        · next hc =>
          have := key acc.reverse cs c hc (by omega)
          simpa using this
        · have := ih (c :: acc) cs (by omega) (by simp)
          simpa using this

theorem go_split (rest : Str) : ∀ (n : Nat) (acc a : Str), a.length ≤ n →
    splitLinesGo acc (a ++ '\n' :: rest) = splitLinesGo acc (a ++ ['\n']) ++ splitLinesGo [] rest := by
  have h0 : ∀ acc, splitLinesGo acc ('\n' :: rest) = splitLinesGo acc ['\n'] ++ splitLinesGo [] rest := by
    intro acc
    rw [go_other acc (by rintro ⟨h, -⟩; cases h), go_other acc (by rintro ⟨h, -⟩; cases h), if_pos (by decide), if_pos (by decide)]
    rfl
  intro n
  induction n with
  | zero =>
    intro acc a hn
    cases List.length_eq_zero_iff.1 (Nat.le_zero.1 hn)
    exact h0 acc
  | succ n ih =>
    intro acc a hn
    cases a with
    | nil => exact h0 acc
    | cons c a =>
      rw [List.length_cons] at hn
      by_cases h : c = '\r' ∧ (a ++ ['\n']).head? = some '\n'
      · obtain ⟨rfl, h⟩ := h
        cases a with
        | nil =>
          rw [List.singleton_append, List.singleton_append, go_crlf, go_crlf]
          rfl
        | cons b a =>
          rw [List.cons_append, List.head?_cons] at h
          cases h
          rw [List.cons_append, List.cons_append, List.cons_append, List.cons_append, go_crlf, go_crlf, ih [] a (by rw [List.length_cons] at hn; omega)]
          rfl
      · have h' : ¬ (c = '\r' ∧ (a ++ '\n' :: rest).head? = some '\n') := by
          cases a with
          | nil => exact h
          | cons b a => exact h
        rw [List.cons_append, List.cons_append, go_other acc h, go_other acc h']
        split
        · rw [ih [] a (by omega)]; rfl
        · rw [ih (c :: acc) a (by omega)]

theorem linesAt_pieces {lt : Str} (hlt : lt = ['\n'] ∨ lt = ['\r', '\n']) (acc text : Str) :
    AllPieces (linesAtGo lt acc text) (splitLinesGo [] (acc.reverse ++ text)) := by
  induction text generalizing acc with
  | nil =>
    rw [linesAtGo, List.append_nil]
    cases acc with
    | nil => exact .nil
    | cons c acc =>
      have := go_pieces _ [] (c :: acc).reverse (Nat.le_refl _) (by simp)
      have h := AllPieces.cons this .nil
      rw [List.append_nil] at h
      exact h
  | cons c cs ih =>
    rw [linesAtGo]
    split
    · next h =>
      have hc : c = '\n' := by
        rcases hlt with rfl | rfl <;> simp [List.isPrefixOf] at h
        · exact h.symm
        · exact h.1.symm
      subst hc
      rw [go_split cs _ [] acc.reverse (Nat.le_refl _)]
      have h1 := go_pieces _ [] (acc.reverse ++ ['\n']) (Nat.le_refl _) (by simp)
      have h2 := ih []
      rw [show ('\n' :: acc).reverse = acc.reverse ++ ['\n'] by simp]
      exact .cons h1 h2
    · have h2 := ih (c :: acc)
      rw [show (c :: acc).reverse ++ cs = acc.reverse ++ c :: cs by simp] at h2
      exact h2

theorem collect_rows (rows : List (List Str)) (err : Option PyErr) :
    ((collect none { pending := rows, err := err }).1.map Prod.snd, (collect none { pending := rows, err := err }).2.1) = (rows, err) := by
  unfold collect
  have := collectFuel_none (rows.length + 1) rows err (-1) [] (by simp)
  simp only at this ⊢
  rw [this.1, this.2, List.map_map]
  have e : (Prod.snd ∘ fun p : Int × Row => (p.1 + 1, p.2)) = Prod.snd := rfl
  rw [e, numberFrom_snd]

/-- The rows which are not blank. -/
def NotBlank (rows : List (List Str)) : List (List Str) := rows.filter fun r => decide (r ≠ [])

/-- **C97** Reading a file with `lineterminator='\n'` or `'\r\n'`, if it ends without exception, gives the rows which are read without this argument, also
without exception, except for blank rows; it cannot change data. -/
theorem C97_same {f : Fmt} (hd : OneLine [f.delimiter]) (hq : ∀ q, f.quotechar = some q → OneLine [q]) (he : ∀ e, f.escapechar = some e → OneLine [e])
    {lt : Str} (hlt : lt = ['\n'] ∨ lt = ['\r', '\n']) {text : Str} {rows : List (List Str)}
    (h : readFileAt { fmt := f } (some lt) text = .ok (rows, none)) :
    ∃ rows', readFile { fmt := f } text = (rows', none) ∧ NotBlank rows' = NotBlank rows := by
  have hone : ∀ {c : Char}, OneLine [c] → isNl c = false := by
    intro c hc
    unfold isNl
    simp only [Bool.or_eq_false_iff, beq_eq_false_iff_ne, ne_eq]
    constructor
    · rintro rfl; exact absurd (List.mem_singleton.2 rfl) hc.1
    · rintro rfl; exact absurd (List.mem_singleton.2 rfl) hc.2
  have hd' : NoNl f := ⟨hone hd, fun q h => hone (hq q h), fun e h => hone (he e h)⟩
  have hr : readRows f (linesAtGo lt [] (dropBom text)) = (rows, none) := by
    unfold readFileAt at h
    rcases hlt with rfl | rfl
    · simp only [true_or, if_true, Except.ok.injEq, collect_rows] at h
      exact h
    · simp only [or_true, if_true, Except.ok.injEq, collect_rows] at h
      exact h
  have := readRows_pieces hd' (linesAt_pieces hlt [] (dropBom text)) hr
  refine ⟨(readRows f (splitLines (dropBom text))).1, ?_, ?_⟩
  · rw [readFile_none]
    exact Prod.ext rfl this.2
  · have h1 := this.1
    unfold full at h1
    unfold NotBlank
    have hp : (fun r : List Str => decide (r ≠ [])) = fun r => !r.isEmpty := by
      funext r
      cases r <;> rfl
    rw [hp]
    exact h1

/-- Lines without line breaks, ended by `lt`, and maybe a last one without end. -/
inductive Ended (lt : Str) : Str → Prop where
  | nil : Ended lt []
  | last {l : Str} : OneLine l → Ended lt l
  | line {l text : Str} : OneLine l → Ended lt text → Ended lt (l ++ lt ++ text)

theorem linesAt_run {lt : Str} (hne : lt ≠ []) (hb : ∀ c ∈ lt, isNl c = true) {l : Str} (hl : OneLine l) (acc text : Str) :
    linesAtGo lt acc (l ++ text) = linesAtGo lt (l.reverse ++ acc) text := by
  induction l generalizing acc with
  | nil => rfl
  | cons c l ih =>
    have hl' : OneLine l := ⟨fun h => hl.1 (List.mem_cons_of_mem _ h), fun h => hl.2 (List.mem_cons_of_mem _ h)⟩
    rw [List.cons_append, linesAtGo, if_neg, ih hl']
    · simp
    · intro h
      have h := List.isPrefixOf_iff_prefix.1 h
      cases hr : lt.reverse with
      | nil => exact hne (by simpa using hr)
      | cons a r =>
        rw [hr] at h
        have hac : a = c := (List.cons_prefix_cons.1 h).1
        have ha : a ∈ lt := by
          rw [← List.mem_reverse, hr]; exact List.mem_cons_self
        have := hb a ha
        subst hac
        unfold isNl at this
        simp only [Bool.or_eq_true, beq_iff_eq] at this
        rcases this with rfl | rfl
        · exact hl.1 List.mem_cons_self
        · exact hl.2 List.mem_cons_self

theorem split_run {l : Str} (hl : OneLine l) (acc text : Str) : splitLinesGo acc (l ++ text) = splitLinesGo (l.reverse ++ acc) text := by
  induction l generalizing acc with
  | nil => rfl
  | cons c l ih =>
    have hl' : OneLine l := ⟨fun h => hl.1 (List.mem_cons_of_mem _ h), fun h => hl.2 (List.mem_cons_of_mem _ h)⟩
    have h1 : c ≠ '\r' := fun h => hl.2 (h ▸ List.mem_cons_self)
    have h2 : c ≠ '\n' := fun h => hl.1 (h ▸ List.mem_cons_self)
    have h3 : isNl c = false := by unfold isNl; simp [h1, h2]
    rw [List.cons_append, go_other acc (fun h => h1 h.1), h3, if_neg (by simp), ih hl']
    simp

theorem ended_lines {lt : Str} (hlt : lt = ['\n'] ∨ lt = ['\r'] ∨ lt = ['\r', '\n']) {text : Str} (h : Ended lt text) :
    linesAtGo lt [] text = splitLinesGo [] text := by
  have hne : lt ≠ [] := by rcases hlt with rfl | rfl | rfl <;> simp
  have hb : ∀ c ∈ lt, isNl c = true := by rcases hlt with rfl | rfl | rfl <;> decide
  have hlast : ∀ {l : Str}, OneLine l → linesAtGo lt [] l = splitLinesGo [] l := by
    intro l hl
    have h1 := linesAt_run hne hb hl [] []
    have h2 := split_run hl [] []
    rw [List.append_nil] at h1 h2
    rw [h1, h2, linesAtGo, splitLinesGo]
  induction h with
  | nil => rfl
  | last hl => exact hlast hl
  | @line l text hl ht ih =>
    rw [List.append_assoc, linesAt_run hne hb hl, split_run hl]
    rcases hlt with rfl | rfl | rfl
    · rw [List.singleton_append, linesAtGo, if_pos (by simp [List.isPrefixOf]), go_other _ (by rintro ⟨h, -⟩; cases h), if_pos (by decide), ih]
    · have hh : text.head? ≠ some '\n' := by
        cases ht with
        | nil => simp
        | last hl =>
          intro h
          cases text with
          | nil => cases h
          | cons a t => cases h; exact hl.1 List.mem_cons_self
        | @line l text hl _ =>
          intro h
          cases l with
          | nil => simp at h
          | cons a t => cases h; exact hl.1 List.mem_cons_self
      rw [List.singleton_append, linesAtGo, if_pos (by simp [List.isPrefixOf]), go_other _ (by rintro ⟨-, h⟩; exact hh h), if_pos (by decide), ih]
    · rw [List.cons_append, List.singleton_append, linesAtGo, if_neg (by simp [List.isPrefixOf]), linesAtGo, if_pos (by simp [List.isPrefixOf]), go_crlf, ih]

/-- **C97** If all line breaks of the file (also those in cells) are `lt`, then reading with `lineterminator=lt` is the same as reading without, for all dialects. -/
theorem C97_uniform (cfg : Cfg) {lt : Str} (hlt : lt = ['\n'] ∨ lt = ['\r'] ∨ lt = ['\r', '\n']) {text : Str} (h : Ended lt (dropBom text)) :
    readFileAt cfg (some lt) text = .ok (readFile cfg text) := by
  have e : readRows cfg.fmt (linesAtGo lt [] (dropBom text)) = readRows cfg.fmt (splitLines (dropBom text)) := by
    rw [ended_lines hlt h]; rfl
  have : readFileAt cfg (some lt) text = .ok (readFile cfg text) := by
    unfold readFileAt readFile openText
    rcases hlt with rfl | rfl | rfl <;> simp only [true_or, or_true, if_true, e]
  exact this

/-- Non-vacuity of `C97_same`: a cell with another line break; and of `C97_uniform`. -/
example : readFileAt Cfg.default (some ['\r', '\n']) "a,\"b\nc\"\r\nd,e\r\n".toList = .ok ([[['a'], "b\nc".toList], [['d'], ['e']]], none) ∧
    (OneLine [CsvLib.Fmt.excel.delimiter] ∧ (∀ q, CsvLib.Fmt.excel.quotechar = some q → OneLine [q]) ∧ ∀ e, CsvLib.Fmt.excel.escapechar = some e → OneLine [e]) ∧
    Ended ['\n'] (dropBom "a\n\"b\nc\"\n".toList) :=
  ⟨by decide +kernel, ⟨by decide, (by rintro q ⟨⟩; decide), (by rintro e ⟨⟩)⟩,
    .line (l := ['a']) (by decide) (.line (l := "\"b".toList) (by decide) (.line (l := "c\"".toList) (text := []) (by decide) .nil))⟩

/-- **C97** holds only up to blank rows, and only if there is no exception: with `'\r\n'`, empty lines which end with `\n` are not rows of their own, and a file
with other line ends cannot be read at all. -/
theorem C97_violated_blank :
    readFileAt Cfg.default (some ['\r', '\n']) "a\n\n\r\n".toList = .ok ([[['a']]], none) ∧ readFile Cfg.default "a\n\n\r\n".toList = ([[['a']], [], []], none) ∧
    readFileAt Cfg.default (some ['\r', '\n']) "a\nb\n".toList = .ok ([], some .csvError) ∧ readFile Cfg.default "a\nb\n".toList = ([[['a']], [['b']]], none) :=
  ⟨by decide +kernel, by decide +kernel, by decide +kernel, by decide +kernel⟩

/-- **C97** Other strings than line breaks are refused. -/
theorem C97_other (cfg : Cfg) {lt text : Str} (h : lt ≠ [] ∧ lt ≠ ['\n'] ∧ lt ≠ ['\r'] ∧ lt ≠ ['\r', '\n']) : readFileAt cfg (some lt) text = .error .valueError := by
  unfold readFileAt
  split
  · next h1 => cases h1
  · next h1 => cases h1; exact absurd rfl h.1
  · next lt' _ h1 =>
    cases h1
    rw [if_neg]
    rintro (h1 | h1 | h1)
    · exact h.2.1 h1
    · exact h.2.2.1 h1
    · exact h.2.2.2 h1

end Csvw.Props
