import Verif.Lemmas.Breaks
import Verif.Lemmas.Dsv
import Verif.Lemmas.DsvRoundtrip
import Verif.Model.Lines
/-!
# C95: reading lists of lines
-/

namespace Csvw.Props
open Csvw Spec Dsv CsvLib Names

theorem plainNl_of {f : Fmt} (he : f.escapechar = none) (hd : OneLine [f.delimiter]) (hq : ∀ q, f.quotechar = some q → OneLine [q]) : PlainNl f :=
  ⟨he, (oneLine_cons.1 hd).1, fun q h => (oneLine_cons.1 (hq q h)).1⟩

theorem noNl_of {f : Fmt} (he : ∀ e, f.escapechar = some e → OneLine [e]) (hd : OneLine [f.delimiter]) (hq : ∀ q, f.quotechar = some q → OneLine [q]) : NoNl f :=
  ⟨(oneLine_cons.1 hd).1, fun q h => (oneLine_cons.1 (hq q h)).1, fun e h => (oneLine_cons.1 (he e h)).1⟩

/-- **C95** Every text has lines. -/
theorem C95_lines (text : Str) : ∃ ls ks, LinesOf text ls ks := lines_exist text

theorem iterrows_file (u : Unicode) (cfg : Cfg) (n d : Bool) (text : Str) : iterrowsOf u cfg n d (.file text) = iterrows u cfg n d text := by
  have hr : readSource cfg (.file text) = readFile cfg text := rfl
  unfold iterrowsOf iterrows itemsOf
  rw [hr]
  cases n <;> cases d
  · rfl
  · rfl
  · simp only [Bool.and_false, Bool.false_eq_true, if_false, if_true]
    unfold readNamed
    obtain ⟨rows, e⟩ := readFile cfg text
    cases rows <;> rfl
  · rfl

/-- What is yielded depends only on the rows `csv.reader` finds. -/
theorem readSource_congr {cfg : Cfg} {f g : Source} (h : f.enter cfg = g.enter cfg) (u : Unicode) (n d : Bool) :
    readSource cfg f = readSource cfg g ∧ iterrowsOf u cfg n d f = iterrowsOf u cfg n d g := by
  unfold iterrowsOf readSource
  rw [h]
  exact ⟨rfl, rfl⟩

/-- **C95** Lines with their ends are read like the file they are the lines of: rows, line numbers, comments, tuples, dicts and exceptions. -/
theorem C95_kept (cfg : Cfg) {text : Str} {ls ks : List Str} (hl : LinesOf text ls ks) (hb : text.head? ≠ some Spec.bom) (u : Unicode) (n d : Bool) :
    collect cfg.dialect ((Source.lines ks).enter cfg) = collect cfg.dialect ((Source.file text).enter cfg) ∧
    readSource cfg (.lines ks) = readFile cfg text ∧ iterrowsOf u cfg n d (.lines ks) = iterrows u cfg n d text := by
  have h : (Source.lines ks).enter cfg = (Source.file text).enter cfg := by
    unfold Source.enter openText
    dsimp only
    rw [dropBom_of_head hb, splitLines_of hl]
  have := readSource_congr h u n d
  exact ⟨by rw [h], this.1, this.2.trans (iterrows_file u cfg n d text)⟩

theorem lines_dropBom {text : Str} {ls ks : List Str} (hl : LinesOf text ls ks) :
    ∃ ls', LinesOf (dropBom text) ls' (match ks with | [] => [] | k :: r => if k = [Spec.bom] then r else dropBom k :: r) := by
  have hbody : ∀ {c : Char} {l : Str}, OneLine (c :: l) → OneLine (dropBom (c :: l)) := by
    intro c l h
    show OneLine (if c.toNat = 0xfeff then l else c :: l)
    split
    · exact (oneLine_cons.1 h).2
    · exact h
  have hnl : ∀ {c : Char}, c.toNat = 0xfeff → c = Spec.bom := by
    intro c h
    exact Char.toNat_inj.1 (h.trans (by decide))
  have happ : ∀ {c : Char} {l r : Str}, dropBom (c :: l ++ r) = dropBom (c :: l) ++ r := by
    intro c l r
    simp only [List.cons_append, dropBom]
    split <;> rfl
  cases hl with
  | nil => exact ⟨_, .nil⟩
  | last h1 h2 =>
    cases text with
    | nil => exact absurd rfl h1
    | cons c l =>
      dsimp only
      split
      · next h3 =>
        injection h3 with h3 h4
        subst h3 h4
        exact ⟨_, .nil⟩
      · next h3 =>
        refine ⟨_, .last ?_ (hbody h2)⟩
        show (if c.toNat = 0xfeff then l else c :: l) ≠ []
        split
        · next h4 =>
          rintro rfl
          rw [hnl h4] at h3
          exact h3 rfl
        · simp
  | @lf l text ls ks h1 h2 =>
    dsimp only
    cases l with
    | nil => exact ⟨_, by rw [if_neg (by decide)]; exact .lf (l := []) h1 h2⟩
    | cons c l =>
      rw [if_neg (by simp), happ, happ]
      exact ⟨_, .lf (hbody h1) h2⟩
  | @crlf l text ls ks h1 h2 =>
    dsimp only
    cases l with
    | nil => exact ⟨_, by rw [if_neg (by decide)]; exact .crlf (l := []) h1 h2⟩
    | cons c l =>
      rw [if_neg (by simp), happ, happ]
      exact ⟨_, .crlf (hbody h1) h2⟩
  | @cr l text ls ks h1 h3 h2 =>
    dsimp only
    cases l with
    | nil => exact ⟨_, by rw [if_neg (by decide)]; exact .cr (l := []) h1 h3 h2⟩
    | cons c l =>
      rw [if_neg (by simp), happ, happ]
      exact ⟨_, .cr (hbody h1) h3 h2⟩

theorem bom_line {text : Str} {ls r : List Str} (hl : LinesOf text ls ([Spec.bom] :: r)) : text = [Spec.bom] := by
  generalize hk : [Spec.bom] :: r = ks at hl
  have hnl : ∀ {l e : Str}, [Spec.bom] = l ++ e → '\n' ∈ e ∨ '\r' ∈ e → False := by
    intro l e h h1
    have hm : ∀ c ∈ e, c = Spec.bom := fun c hc => List.mem_singleton.1 (h ▸ List.mem_append_right l hc)
    rcases h1 with h1 | h1 <;> exact absurd (hm _ h1) (by decide)
  cases hl with
  | nil => cases hk
  | last h1 h2 => injection hk with hk _; exact hk.symm
  | lf h1 h2 => injection hk with hk _; exact (hnl hk (by simp)).elim
  | crlf h1 h2 => injection hk with hk _; exact (hnl hk (by simp)).elim
  | cr h1 h3 h2 => injection hk with hk _; exact (hnl hk (by simp)).elim

/-- **C95** The encoded lines of a file are read like the file, also if it begins with a byte order mark (which is not all of it). -/
theorem C95_encoded (cfg : Cfg) {text : Str} {ls ks : List Str} (hl : LinesOf text ls ks) (ht : text ≠ [Spec.bom])
    (hb : ∀ k ∈ ks.tail, k.head? ≠ some Spec.bom) (u : Unicode) (n d : Bool) :
    collect cfg.dialect ((Source.encoded ks).enter cfg) = collect cfg.dialect ((Source.file text).enter cfg) ∧
    readSource cfg (.encoded ks) = readFile cfg text ∧ iterrowsOf u cfg n d (.encoded ks) = iterrows u cfg n d text := by
  have h : (Source.encoded ks).enter cfg = (Source.file text).enter cfg := by
    obtain ⟨ls', h1⟩ := lines_dropBom hl
    unfold Source.enter openText
    dsimp only
    rw [splitLines_of h1]
    cases ks with
    | nil => rfl
    | cons k r =>
      dsimp only
      have hk : k ≠ [Spec.bom] := by
        rintro rfl
        exact ht (bom_line hl)
      rw [if_neg hk, List.map_cons]
      have : r.map dropBom = r := by
        conv => rhs; rw [← List.map_id r]
        exact List.map_congr_left fun a ha => dropBom_of_head (hb a ha)
      rw [this]
  have := readSource_congr h u n d
  exact ⟨by rw [h], this.1, this.2.trans (iterrows_file u cfg n d text)⟩

theorem readLines_none (f : Fmt) (ls : List Str) : readSource { fmt := f } (.lines ls) = readRows f ls := by
  unfold readSource collect Source.enter
  have := collectFuel_none ((readRows f ls).1.length + 1) (readRows f ls).1 (readRows f ls).2 (-1) [] (by simp)
  simp only at this ⊢
  rw [this.1, this.2, List.map_map]
  have e : (Prod.snd ∘ fun p : Int × Row => (p.1 + 1, p.2)) = Prod.snd := rfl
  rw [e, numberFrom_snd]

/-- **C95** Lines without their ends (as `str.splitlines` gives them): the cells which the whole file has, without the line breaks in
them, if there is no escape character. -/
theorem C95_cells {f : Fmt} (he : f.escapechar = none) (hd : OneLine [f.delimiter]) (hq : ∀ q, f.quotechar = some q → OneLine [q])
    {text : Str} {ls ks : List Str} (hl : LinesOf text ls ks) (hb : text.head? ≠ some Spec.bom) {rows : List Row}
    (h : readFile { fmt := f } text = (rows, none)) :
    readSource { fmt := f } (.lines ls) = (rows.map (·.map withoutBreaks), none) := by
  rw [readFile_none, dropBom_of_head hb] at h
  have h1 := readRows_rm (plainNl_of he hd hq) hl h
  rw [readLines_none, h1]

/-- **C95** If no cell contains a line break, then lines without their ends are read like the file they are the lines of, with any dialect: rows, line
numbers, comments, tuples, dicts and exceptions. -/
theorem C95_same {cfg : Cfg} (he : ∀ e, cfg.fmt.escapechar = some e → OneLine [e]) (hd : OneLine [cfg.fmt.delimiter]) (hq : ∀ q, cfg.fmt.quotechar = some q → OneLine [q])
    {text : Str} {ls ks : List Str} (hl : LinesOf text ls ks) (hb : text.head? ≠ some Spec.bom) {rows : List Row}
    (h : readFile { fmt := cfg.fmt } text = (rows, none)) (hn : ∀ r ∈ rows, ∀ c ∈ r, OneLine c) (u : Unicode) (n d : Bool) :
    collect cfg.dialect ((Source.lines ls).enter cfg) = collect cfg.dialect ((Source.file text).enter cfg) ∧
    readSource cfg (.lines ls) = readFile cfg text ∧ iterrowsOf u cfg n d (.lines ls) = iterrows u cfg n d text := by
  have hh : (Source.lines ls).enter cfg = (Source.file text).enter cfg := by
    rw [readFile_none, dropBom_of_head hb] at h
    unfold Source.enter openText
    dsimp only
    rw [dropBom_of_head hb, h, readRows_same (noNl_of he hd hq) hl h hn]
  have := readSource_congr hh u n d
  exact ⟨by rw [hh], this.1, this.2.trans (iterrows_file u cfg n d text)⟩

/-- The hypotheses are met by the default format and by a dialect with comments. -/
example : LinesOf "a,\"b\"\r\n#x\n1,\" 2\"".toList ["a,\"b\"".toList, "#x".toList, "1,\" 2\"".toList]
      ["a,\"b\"\r\n".toList, "#x\n".toList, "1,\" 2\"".toList] ∧
    readFile { fmt := Fmt.excel } "a,\"b\"\r\n#x\n1,\" 2\"".toList = ([[['a'], ['b']], ["#x".toList], [['1'], " 2".toList]], none) := by
  constructor
  · refine .crlf (l := "a,\"b\"".toList) (by decide +kernel) (.lf (l := "#x".toList) (by decide +kernel) (.last (by decide) (by decide +kernel)))
  · decide +kernel

/-- The hypotheses of `C95_same` are met by a format with escape character. -/
example : LinesOf "a,\\,b\r\nc".toList ["a,\\,b".toList, "c".toList] ["a,\\,b\r\n".toList, "c".toList] ∧
    readFile { fmt := { Fmt.excel with escapechar := some '\\', doublequote := false } } "a,\\,b\r\nc".toList =
      ([[['a'], ",b".toList], [['c']]], none) ∧ OneLine ['\\'] := by
  refine ⟨.crlf (l := "a,\\,b".toList) (by decide +kernel) (.last (by decide) (by decide +kernel)), by decide +kernel, by decide⟩

/-- **C95_cells** fails with escape character: an escaped end of line is a line feed in the cell, also if the line is read without its end. -/
theorem C95_violated_escape :
    LinesOf "a\\\nb\n".toList ["a\\".toList, "b".toList] ["a\\\n".toList, "b\n".toList] ∧
    readFile { fmt := { Fmt.excel with escapechar := some '\\', doublequote := false } } "a\\\nb\n".toList = ([["a\nb".toList]], none) ∧
    readSource { fmt := { Fmt.excel with escapechar := some '\\', doublequote := false } } (.lines ["a\\".toList, "b".toList]) =
      ([["a\nb".toList]], none) :=
  ⟨.lf (l := "a\\".toList) (by decide +kernel) (.lf (l := "b".toList) (text := []) (by decide +kernel) .nil), by decide +kernel, by decide +kernel⟩

/-- **C95** fails for cells with line breaks: two lines of text in a cell are joined without anything between them. -/
theorem C95_violated_newline :
    LinesOf "1,\"see\nbelow\"\n".toList ["1,\"see".toList, "below\"".toList] ["1,\"see\n".toList, "below\"\n".toList] ∧
    readFile Cfg.default "1,\"see\nbelow\"\n".toList = ([[['1'], "see\nbelow".toList]], none) ∧
    readSource Cfg.default (.lines ["1,\"see".toList, "below\"".toList]) = ([[['1'], "seebelow".toList]], none) :=
  ⟨.lf (l := "1,\"see".toList) (by decide +kernel) (.lf (l := "below\"".toList) (text := []) (by decide +kernel) .nil), by decide +kernel, by decide +kernel⟩

/-- **C95** A byte order mark is dropped from a file and from encoded lines, but not from lines of text, where it is part of the first cell. -/
theorem C95_violated_bom :
    readFile Cfg.default "\uFEFFa\n".toList = ([[['a']]], none) ∧ readSource Cfg.default (.encoded ["\uFEFFa\n".toList]) = ([[['a']]], none) ∧
    readSource Cfg.default (.lines ["\uFEFFa\n".toList]) = ([["\uFEFFa".toList]], none) := by
  refine ⟨by decide +kernel, by decide +kernel, by decide +kernel⟩

/-- **C95** Encoded lines lose a byte order mark at the beginning of every line. -/
theorem C95_violated_bom_line :
    readFile Cfg.default "a\n\uFEFFb\n".toList = ([[['a']], ["\uFEFFb".toList]], none) ∧
    readSource Cfg.default (.encoded ["a\n".toList, "\uFEFFb\n".toList]) = ([[['a']], [['b']]], none) := by
  refine ⟨by decide +kernel, by decide +kernel⟩

end Csvw.Props
