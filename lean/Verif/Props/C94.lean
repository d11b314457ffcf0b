import Verif.Lemmas.Breaks
import Verif.Lemmas.DsvRoundtrip
import Verif.Spec.Files
import Verif.Props.C37
/-!
# C94: data are read from zip archives and URLs as from files, except for newlines in cells
-/

namespace Csvw.Props
open Csvw Spec Table Dsv CsvLib

section
variable {ext : Ext} {x : MExt} {fx : FExt} {t : Table}

theorem PlainNewlines.noNl {d : Dialect} (h : PlainNewlines d) {cfg : Cfg} (hc : Cfg.ofDialect d = .ok cfg) :
    NoNl cfg.fmt ∧ (NoEscape d → PlainNl cfg.fmt) := by
  unfold Cfg.ofDialect at hc
  cases hf : d.toFmt with
  | error e => rw [hf] at hc; cases hc
  | ok f =>
    rw [hf] at hc
    cases hc
    have hnl : ∀ {c : Char}, c ≠ '\r' → c ≠ '\n' → isNl c = false := by
      intro c h1 h2
      unfold isNl
      rw [Bool.or_eq_false_iff, beq_eq_false_iff_ne, beq_eq_false_iff_ne]
      exact ⟨h2, h1⟩
    unfold Dialect.toFmt at hf
    split at hf
    · cases hf
    · split at hf
      · next h1 h2 _ =>
        cases hf
        have hdel := hnl (fun e => h.delimiter.1 (h1.trans (congrArg (fun c => [c]) e))) (fun e => h.delimiter.2 (h1.trans (congrArg (fun c => [c]) e)))
        exact ⟨⟨hdel, (by rintro q ⟨⟩), (by rintro q ⟨⟩)⟩, fun _ => ⟨rfl, hdel, (by rintro q ⟨⟩)⟩⟩
      · next h1 h2 _ =>
        cases hf
        have hdel := hnl (fun e => h.delimiter.1 (h1.trans (congrArg (fun c => [c]) e))) (fun e => h.delimiter.2 (h1.trans (congrArg (fun c => [c]) e)))
        have hquote := hnl (fun e => h.quote.1 (h2.trans (congrArg (fun c => J.str [c]) e))) (fun e => h.quote.2 (h2.trans (congrArg (fun c => J.str [c]) e)))
        refine ⟨⟨hdel, fun q' hq' => by cases hq'; exact hquote, fun e he => ?_⟩, fun hesc => ⟨?_, hdel, fun q' hq' => by cases hq'; exact hquote⟩⟩
        · dsimp only at he
          split at he
          · cases he
          · next hq =>
            unfold Dialect.escapeCharacter at he
            rw [h2, if_neg (by simp), if_neg hq] at he
            cases he; decide
        · rcases hesc with h3 | h3
          · rw [h2] at h3; cases h3
          · simp only [h3, if_true]
      · cases hf

theorem wrappedText_noBom {s : Str} (h : s.head? ≠ some Spec.bom) : wrappedText s = translateNewlines s ∧ (translateNewlines s).head? ≠ some Spec.bom := by
  have hh : (translateNewlines s).head? ≠ some Spec.bom := by
    cases s with
    | nil => exact h
    | cons c s =>
      by_cases hc : c = '\r'
      · subst hc
        unfold translateNewlines
        split
        · next h1 => cases h1
        · rw [List.head?_cons]; decide
        · rw [List.head?_cons]; decide
        · next h1 h2 h3 => injection h3 with h3 _; exact absurd h3.symm h2
      · rw [translate_cons hc]
        exact h
  refine ⟨?_, hh⟩
  unfold wrappedText
  generalize translateNewlines s = u at hh
  cases u with
  | nil => rfl
  | cons c r =>
    show (if c = '\uFEFF' then c :: c :: r else c :: r) = c :: r
    rw [if_neg]
    intro hc
    exact hh (by rw [List.head?_cons, hc]; rfl)

/-- **C94** The cells read from the content of a zip archive or URL are the cells read from a file with this content, with newlines
translated, if the dialect has no escape character. -/
theorem C94_cells (hd : PlainNewlines t.getDialect) (he : NoEscape t.getDialect) {text : Str} (hb : text.head? ≠ some Spec.bom) {rows : List (List Str)} (h : CsvRows t text rows) :
    CsvRows t (wrappedText text) (rows.map (·.map translateNewlines)) := by
  obtain ⟨cfg, h1, h2, h3⟩ := h
  have hp := (PlainNewlines.noNl hd h1).2 he
  obtain ⟨w1, w2⟩ := wrappedText_noBom hb
  have hr : readRows cfg.fmt (splitLines text) = (rows, none) := by
    unfold openText at h2 h3
    rw [dropBom_of_head hb] at h2 h3
    exact Prod.ext h2 h3
  have := readRows_translate hp hr
  refine ⟨cfg, h1, ?_, ?_⟩
  · unfold openText; rw [w1, dropBom_of_head w2, this]
  · unfold openText; rw [w1, dropBom_of_head w2, this]

/-- **C94** If no cell contains a carriage return, then what is read from the content of a zip archive or URL is what is read from a file with this
content: rows, line numbers, warnings and exception are the same. -/
theorem C94_same (hd : PlainNewlines t.getDialect) {text : Str} (hb : text.head? ≠ some Spec.bom) {rows : List (List Str)} (h : CsvRows t text rows)
    (hn : ∀ r ∈ rows, ∀ c ∈ r, '\r' ∉ c) (strict log : Bool) :
    t.iterdicts ext x strict log (wrappedText text) = t.iterdicts ext x strict log text := by
  obtain ⟨cfg, h1, h2, h3⟩ := h
  obtain ⟨w1, w2⟩ := wrappedText_noBom hb
  have : openText cfg (wrappedText text) = openText cfg text := by
    unfold openText at h2 h3 ⊢
    rw [dropBom_of_head hb] at h2 h3 ⊢
    have hr : readRows cfg.fmt (splitLines text) = (rows, none) := Prod.ext h2 h3
    rw [w1, dropBom_of_head w2, readRows_noCr (PlainNewlines.noNl hd h1).1 hr hn, hr]
  unfold iterdicts
  rw [h1]
  dsimp only
  rw [this]

theorem content_read {d : Disk} {text : Str} {l : Loc} (h : Content fx d text l) :
    d.read fx l = .ok text ∨ d.read fx l = .ok (wrappedText text) := by
  unfold Disk.read
  cases h with
  | file h1 => left; simp only [h1]
  | url h1 => right; simp only [h1]; rfl
  | @zip p pre post name h1 h2 h3 h4 h5 =>
    right
    have hf : (pre ++ (name, text) :: post).find? (fun m => p.name.isSuffixOf m.1) = some (name, text) := by
      rw [List.find?_append, List.find?_eq_none.2, Option.none_or, List.find?_cons_of_pos]
      · rw [List.isSuffixOf_iff_suffix]; exact h5
      · intro m hm
        rw [List.isSuffixOf_iff_suffix]
        exact h4 m hm
    simp only [h1, h2, h3, hf]
    rfl

/-- **C94** It does not matter where the data come from: if a text without carriage returns in its cells (and without byte order mark) is the content
of a file, the content of the first suitable member of a zip archive in place of this file, or the content of a URL, then reading the table gives the
same rows, or fails with the same exception. -/
theorem C94_read (hd : PlainNewlines t.getDialect) {text : Str} (hb : text.head? ≠ some Spec.bom) {rows : List (List Str)} (h : CsvRows t text rows)
    (hn : ∀ r ∈ rows, ∀ c ∈ r, '\r' ∉ c) {d d' : Disk} {fname fname' : Option PPath} {l l' : Loc}
    (hl : t.location fx d fname = .ok l) (hl' : t.location fx d' fname' = .ok l') (hc : Content fx d text l) (hc' : Content fx d' text l') :
    t.readRows ext x fx d fname = t.readRows ext x fx d' fname' := by
  have key : ∀ {d : Disk} {fname : Option PPath} {l : Loc}, t.location fx d fname = .ok l → Content fx d text l →
      t.readRows ext x fx d fname = (match (t.iterdicts ext x true false text).err with
        | some e => .error e
        | none => .ok ((t.iterdicts ext x true false text).rows.map Prod.snd)) := by
    intro d fname l hl hc
    unfold Table.readRows
    rw [hl]
    rcases content_read hc with h1 | h1
    · simp only [h1]
      rfl
    · simp only [h1, C94_same hd hb h hn]
      rfl
  rw [key hl hc, key hl' hc']

/-- The cells of a file written by `Table.write`. -/
theorem written_cells {v : CsvVer} {strict : Bool} {dl q : Char} {lt : Str} {dicts : List RowDict} {rows : List (List Str)}
    (hcells : All2 (RowRoundTrips ext x t) dicts rows) (hk : strict = true → ∀ d ∈ dicts, ∀ k ∈ Dict.keys d, k ∈ t.colnames)
    (hd : QuoteDialect v t.getDialect dl q lt) (hq : EscapesKept v t.getDialect (fileRows t rows)) (hc : Storable t.getDialect (fileRows t rows))
    (hb : ¬ Spec.StartsWithBom (fileRows t rows)) {text : Str} (hw : t.write ext x v strict (dicts.map .dict) = .ok text) :
    CsvRows t text (fileRows t rows) ∧ text.head? ≠ some Spec.bom ∧ PlainNewlines t.getDialect := by
  obtain ⟨cfg, text', h1, _, h2, h3, h4⟩ := dialect_written hd hq hc hb
  rw [write_eq h1 hcells hk, h2] at hw
  cases hw
  refine ⟨⟨cfg, h1, ?_, ?_⟩, h4, ?_⟩
  · unfold openText; simp only [h3]
  · unfold openText; simp only [h3]
  · refine ⟨⟨fun h => ?_, fun h => ?_⟩, ⟨fun h => ?_, fun h => ?_⟩⟩
    · rw [hd.delimiter] at h; injection h with h; exact hd.delimOk.1 h
    · rw [hd.delimiter] at h; injection h with h; exact hd.delimOk.2.1 h
    · rw [hd.quoteChar] at h; injection h with h; injection h with h; exact hd.quoteOk.1 h
    · rw [hd.quoteChar] at h; injection h with h; injection h with h; exact hd.quoteOk.2.1 h

/-- The file which is written has no carriage returns in its cells if the cells which are written have none. -/
theorem written_noReturns {v : CsvVer} {strict : Bool} {dl q : Char} {lt : Str} {dicts : List RowDict} {rows : List (List Str)}
    (hcells : All2 (RowRoundTrips ext x t) dicts rows) (hk : ∀ d ∈ dicts, Dict.keys d = t.colnames)
    (hd : QuoteDialect v t.getDialect dl q lt) (hq : EscapesKept v t.getDialect (fileRows t rows)) (hc : Storable t.getDialect (fileRows t rows))
    (hb : ¬ Spec.StartsWithBom (fileRows t rows)) {text : Str} (hw : t.write ext x v strict (dicts.map .dict) = .ok text)
    (hn : ∀ r ∈ fileRows t rows, ∀ c ∈ r, '\r' ∉ c) : NoReturns t text := by
  obtain ⟨cfg, h1, h2, -⟩ := (written_cells hcells (fun _ d hd k hk' => by rw [← hk d hd]; exact hk') hd hq hc hb hw).1
  rintro rows' ⟨cfg', k1, k2, -⟩
  rw [h1] at k1
  cases k1
  rw [h2] at k2
  rw [← k2]
  exact hn

/-- Rows without carriage returns, written to a file or a zip archive, are read in the same way. -/
theorem written_asRead {v : CsvVer} {strict : Bool} {dl q : Char} {lt : Str} {dicts : List RowDict} {rows : List (List Str)}
    (hcells : All2 (RowRoundTrips ext x t) dicts rows) (hk : strict = true → ∀ d ∈ dicts, ∀ k ∈ Dict.keys d, k ∈ t.colnames)
    (hd : QuoteDialect v t.getDialect dl q lt) (hq : EscapesKept v t.getDialect (fileRows t rows)) (hc : Storable t.getDialect (fileRows t rows))
    (hb : ¬ Spec.StartsWithBom (fileRows t rows)) {text : Str} (hw : t.write ext x v strict (dicts.map .dict) = .ok text) {zipped : Bool}
    (hz : zipped = true → NoReturns t text) (strict' log : Bool) :
    t.iterdicts ext x strict' log (asRead zipped text) = t.iterdicts ext x strict' log text := by
  unfold asRead
  cases zipped with
  | false => rfl
  | true =>
    obtain ⟨h1, h2, h3⟩ := written_cells hcells hk hd hq hc hb hw
    exact C94_same h3 h2 h1 (hz rfl _ h1) strict' log

end

/-- A table with one column `a` of strings. -/
def noteTable : Table :=
  { schema := { columns := [{ name := some ['a'], props := {}, number := 1 }] }, url := "t.csv".toList }

section
variable (ext : Ext) (x : MExt)

/-- Non-vacuity: a file with line ends `\\r\\n`, a quoted cell with a line feed. -/
example : CsvRows noteTable "a\r\n\"x\ny\"\r\n".toList [[['a']], ["x\ny".toList]] ∧
    (∀ r ∈ [[['a']], ["x\ny".toList]], ∀ c ∈ r, '\r' ∉ c) ∧ PlainNewlines noteTable.getDialect ∧ NoEscape noteTable.getDialect ∧
    wrappedText "a\r\n\"x\ny\"\r\n".toList = "a\n\"x\ny\"\n".toList :=
  ⟨⟨_, rfl, by decide +kernel, by decide +kernel⟩, by decide +kernel, ⟨by decide +kernel, by decide +kernel⟩, .inr rfl, by decide +kernel⟩

/-- `noteTable` with escape character. -/
def escapedTable : Table := { noteTable with dialect := some { doubleQuote := false } }

/-- Non-vacuity with escape character: the cell `x"y` is written as `"x\\"y"`. -/
example : CsvRows escapedTable "a\r\n\"x\\\"y\"\r\n".toList [[['a']], ["x\"y".toList]] ∧
    (∀ r ∈ [[['a']], ["x\"y".toList]], ∀ c ∈ r, '\r' ∉ c) ∧ PlainNewlines escapedTable.getDialect ∧ ¬ NoEscape escapedTable.getDialect :=
  ⟨⟨_, rfl, by decide +kernel, by decide +kernel⟩, by decide +kernel, ⟨by decide +kernel, by decide +kernel⟩, by rintro (h | h) <;> cases h⟩

/-- **C94_cells does not hold** with escape character: the escaped line end `\r\n` ends the row of the file, but not the row of a zip archive or URL. -/
theorem C94_violated_escape :
    CsvRows escapedTable "a\n\\\r\nb\n".toList [[['a']], [['\r']], [['b']]] ∧
    CsvRows escapedTable (wrappedText "a\n\\\r\nb\n".toList) [[['a']], ["\nb".toList]] :=
  ⟨⟨_, rfl, by decide +kernel, by decide +kernel⟩, ⟨_, rfl, by decide +kernel, by decide +kernel⟩⟩

/-- **C94 does not hold** for cells with carriage returns: in the file, the value of `a` is `x\r\ny`, in a zip archive or behind a URL it is `x\ny`. -/
theorem C94_violated_newline :
    (noteTable.iterdicts ext x true false "a\n\"x\r\ny\"\n".toList).rows.map Prod.snd = [[(['a'], .one (.str "x\r\ny".toList))]] ∧
    (noteTable.iterdicts ext x true false (wrappedText "a\n\"x\r\ny\"\n".toList)).rows.map Prod.snd = [[(['a'], .one (.str "x\ny".toList))]] := by
  exact ⟨by rfl, by rfl⟩

/-- **C94 does not hold** for text with a byte order mark: in the file it is dropped, otherwise it is a part of the name
of the first column, and the column `a` is empty. -/
theorem C94_violated_bom :
    (noteTable.iterdicts ext x true false "\uFEFFa\nx\n".toList).rows.map Prod.snd = [[(['a'], .one (.str "x".toList))]] ∧
    (noteTable.iterdicts ext x true false (wrappedText "\uFEFFa\nx\n".toList)).rows.map Prod.snd = [[("\uFEFFa".toList, .one (.str "x".toList)), (['a'], .one .none)]] := by
  exact ⟨by rfl, by rfl⟩

end
end Csvw.Props
