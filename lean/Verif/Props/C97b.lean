import Verif.Props.C97
import Verif.Props.C01_C04
import Verif.Lemmas.CoarseRt
/-!
# C97, continued: files which the library has written
-/

namespace Csvw.Props
open Csvw Dsv CsvLib Spec

theorem written_at {v : CsvVer} {f : Fmt} (w : WF v f) (hn : NoNl f) {lt : Str}
    (hlt : ((lt = ['\n'] ∨ lt = ['\r', '\n']) ∧ lt <:+ f.lineterminator) ∨ (lt = ['\r'] ∧ f.lineterminator = ['\r']))
    (he : f.escapechar = none) {rows : List Row} {dl : Option Dialect} (hok : ∀ r ∈ rows, ∀ s ∈ r, CellOk f s) (hb : ¬ Spec.StartsWithBom rows)
    (b1 : Spec.bom ≠ f.delimiter) (b2 : f.quotechar ≠ some Spec.bom) {t : Str} (h : writeFile v { fmt := f, dialect := dl } rows = .ok t) :
    readFileAt { fmt := f, dialect := dl } (some lt) t = .ok (readFile { fmt := f, dialect := dl } t) := by
  have ho := escapeDoubled_none (f := f) (.inl he) rows
  have hd := dblOk_false (v := v) (f := f) (.inl he)
  have h1 := read_written w hd ho hok hb b1 b2 (by rw [he]; simp) h
  have h2 : readRows f (linesAtGo lt [] (dropBom t)) = (rows, none) := by
    rw [writeFile_eq] at h
    simp only [ho] at h
    have hh : t.head? ≠ some Spec.bom := fun hx => hb (writeRows_head w hd h b1 b2 (by rw [he]; simp) isNl_bom hx)
    rw [dropBom_of_head hh]
    rcases hlt with ⟨hlt, hl⟩ | ⟨rfl, hl⟩
    · exact roundtrip_at w hn hlt hl hd h hok
    · exact roundtrip_atCr w hn hl hd h hok
  unfold readFileAt readFile openText
  rcases hlt with ⟨rfl | rfl, -⟩ | ⟨rfl, -⟩ <;> simp only [true_or, or_true, if_true, h1, h2]

/-- **C97** Files which `UnicodeWriter` has written are read back with `lineterminator='\n'` and `'\r\n'`: all rows, whatever line breaks their cells have. -/
theorem C97_written (v : CsvVer) (rows : List (List Str)) (hlen : ∀ r ∈ rows, ∀ s ∈ r, s.length ≤ 131072) (hb : ¬ Spec.StartsWithBom rows)
    {lt : Str} (hlt : lt = ['\n'] ∨ lt = ['\r', '\n']) :
    ∃ text, writeFile v Cfg.default rows = .ok text ∧ readFileAt Cfg.default (some lt) text = .ok (rows, none) := by
  obtain ⟨text, h1, h2⟩ := C01_default_roundtrip v rows hlen hb
  refine ⟨text, h1, ?_⟩
  have := written_at (dl := none) (wf_excel v) ⟨by decide, (by rintro q ⟨⟩; decide), (by rintro e ⟨⟩)⟩
    (.inl ⟨hlt, by
      rcases hlt with rfl | rfl
      · exact ⟨['\r'], rfl⟩
      · exact ⟨[], rfl⟩⟩) rfl (fun r hr s hs => ⟨hlen r hr s hs, by simp [Fmt.excel]⟩) hb (by decide) (by decide) h1
  rw [← h2]
  exact this

/-- **C97** Files written with a dialect (`doubleQuote=True`) are read back with the dialect's line terminator as `lineterminator`. -/
theorem C97_written_dialect (v : CsvVer) (d : Dialect) (dl q : Char) (lt : Str) (rows : List (List Str))
    (hd : QuoteDialect v d dl q lt) (hq : d.doubleQuote = true) (hs : NoSkipping d rows) (hc : Storable d rows)
    (hb : ¬ Spec.StartsWithBom rows) :
    ∃ cfg text, Cfg.ofDialect d = .ok cfg ∧ writeFile v cfg rows = .ok text ∧ readFileAt cfg (some lt) text = .ok (rows, none) := by
  obtain ⟨cfg, text, h1, h2, h3⟩ := C02_dialect_roundtrip v d dl q lt rows hd hq hs hc hb
  refine ⟨cfg, text, h1, h2, ?_⟩
  have hf := hd.toFmt
  rw [hq] at hf
  simp only [if_true] at hf
  have w := hd.wf hf (by simp [hq])
  have hcfg : cfg = ⟨qFmt dl q none true d.skipInitialSpace lt, some d⟩ := by
    simp [Cfg.ofDialect, hf] at h1
    exact h1.symm
  subst hcfg
  rw [← h3]
  exact written_at w ⟨isNl_false ⟨hd.delimOk.1, hd.delimOk.2.1⟩, (by rintro q' ⟨⟩; exact isNl_false ⟨hd.quoteOk.1, hd.quoteOk.2.1⟩), (by rintro e ⟨⟩)⟩
    (by rcases hd.isTerminator with h | h | h
        · exact .inl ⟨.inr h, List.suffix_refl _⟩
        · exact .inl ⟨.inl h, List.suffix_refl _⟩
        · exact .inr ⟨h, h⟩) rfl (fun r hr s hs' => hc r hr s hs') hb (Ne.symm hd.delimOk.2.2) (by simpa using hd.quoteOk.2.2) h2

/-- Non-vacuity: cells with line breaks of all kinds, an empty row. -/
example : ∃ rows : List (List Str), rows = [["a\nb".toList, "\r\n".toList], [], [['\r'], ['c']]] ∧ (∀ r ∈ rows, ∀ s ∈ r, s.length ≤ 131072) ∧
    ¬ Spec.StartsWithBom rows ∧ writeFile .py311 Cfg.default rows = .ok "\"a\nb\",\"\r\n\"\r\n\r\n\"\r\",c\r\n".toList ∧
    readFileAt Cfg.default (some ['\r', '\n']) "\"a\nb\",\"\r\n\"\r\n\r\n\"\r\",c\r\n".toList = .ok (rows, none) :=
  ⟨_, rfl, by decide, (by rintro ⟨c, r, t, h⟩; cases h), by decide +kernel, by decide +kernel⟩

end Csvw.Props
