import Verif.Spec.Encoding
import Verif.Props.C94
/-!
# C96: encodings of data files
-/

namespace Csvw.Props
open Csvw Spec Table Dsv
open Csvw.Spec (All2)

section
variable {c : Codecs} {ext : Ext} {x : MExt} {t : Table}

theorem Codec.map {d : Dialect} {e : Str} (h : Codec c d e) : encodingMap d.encoding = e ∧ c.lookup e = .ok () := by
  cases h with
  | named h1 h2 h3 => exact ⟨by unfold encodingMap; rw [h1, if_neg h2], h3⟩
  | bom h1 h2 => exact ⟨by unfold encodingMap; rw [if_pos h1], h2⟩

theorem store_loaded {e : Str} (hl : Lossless c e) {s : Str} {b : Bytes} (hs : c.store e s = .ok b) : c.decode e b = .ok s := by
  unfold Codecs.store at hs
  split at hs
  · next h => cases hs; rw [h]; exact hl.empty
  · exact hl.same _ _ hs

theorem store_read {e : Str} (hl : Lossless c e) (hu : e = "utf-8".toList → Utf8Sig c) {s : Str} (hb : s.head? ≠ some Spec.bom) {b : Bytes}
    (hs : c.store e s = .ok b) : c.decode (readerEncoding e) b = .ok s := by
  have h := store_loaded hl hs
  unfold readerEncoding
  split
  · next he => rw [he] at h; exact (hu he).plain _ _ h hb
  · exact h

theorem keepBom_noBom {s : Str} (hb : s.head? ≠ some Spec.bom) : keepBom s = s := by
  cases s with
  | nil => rfl
  | cons a s =>
    show (if a.toNat = 0xfeff then a :: a :: s else a :: s) = a :: s
    rw [if_neg]
    intro h
    refine hb ?_
    rw [List.head?_cons]
    exact congrArg some (Char.toNat_inj.1 h)

theorem dropBom_keepBom (s : Str) : dropBom (keepBom s) = s := by
  cases s with
  | nil => rfl
  | cons a s =>
    show dropBom (if a.toNat = 0xfeff then a :: a :: s else a :: s) = a :: s
    by_cases h : a.toNat = 0xfeff
    · rw [if_pos h]
      show (if a.toNat = 0xfeff then a :: s else a :: a :: s) = a :: s
      rw [if_pos h]
    · rw [if_neg h]
      show (if a.toNat = 0xfeff then s else a :: s) = a :: s
      rw [if_neg h]

/-- **C96** A file in `utf-8` is read as its text: all that is said about `iterdicts` of a text holds for the file with this text, if the name of the encoding is `utf-8`. -/
theorem C96_text (hd : t.getDialect.encoding = "utf-8".toList) (hu : Utf8Sig c) {b : Bytes} {text : Str} (hb : c.decode "utf-8".toList b = .ok text)
    (strict log : Bool) : t.iterBytes c ext x strict log b = t.iterdicts ext x strict log text := by
  unfold iterBytes
  rw [hd, show readerEncoding (encodingMap "utf-8".toList) = "utf-8-sig".toList by decide]
  have key : ∃ s, c.decode "utf-8-sig".toList b = .ok s ∧ dropBom text = s := by
    by_cases h : text.head? = some Spec.bom
    · cases text with
      | nil => cases h
      | cons a s =>
        rw [List.head?_cons] at h
        cases h
        exact ⟨s, hu.mark _ _ hb, by show (if Spec.bom.toNat = 0xfeff then s else Spec.bom :: s) = s; rw [if_pos (by decide)]⟩
    · exact ⟨text, hu.plain _ _ hb h, dropBom_of_head h⟩
  obtain ⟨s, h1, h2⟩ := key
  rw [h1]
  cases hc : Cfg.ofDialect t.getDialect with
  | error e => unfold iterdicts; rw [hc]
  | ok cfg =>
    unfold iterdicts
    rw [hc]
    dsimp only
    unfold openText
    rw [dropBom_keepBom, h2]

/-- **C96** What `write` puts into a file in any lossless encoding is read as the text it has written. -/
theorem C96_file {e : Str} (he : Codec c t.getDialect e) (hl : Lossless c e) (hu : e = "utf-8".toList → Utf8Sig c) {text : Str}
    (hb : text.head? ≠ some Spec.bom) {b : Bytes} (hs : c.store e text = .ok b) (strict log : Bool) :
    t.iterBytes c ext x strict log b = t.iterdicts ext x strict log text := by
  unfold iterBytes
  rw [(Codec.map he).1, store_read hl hu hb hs]
  dsimp only
  rw [keepBom_noBom hb]
  cases hc : Cfg.ofDialect t.getDialect with
  | error e => unfold iterdicts; rw [hc]
  | ok cfg => rfl

/-- **C96** In a zip archive (or behind a URL), except for the encoding `UTF-8-BOM`, it is read as the text with newlines translated. -/
theorem C96_zip {e : Str} (he : Codec c t.getDialect e) (hn : t.getDialect.encoding ≠ "UTF-8-BOM".toList) (hl : Lossless c e) {text : Str}
    {b : Bytes} (hs : c.store e text = .ok b) (strict log : Bool) :
    t.iterWrapped c ext x strict log b = t.iterdicts ext x strict log (wrappedText text) := by
  cases he with
  | named h1 h2 h3 =>
    unfold iterWrapped
    rw [h1, h3]
    dsimp only
    rw [store_loaded hl hs]
  | bom h1 h2 => exact absurd h1 hn

/-- **C96** `write` fails only if it fails for the text, or the text cannot be encoded. -/
theorem C96_writes {e : Str} (he : Codec c t.getDialect e) {ver : CsvLib.CsvVer} {strict : Bool} {items : List Table.Item} {b : Bytes} :
    t.writeBytes c ext x ver strict items = .ok b ↔ ∃ text, t.write ext x ver strict items = .ok text ∧ c.store e text = .ok b := by
  unfold Table.writeBytes
  rw [(Codec.map he).1, (Codec.map he).2]
  dsimp only
  cases hw : t.write ext x ver strict items with
  | error r =>
    cases hc : Cfg.ofDialect t.getDialect <;> exact ⟨fun h => (by cases h), fun ⟨_, h, _⟩ => (by cases h)⟩
  | ok text =>
    cases hc : Cfg.ofDialect t.getDialect with
    | error r =>
      exfalso
      unfold Table.write at hw
      rw [hc] at hw
      cases hw
    | ok cfg =>
      constructor
      · intro h; exact ⟨text, rfl, h⟩
      · rintro ⟨_, h, h'⟩; cases h; exact h'

/-- **C96** Rows survive being written to a file in any lossless encoding which has all characters of the file, and being read from it, also if the file
was put into a zip archive (if the cells contain no carriage returns and the encoding is not `UTF-8-BOM`). -/
theorem C96_roundtrip {v : CsvLib.CsvVer} {strict : Bool} {dl q : Char} {lt : Str} {dicts : List RowDict} {rows : List (List Str)}
    (hcols : ∀ c ∈ t.schema.columns, c.virtual = false) (hn : t.colnames.Nodup) (hne : t.colnames ≠ [])
    (hcells : All2 (RowRoundTrips ext x t) dicts rows) (hk : ∀ d ∈ dicts, Dict.keys d = t.colnames)
    (hd : QuoteDialect v t.getDialect dl q lt) (hq : EscapesKept v t.getDialect (fileRows t rows))
    (hs : NoSkipping t.getDialect (fileRows t rows)) (hc : Storable t.getDialect (fileRows t rows))
    (hb : ¬ Spec.StartsWithBom (fileRows t rows)) {e : Str} (he : Codec c t.getDialect e) (hl : Lossless c e) (hu : e = "utf-8".toList → Utf8Sig c) {b : Bytes}
    (hw : t.writeBytes c ext x v strict (dicts.map .dict) = .ok b) (log : Bool) :
    ((t.iterBytes c ext x true log b).err = none ∧ (t.iterBytes c ext x true log b).rows.map Prod.snd = dicts) ∧
    (t.getDialect.encoding ≠ "UTF-8-BOM".toList → (∀ r ∈ fileRows t rows, ∀ s ∈ r, '\r' ∉ s) →
      (t.iterWrapped c ext x true log b).err = none ∧ (t.iterWrapped c ext x true log b).rows.map Prod.snd = dicts) := by
  obtain ⟨text, h1, h2⟩ := (C96_writes he).1 hw
  obtain ⟨text', h1', h3, h4⟩ := C37_same v strict log dl q lt hcols hn hne hcells hk hd hq hs hc hb
  rw [h1] at h1'
  cases h1'
  obtain ⟨k1, k2, k3⟩ := written_cells hcells (fun _ d hd' k hk' => by rw [← hk d hd']; exact hk') hd hq hc hb h1
  constructor
  · rw [C96_file he hl hu k2 h2]
    exact ⟨h3, h4⟩
  · intro hnb hnr
    rw [C96_zip he hnb hl h2, C94_same k3 k2 k1 hnr]
    exact ⟨h3, h4⟩

/-- **C96** The bytes which `write(…, fname=None)` returns are those of the file, if the encoding is `utf-8`. -/
theorem C96_returned (he : t.getDialect.encoding = "utf-8".toList) (v : CsvLib.CsvVer) (strict : Bool) (items : List Table.Item) :
    t.returnBytes c ext x v strict items = t.writeBytes c ext x v strict items := by
  unfold returnBytes Table.writeBytes
  rw [show encodingMap t.getDialect.encoding = "utf-8".toList by rw [he]; decide]

/-- **C96** The same for `UnicodeWriter` and `UnicodeReader` with a dialect. -/
theorem C96_dsv {v : CsvLib.CsvVer} {d : Dialect} {dl q : Char} {lt : Str} {rows : List (List Str)}
    (hd : QuoteDialect v d dl q lt) (hq : EscapesKept v d rows) (hs : NoSkipping d rows) (hc : Storable d rows) (hb : ¬ Spec.StartsWithBom rows)
    {e : Str} (he : Codec c d e) (hl : Lossless c e) (hu : e = "utf-8".toList → Utf8Sig c) {b : Bytes} (hw : Dsv.writeBytes c v d rows = .ok b) :
    Dsv.readBytes c d b = (rows, none) := by
  obtain ⟨cfg, text, h1, h2, h3, h4, h5⟩ := dialect_written hd hq hc hb
  unfold Dsv.writeBytes at hw
  rw [h1, (Codec.map he).1, (Codec.map he).2] at hw
  simp only [h3] at hw
  unfold Dsv.readBytes
  rw [h1, (Codec.map he).1]
  dsimp only
  rw [store_read hl hu h5 hw]
  dsimp only
  rw [keepBom_noBom h5]
  obtain ⟨f, dd⟩ := cfg
  cases h2
  exact readFile_transparent h4 hs.transparent

/-- **C96** A list of encoded lines is read like the list of these lines; for `utf-8`, if none of them begins with a byte order mark. -/
theorem C96_lines {d : Dialect} {cfg : Cfg} (hcfg : Cfg.ofDialect d = .ok cfg) {e : Str} (he : Codec c d e) (hl : Lossless c e)
    (hu : e = "utf-8".toList → Utf8Sig c) {ls : List Str} {bs : List Bytes} (hb : e = "utf-8".toList → ∀ s ∈ ls, s.head? ≠ some Spec.bom)
    (hs : All2 (fun s b => c.encode e s = .ok b) ls bs) : readByteLines c d bs = readSource cfg (.lines ls) := by
  have key : ∀ {ls : List Str} {bs : List Bytes}, All2 (fun s b => c.encode e s = .ok b) ls bs →
      (e = "utf-8".toList → ∀ s ∈ ls, s.head? ≠ some Spec.bom) → decodeLines c (readerEncoding e) bs = .ok ls := by
    intro ls bs hs
    induction hs with
    | nil => intro _; rfl
    | @cons s b ls bs h _ ih =>
      intro hb
      have h1 : c.decode (readerEncoding e) b = .ok s := by
        have h := hl.same _ _ h
        unfold readerEncoding
        split
        · next he => rw [he] at h; exact (hu he).plain _ _ h (hb he s List.mem_cons_self)
        · exact h
      unfold decodeLines
      rw [h1, ih fun he s hs => hb he s (List.mem_cons_of_mem _ hs)]
  unfold readByteLines
  rw [hcfg, (Codec.map he).1, key hs hb]

theorem default_head {v : CsvLib.CsvVer} {rows : List (List Str)} (hb : ¬ Spec.StartsWithBom rows) {text : Str}
    (h : writeFile v Cfg.default rows = .ok text) : text.head? ≠ some Spec.bom := by
  have h : writeFile v { fmt := CsvLib.Fmt.excel, dialect := none } rows = .ok text := h
  rw [writeFile_eq] at h
  simp only [escapeDoubled_none (f := CsvLib.Fmt.excel) (.inl rfl) rows] at h
  exact fun hx => hb (CsvLib.writeRows_head (wf_excel v) (dblOk_false (.inl rfl)) h (by decide) (by decide) (by decide) isNl_bom hx)

/-- **C96** The same with `encoding` as keyword argument and default settings, however the name of the encoding is spelled. (The encoding given to the reader may
be another name; by default, the writer uses `utf-8` and the reader `utf-8-sig`.) -/
theorem C96_keyword {v : CsvLib.CsvVer} {rows : List (List Str)} (hlen : ∀ r ∈ rows, ∀ s ∈ r, s.length ≤ 131072) (hb : ¬ Spec.StartsWithBom rows)
    {name : Str → Str} {e e' : Str} (he : c.lookup e = .ok ()) (he' : c.lookup e' = .ok ())
    (hn : name e' = name e ∨ name e = "utf-8".toList ∧ name e' = "utf-8-sig".toList)
    (hl : Lossless c (name e)) (hu : name e = "utf-8".toList → Utf8Sig c) :
    (∃ text, writeFile v Cfg.default rows = .ok text ∧ writeEncoded c name e v Cfg.default rows = c.store (name e) text) ∧
    ∀ b, writeEncoded c name e v Cfg.default rows = .ok b → readEncoded c name e' Cfg.default b = (rows, none) := by
  obtain ⟨text, h1, h2⟩ := C01_default_roundtrip v rows hlen hb
  have hw : writeEncoded c name e v Cfg.default rows = c.store (name e) text := by
    unfold writeEncoded
    rw [he, h1]
  refine ⟨⟨text, h1, hw⟩, fun b hx => ?_⟩
  rw [hw] at hx
  have hh := default_head hb h1
  have hr : readerEncoding (name e') = readerEncoding (name e) := by
    rcases hn with h | ⟨h, h'⟩
    · rw [h]
    · rw [h, h']; decide
  unfold readEncoded
  rw [he', hr, store_read hl hu hh hx]
  dsimp only
  rw [keepBom_noBom hh]
  exact h2

/-- **C96** With `encoding` as keyword argument, a byte order mark is dropped for any spelling of `utf-8`. -/
theorem C96_keyword_text {name : Str → Str} {e : Str} (he : c.lookup e = .ok ()) (hn : name e = "utf-8".toList) (hu : Utf8Sig c) {cfg : Cfg} {b : Bytes} {text : Str}
    (hb : c.decode "utf-8".toList b = .ok text) : readEncoded c name e cfg b = readFile cfg text := by
  unfold readEncoded
  rw [he, hn, show readerEncoding "utf-8".toList = "utf-8-sig".toList by decide]
  have key : c.decode "utf-8-sig".toList b = .ok (dropBom text) := by
    by_cases h : text.head? = some Spec.bom
    · cases text with
      | nil => cases h
      | cons a s =>
        rw [List.head?_cons] at h
        cases h
        have h2 : dropBom (Spec.bom :: s) = s := by
          show (if Spec.bom.toNat = 0xfeff then s else Spec.bom :: s) = s
          rw [if_pos (by decide)]
        rw [h2]
        exact hu.mark _ _ hb
    · rw [dropBom_of_head h]
      exact hu.plain _ _ hb h
  rw [key]
  dsimp only
  unfold readFile openText
  rw [dropBom_keepBom]

end
end Csvw.Props
