import Verif.Props.C96
/-!
# C96: examples

Four of Python's codecs: `utf-8` (with the encoder and decoder of Lean's strings), under two names, `utf-8-sig`, and `latin-1`.
-/

namespace Csvw.Props
open Csvw Spec Table Dsv
open Csvw.Spec (All2)

/-- UTF-8. -/
noncomputable def utf8 (s : Str) : Bytes := s.flatMap String.utf8EncodeChar

/-- … and back. Python raises `UnicodeDecodeError`, a `ValueError`. -/
def ofUtf8 (b : Bytes) : Res Str :=
  match ByteArray.utf8Decode? b.toByteArray with
  | some a => .ok a.toList
  | none => .error .valueError

theorem ofUtf8_utf8 (s : Str) : ofUtf8 (utf8 s) = .ok s := by
  have h : ByteArray.utf8Decode? (utf8 s).toByteArray = some s.toArray := List.utf8Decode?_utf8Encode
  unfold ofUtf8
  rw [h]

theorem drop_bom (s : Str) : dropBom (Spec.bom :: s) = s := by
  show (if Spec.bom.toNat = 0xfeff then s else Spec.bom :: s) = s
  rw [if_pos (by decide)]

/-- Some of Python's codecs. -/
noncomputable def somePython : Codecs where
  lookup e := if ["utf-8".toList, "UTF-8".toList, "utf-8-sig".toList, "latin-1".toList].contains e then .ok () else .error .keyError
  encode e s :=
    if e = "utf-8".toList ∨ e = "UTF-8".toList then .ok (utf8 s)
    else if e = "utf-8-sig".toList then .ok (utf8 (Spec.bom :: s))
    else if e = "latin-1".toList then (if s.all (fun c => c.toNat < 256) then .ok (s.map fun c => UInt8.ofNat c.toNat) else .error .valueError)
    else .error .keyError
  decode e b :=
    if e = "utf-8".toList ∨ e = "UTF-8".toList then ofUtf8 b
    else if e = "utf-8-sig".toList then (ofUtf8 b).map dropBom
    else if e = "latin-1".toList then .ok (b.map fun c => Char.ofNat c.toNat)
    else .error .keyError

theorem some_sig : Utf8Sig somePython := by
  constructor
  · intro b s h hb
    have h : ofUtf8 b = .ok s := h
    show (ofUtf8 b).map dropBom = .ok s
    rw [h]
    exact congrArg Except.ok (dropBom_of_head hb)
  · intro b s h
    have h : ofUtf8 b = .ok (Spec.bom :: s) := h
    show (ofUtf8 b).map dropBom = .ok s
    rw [h]
    exact congrArg Except.ok (drop_bom s)

theorem some_utf8 : Lossless somePython "utf-8".toList := by
  constructor
  · intro s b h
    have h : Except.ok (utf8 s) = Except.ok (ε := PyErr) b := h
    cases h
    exact ofUtf8_utf8 s
  · exact ofUtf8_utf8 []

theorem some_upper : Lossless somePython "UTF-8".toList := by
  constructor
  · intro s b h
    have h : Except.ok (utf8 s) = Except.ok (ε := PyErr) b := h
    cases h
    exact ofUtf8_utf8 s
  · exact ofUtf8_utf8 []

theorem some_mark : Lossless somePython "utf-8-sig".toList := by
  constructor
  · intro s b h
    have h : Except.ok (utf8 (Spec.bom :: s)) = Except.ok (ε := PyErr) b := h
    cases h
    show (ofUtf8 (utf8 (Spec.bom :: s))).map dropBom = .ok s
    rw [ofUtf8_utf8]
    exact congrArg Except.ok (drop_bom s)
  · show (ofUtf8 (utf8 [])).map dropBom = .ok []
    rw [ofUtf8_utf8]
    rfl

theorem some_latin : Lossless somePython "latin-1".toList := by
  constructor
  · intro s b h
    have h : (if s.all (fun c => c.toNat < 256) then Except.ok (s.map fun c => UInt8.ofNat c.toNat) else Except.error PyErr.valueError) = .ok b := h
    split at h
    · next hs =>
      cases h
      show Except.ok ((s.map fun c => UInt8.ofNat c.toNat).map fun c => Char.ofNat c.toNat) = Except.ok s
      rw [List.map_map]
      congr 1
      rw [List.all_eq_true] at hs
      conv => rhs; rw [← List.map_id s]
      apply List.map_congr_left
      intro a ha
      have h1 : a.toNat < 256 := of_decide_eq_true (hs a ha)
      show Char.ofNat (UInt8.ofNat a.toNat).toNat = a
      rw [UInt8.toNat_ofNat', Nat.mod_eq_of_lt h1, Char.ofNat_toNat]
    · cases h
  · rfl

/-- A table with one column `a`, whose file has encoding `e`. -/
def encoded (e : Str) : Table :=
  { schema := { columns := [{ name := some ['a'], props := {}, number := 1 }] }, url := "t.csv".toList, dialect := some { encoding := e } }

/-- The hypotheses of the theorems are met: the value `ä`, in each of the four encodings. -/
theorem C96_example {ext : Ext} {x : MExt} {e name : Str}
    (h : (name, e) ∈ [("utf-8".toList, "utf-8".toList), ("UTF-8".toList, "UTF-8".toList), ("UTF-8-BOM".toList, "utf-8-sig".toList), ("latin-1".toList, "latin-1".toList)]) :
    Codec somePython (encoded name).getDialect e ∧ Lossless somePython e ∧ ∃ b, (encoded name).writeBytes somePython ext x .py311 true [.dict [(['a'], .one (.str ['ä']))]] = .ok b ∧
      (∀ log, ((encoded name).iterBytes somePython ext x true log b).err = none ∧
        ((encoded name).iterBytes somePython ext x true log b).rows.map Prod.snd = [[(['a'], .one (.str ['ä']))]]) := by
  have hd : (encoded name).getDialect = { encoding := name } := rfl
  have hc : Codec somePython (encoded name).getDialect e ∧ Lossless somePython e := by
    rw [hd]
    simp only [List.mem_cons, List.not_mem_nil, or_false, Prod.mk.injEq] at h
    rcases h with ⟨rfl, rfl⟩ | ⟨rfl, rfl⟩ | ⟨rfl, rfl⟩ | ⟨rfl, rfl⟩
    · exact ⟨.named rfl (by decide) rfl, some_utf8⟩
    · exact ⟨.named rfl (by decide) rfl, some_upper⟩
    · exact ⟨.bom rfl rfl, some_mark⟩
    · exact ⟨.named rfl (by decide) rfl, some_latin⟩
  have hq : QuoteDialect .py311 (encoded name).getDialect ',' '"' ['\r', '\n'] := by
    rw [hd]
    exact ⟨rfl, rfl, ⟨_, rfl⟩, .inl rfl, by decide, by decide, by decide, (by intro h; cases h), .inr rfl⟩
  have hcells : All2 (RowRoundTrips ext x (encoded name)) [[(['a'], .one (.str ['ä']))]] [[['ä']]] :=
    .cons (.cons ⟨⟨_, rfl, rfl⟩, rfl⟩ .nil) .nil
  have hrows : fileRows (encoded name) [[['ä']]] = [[['a']], [['ä']]] := rfl
  have hb : ¬ Spec.StartsWithBom (fileRows (encoded name) [[['ä']]]) := by
    rw [hrows]; rintro ⟨s, cells, rest, h⟩; cases h
  have hcols : ∀ c ∈ (encoded name).schema.columns, c.virtual = false := by
    intro c hc; have hc : c ∈ [_] := hc; rw [List.mem_singleton] at hc; subst hc; rfl
  have hn : (encoded name).colnames = [['a']] := rfl
  have hf : NoSkipping (encoded name).getDialect (fileRows (encoded name) [[['ä']]]) ∧ Storable (encoded name).getDialect (fileRows (encoded name) [[['ä']]]) ∧
      (encoded name).write ext x .py311 true [.dict [(['a'], .one (.str ['ä']))]] = .ok "a\r\nä\r\n".toList ∧
      ∃ b, somePython.store e "a\r\nä\r\n".toList = .ok b := by
    simp only [List.mem_cons, List.not_mem_nil, or_false, Prod.mk.injEq] at h
    rcases h with ⟨rfl, rfl⟩ | ⟨rfl, rfl⟩ | ⟨rfl, rfl⟩ | ⟨rfl, rfl⟩ <;>
      exact ⟨⟨rfl, rfl, rfl, (by decide), (by decide)⟩, (by unfold Storable; decide), rfl, ⟨_, rfl⟩⟩
  obtain ⟨hsk, hst, ht, hx⟩ := hf
  obtain ⟨b, hx⟩ := hx
  have hw := (C96_writes (ext := ext) (x := x) hc.1 (ver := .py311)).2 ⟨_, ht, hx⟩
  exact ⟨hc.1, hc.2, b, hw, fun log => (C96_roundtrip hcols (by rw [hn]; decide) (by rw [hn]; decide) hcells
    (by intro d hd; rw [List.mem_singleton] at hd; subst hd; rfl) hq (.inl (by rw [hd])) hsk hst hb hc.1 hc.2 (fun _ => some_sig) hw log).1⟩

/-- **C96 is violated** for the encoding `UTF-8-BOM` and zip archives: the encoding is accepted, and files in it are written and read, but what was put into
a zip archive cannot be read (`LookupError`). -/
theorem C96_violated_zip {ext : Ext} {x : MExt} (strict log : Bool) (b : Bytes) :
    convertEncoding somePython.lookup (.str "UTF-8-BOM".toList) = .ok (.str "UTF-8-BOM".toList, false) ∧
    (encoded "UTF-8-BOM".toList).iterWrapped somePython ext x strict log b = { err := some .keyError } := ⟨rfl, rfl⟩

/-- **C96 is violated** for `write(…, fname=None)` and encodings other than `utf-8`: it returns `utf-8`, which is not what is in the file; read with the encoding of the table, it is another value. -/
theorem C96_violated_returned {ext : Ext} {x : MExt} : ∃ b b',
    (encoded "latin-1".toList).writeBytes somePython ext x .py311 true [.dict [(['a'], .one (.str ['ä']))]] = .ok b ∧
    (encoded "latin-1".toList).returnBytes somePython ext x .py311 true [.dict [(['a'], .one (.str ['ä']))]] = .ok b' ∧
    ((encoded "latin-1".toList).iterBytes somePython ext x true false b).rows.map Prod.snd = [[(['a'], .one (.str ['ä']))]] ∧
    ((encoded "latin-1".toList).iterBytes somePython ext x true false b').rows.map Prod.snd = [[(['a'], .one (.str "Ã¤".toList))]] :=
  ⟨_, _, rfl, rfl, by rfl, by rfl⟩

/-- **C96 is violated** for other names of `utf-8`: for the encoding `UTF-8`, a byte order mark at the beginning of the file becomes part of the first
name; for `utf-8` it is dropped. -/
theorem C96_violated_name {ext : Ext} {x : MExt} : ∃ b, somePython.encode "utf-8".toList (Spec.bom :: "a\r\nb\r\n".toList) = .ok b ∧
    ((encoded "utf-8".toList).iterBytes somePython ext x true false b).rows.map Prod.snd = [[(['a'], .one (.str ['b']))]] ∧
    ((encoded "UTF-8".toList).iterBytes somePython ext x true false b).rows.map Prod.snd =
      [[(Spec.bom :: ['a'], .one (.str ['b'])), (['a'], .one .none)]] := by
  refine ⟨_, rfl, ?_, ?_⟩
  · rw [C96_text rfl some_sig (ofUtf8_utf8 _)]
    rfl
  · have hdec : somePython.decode "UTF-8".toList (utf8 (Spec.bom :: "a\r\nb\r\n".toList)) = .ok (Spec.bom :: "a\r\nb\r\n".toList) := some_upper.same _ _ rfl
    unfold iterBytes
    rw [show (somePython.decode (readerEncoding (encodingMap (encoded "UTF-8".toList).getDialect.encoding)) (utf8 (Spec.bom :: "a\r\nb\r\n".toList))) = .ok (Spec.bom :: "a\r\nb\r\n".toList) from hdec]
    rfl

/-- Non-vacuity of `C96_lines`: the lines `a`, `ä`, `b`, in `latin-1`; the second one, `a,"ä\nb"`, goes on in the third. -/
example : ∃ bs rows, All2 (fun s b => somePython.encode "latin-1".toList s = .ok b) ["a,b\n".toList, "a,\"ä\n".toList, "b\"\n".toList] bs ∧
    rows = [[['a'], ['b']], [['a'], "ä\nb".toList]] ∧ readByteLines somePython { encoding := "latin-1".toList } bs = (rows, none) :=
  ⟨_, _, .cons rfl (.cons rfl (.cons rfl .nil)), rfl, (C96_lines (c := somePython) (e := "latin-1".toList) (ls := ["a,b\n".toList, "a,\"ä\n".toList, "b\"\n".toList]) rfl (.named rfl (by decide) rfl) some_latin (fun h => (by cases h)) (fun h => (by cases h))
    (.cons rfl (.cons rfl (.cons rfl .nil)))).trans (by decide +kernel)⟩

/-- **C96 is violated** for the lines of a list in `utf-8`: a byte order mark is dropped from every one of them, while it is kept in a list of strings, and only the
first one is dropped in a file. -/
theorem C96_violated_lines : ∃ bs, All2 (fun s b => somePython.encode "utf-8".toList s = .ok b) [['a', '\n'], [Spec.bom, 'b', '\n']] bs ∧
    readByteLines somePython {} bs = ([[['a']], [['b']]], none) ∧
    ∃ b, somePython.encode "utf-8".toList ['a', '\n', Spec.bom, 'b', '\n'] = .ok b ∧ Dsv.readBytes somePython {} b = ([[['a']], [[Spec.bom, 'b']]], none) := by
  have h : ∀ s, somePython.decode "utf-8-sig".toList (utf8 s) = .ok (dropBom s) := by
    intro s
    show (ofUtf8 (utf8 s)).map dropBom = .ok (dropBom s)
    rw [ofUtf8_utf8]
    rfl
  refine ⟨_, .cons rfl (.cons rfl .nil), ?_, _, rfl, ?_⟩
  · unfold readByteLines
    rw [show readerEncoding (encodingMap ({} : Dialect).encoding) = "utf-8-sig".toList by decide]
    simp only [decodeLines, h]
    decide +kernel
  · unfold Dsv.readBytes
    rw [show readerEncoding (encodingMap ({} : Dialect).encoding) = "utf-8-sig".toList by decide, h]
    decide +kernel

/-- `codecs.lookup(e).name` for these codecs. -/
def pythonName (e : Str) : Str := if e = "UTF-8".toList then "utf-8".toList else e

/-- Non-vacuity of `C96_keyword`: rows with a byte order mark inside, written in `UTF-8` and read with the default `utf-8-sig`; and of `C96_keyword_text`. -/
example {rows : List (List Str)} (hr : rows = [["ä".toList, Spec.bom :: ['b']], []]) : ∃ b, writeEncoded somePython pythonName "UTF-8".toList .py311 Cfg.default rows = .ok b ∧
    readEncoded somePython pythonName "utf-8-sig".toList Cfg.default b = (rows, none) ∧
    readEncoded somePython pythonName "UTF-8".toList Cfg.default (utf8 (Spec.bom :: ['x'])) = ([[['x']]], none) := by
  have h := C96_keyword (c := somePython) (v := .py311) (rows := rows) (name := pythonName) (e := "UTF-8".toList) (e' := "utf-8-sig".toList)
    (by subst hr; decide) (by subst hr; rintro ⟨s, c, r, h⟩; cases h) rfl rfl (.inr ⟨by decide, by decide⟩) some_utf8 (fun _ => some_sig)
  obtain ⟨⟨text, -, h1⟩, h2⟩ := h
  have h3 : ∃ b, somePython.store (pythonName "UTF-8".toList) text = .ok b := by
    unfold Codecs.store
    split
    · exact ⟨_, rfl⟩
    · exact ⟨_, rfl⟩
  obtain ⟨b, h3⟩ := h3
  rw [h3] at h1
  refine ⟨b, h1, h2 b h1, ?_⟩
  rw [C96_keyword_text (c := somePython) rfl (by decide) some_sig (ofUtf8_utf8 _)]
  decide +kernel

end Csvw.Props
