import Verif.Lemmas.Dsv
/-! # Reading back files written by `UnicodeWriter` (helper lemmas for C01–C04, C08–C13) -/

namespace Csvw.Dsv
open CsvLib

theorem dropBom_of_head {t : Str} (h : t.head? ≠ some Spec.bom) : dropBom t = t := by
  cases t with
  | nil => rfl
  | cons c cs =>
    simp only [dropBom]
    rw [if_neg]
    intro hc
    apply h
    simp only [List.head?_cons, Option.some.injEq]
    apply Char.ext
    apply UInt32.toNat_inj.1
    simpa [Spec.bom] using hc

theorem flatMap_pre_false (f : Fmt) (s : Str) : s.flatMap (pre f false) = s := by
  induction s with
  | nil => rfl
  | cons c cs ih => simp [pre] at ih ⊢; exact ih

theorem isNl_bom : isNl Spec.bom = false := by decide

/-- Reading back a file. `orig` are the rows before the (possible) doubling of escape characters. -/
theorem read_written {v : CsvVer} {f : Fmt} (w : WF v f) {dbl : Bool} (hd : DblOk v f dbl)
    {rows orig : List Row} {dl : Option Dialect}
    (ho : rows.map (·.map (escapeDoubled f)) = orig.map (·.map (·.flatMap (pre f dbl))))
    (hok : ∀ r ∈ orig, ∀ s ∈ r, CellOk f s) (hb : ¬ Spec.StartsWithBom orig)
    (b1 : Spec.bom ≠ f.delimiter) (b2 : f.quotechar ≠ some Spec.bom) (b3 : f.escapechar ≠ some Spec.bom)
    {t : Str} (h : writeFile v { fmt := f, dialect := dl } rows = .ok t) :
    readRows f (splitLines (dropBom t)) = (orig, none) := by
  rw [writeFile_eq] at h
  simp only [ho] at h
  have hh : t.head? ≠ some Spec.bom := fun hx => hb (writeRows_head w hd h b1 b2 b3 isNl_bom hx)
  rw [dropBom_of_head hh, readRows_splitLines]
  exact roundtrip w hd h hok

theorem escapeDoubled_none {f : Fmt} (h : f.escapechar = none ∨ f.quoting = .none) (rows : List Row) :
    rows.map (·.map (escapeDoubled f)) = rows.map (·.map (·.flatMap (pre f false))) := by
  apply List.map_congr_left
  intro r _
  apply List.map_congr_left
  intro s _
  rw [flatMap_pre_false]
  unfold escapeDoubled
  rcases h with h | h
  · simp [h]
  · cases f.escapechar <;> simp [h]

theorem wf_excel (v : CsvVer) : WF v Fmt.excel where
  delim_nl := by decide
  quote := fun _ => ⟨'"', rfl, by decide, by decide⟩
  esc := by intro e he; simp [Fmt.excel] at he
  nl := .inr ⟨by simp [Fmt.excel], by simp [Fmt.excel]⟩
  lt := .inl rfl
  space := by simp [Fmt.excel]

theorem dblOk_false {v : CsvVer} {f : Fmt} (h : f.escapechar = none ∨ f.quoting = .none ∨ v.escEsc = true) :
    DblOk v f false := by
  refine ⟨by simp, fun _ => ?_⟩
  rcases h with h | h | h
  · exact .inr (.inr h)
  · exact .inr (.inl h)
  · exact .inl h

/-- Any file written with the default format reads back as the rows written. -/
theorem default_roundtrip (v : CsvVer) (rows : List Row)
    (hlen : ∀ r ∈ rows, ∀ s ∈ r, s.length ≤ 131072) (hb : ¬ Spec.StartsWithBom rows) :
    ∃ text, writeFile v Cfg.default rows = .ok text ∧ readFile Cfg.default text = (rows, none) := by
  obtain ⟨t, ht⟩ := writeRows_isOk (v := v) (d := Fmt.excel) (by simp [Fmt.excel]) (.inl rfl)
    (rows.map (·.map (escapeDoubled Fmt.excel)))
  have hw : writeFile v Cfg.default rows = .ok t := by rw [writeFile_eq]; exact ht
  refine ⟨t, hw, ?_⟩
  show readFile { fmt := Fmt.excel } t = _
  rw [readFile_none]
  exact read_written (dl := none) (wf_excel v) (dblOk_false (.inl rfl)) (escapeDoubled_none (.inl rfl) rows)
    (fun r hr s hs => ⟨hlen r hr s hs, by simp [Fmt.excel]⟩) hb (by decide) (by decide) (by decide) hw

/-- Reading with a dialect that passes the rows unchanged. -/
theorem readFile_transparent {f : Fmt} {d : Dialect} {t : Str} {rows : List Row}
    (h : readRows f (splitLines (dropBom t)) = (rows, none)) (ht : Transparent d rows) :
    readFile { fmt := f, dialect := some d } t = (rows, none) := by
  rw [readFile_dialect, h, Spec.numbered, yielded_transparent ht (-1) (by omega)]

end Csvw.Dsv
