import Verif.Spec.Cells
import Verif.Spec.Dsv
import Verif.Py.StrLemmas
import Verif.Props.C17
import Verif.Props.C18_C19
import Verif.Props.C20_C21
import Verif.Props.C22_C25
import Verif.Props.C29
/-!
# C31–C33: cells
-/

namespace Csvw.Props
open Csvw.Spec Csvw.Datatypes

/-! ## C31: scalar cells -/

section
variable {ext : Ext} {c : CCol}

theorem fmt_serializes {v : Val} {s : Str} (hv : v ≠ .none) (h : Serializes ext c v s) : c.fmt ext v = .ok (.str s) := by
  unfold CCol.fmt
  rw [if_neg hv]
  unfold Serializes at h
  cases hd : c.datatype with
  | none => rw [hd] at h; simp only at h ⊢; rw [h]
  | some d => rw [hd] at h; simp only at h ⊢; rw [h.1]; rfl

theorem orDefault_of {s : Str} (h : NotDefaulted c s) : c.orDefault s = s := by
  unfold CCol.orDefault
  split
  · rename_i hs
    rcases h with h | h
    · exact absurd hs h
    · rw [h, hs]
  · rfl

/-- **C31** A value is written as its serialization. -/
theorem C31_written (hsep : c.separator = .ok none) {v : Val} {s : Str} (hv : v ≠ .none) (h : Serializes ext c v s) :
    c.write ext (.one v) = .ok (.str s) := by
  unfold CCol.write
  rw [hsep]
  exact fmt_serializes hv h

/-- **C31** A column without separator reads what it wrote: for every value with a serialization which the datatype reads
back, and which is no null marker. (If the serialization is empty, there must be no default value.) -/
theorem C31_roundtrip (hsep : c.separator = .ok none) {v : Val} {s : Str} (hv : v ≠ .none) (h : Serializes ext c v s)
    (hn : s ∉ c.null) (hd : NotDefaulted c s) :
    c.write ext (.one v) = .ok (.str s) ∧ c.read ext s = .ok (.one v) := by
  refine ⟨C31_written hsep hv h, ?_⟩
  unfold CCol.read
  simp only [orDefault_of hd]
  rw [if_neg (by simp [hn])]
  unfold CCol.prepare
  rw [hsep]
  simp only [if_neg hn]
  unfold Serializes at h
  cases hdt : c.datatype with
  | none => rw [hdt] at h; simp only at h; simp only [CCol.applyDt]; rw [h]
  | some d => rw [hdt] at h; simp only at h; simp only [CCol.applyDt, CCol.readItem]; rw [h.2]; rfl

/-- **C31** `None` is written as the first null marker and read back, if the column is not required. (If this is the empty
string, then the default value, which is read instead, must be a null marker, too, as it is if there is none.) -/
theorem C31_none (hsep : c.separator = .ok none) {n : Str} {r : List Str} (hnull : c.null = n :: r)
    (hreq : c.required = false) (hd : n ≠ [] ∨ c.default ∈ c.null) :
    c.write ext (.one .none) = .ok (.str n) ∧ c.read ext n = .ok (.one .none) := by
  constructor
  · unfold CCol.write; rw [hsep]; simp only [CCol.fmt, if_true, hnull]
  · unfold CCol.read
    rw [if_neg (by simp [hreq])]
    have hmem : c.orDefault n ∈ c.null := by
      unfold CCol.orDefault
      split
      · rename_i hn
        rcases hd with hd | hd
        · exact absurd hn hd
        · exact hd
      · rw [hnull]; exact List.mem_cons_self ..
    unfold CCol.prepare
    rw [hsep]
    simp only [if_pos hmem]
    cases c.datatype with
    | none => rfl
    | some d => rfl

/-- A column without null markers cannot represent `None`: `IndexError`. -/
theorem C31_none_index_error (hsep : c.separator = .ok none) (hnull : c.null = []) :
    c.write ext (.one .none) = .error .indexError := by
  unfold CCol.write; rw [hsep]; simp only [CCol.fmt, if_true, hnull]

/-- The claim reduced to the datatype: if the datatype round-trips the value, the column does. -/
theorem C31_of_datatype (hsep : c.separator = .ok none) {d : Datatype} (hdt : c.datatype = some d) {v : Val} (hv : v ≠ .none)
    (hrt : ∃ s, d.formatted ext v = .ok s ∧ d.read ext s = .ok v) :
    ∃ s, c.write ext (.one v) = .ok (.str s) ∧ (s ∉ c.null → NotDefaulted c s → c.read ext s = .ok (.one v)) := by
  obtain ⟨s, h1, h2⟩ := hrt
  have hs : Serializes ext c v s := by unfold Serializes; rw [hdt]; exact ⟨h1, h2⟩
  exact ⟨s, C31_written hsep hv hs, fun hn hd => (C31_roundtrip hsep hv hs hn hd).2⟩

variable {other : Base → Derived → J → Res Val} {s : DatatypeSpec} {d : Datatype}

/-- **C31** for columns without datatype: all strings. -/
theorem C31_plain (hsep : c.separator = .ok none) (hdt : c.datatype = none) (t : Str) (hn : t ∉ c.null)
    (hd : NotDefaulted c t) : c.write ext (.one (.str t)) = .ok (.str t) ∧ c.read ext t = .ok (.one (.str t)) :=
  C31_roundtrip hsep (by simp) (by unfold Serializes; rw [hdt]) hn hd

/-- **C31** for string types without format: all strings of admissible length. -/
theorem C31_string (hsep : c.separator = .ok none) (hdt : c.datatype = some d)
    {t : String} (ht : t ∈ stringTypes) (hb : s.base = .str t.toList) (hf : s.format = .null)
    (h : Datatype.construct ext other s = .ok d) (v : Str) (hl : LengthsMet s v.length) (hn : v ∉ c.null)
    (hd : NotDefaulted c v) : c.write ext (.one (.str v)) = .ok (.str v) ∧ c.read ext v = .ok (.one (.str v)) :=
  C31_roundtrip hsep (by simp)
    (by unfold Serializes; rw [hdt]; exact ⟨C25_formatted ht hb h v, C25_no_format ht hb hf h v hl⟩) hn hd

/-- **C31** for `boolean`, with the default format or a format `t|f`. -/
theorem C31_boolean (hsep : c.separator = .ok none) (hdt : c.datatype = some d) (hb : s.base = .str "boolean".toList)
    (hf : (∀ a, s.format = .str a → a.count '|' ≠ 1) ∨
      ∃ t f, s.format = .str (t ++ '|' :: f) ∧ '|' ∉ t ∧ '|' ∉ f ∧ t ≠ f)
    (h : Datatype.construct ext other s = .ok d) (b : Bool) :
    ∃ x, c.write ext (.one (.bool b)) = .ok (.str x) ∧ (x ∉ c.null → NotDefaulted c x → c.read ext x = .ok (.one (.bool b))) := by
  refine C31_of_datatype hsep hdt (by simp) ?_
  rcases hf with hf | ⟨t, f, hf, h1, h2, h3⟩
  · exact C17_default_roundtrip hb hf h b
  · obtain ⟨x, hx, _, hr⟩ := C17_format_roundtrip hb hf h1 h2 h3 h b
    exact ⟨x, hx, hr⟩

/-- **C31** for `integer`: numbers of up to 28 digits. -/
theorem C31_integer (hsep : c.separator = .ok none) (hdt : c.datatype = some d) (hb : s.base = .str "integer".toList)
    (hf : s.format = .null) (hs : NoBounds s) (h : Datatype.construct ext other s = .ok d) (n : Int) (hn : n.natAbs < 10 ^ 28) :
    ∃ x, c.write ext (.one (.int n)) = .ok (.str x) ∧ (x ∉ c.null → NotDefaulted c x → c.read ext x = .ok (.one (.int n))) :=
  C31_of_datatype hsep hdt (by simp) (C19_roundtrip_small hb hf hs h n hn)

/-- **C31** for `decimal`: numbers of up to 28 digits are read back with the same value. -/
theorem C31_decimal (hsep : c.separator = .ok none) (hdt : c.datatype = some d) (hb : s.base = .str "decimal".toList)
    (hf : s.format = .null) (hs : NoBounds s) (h : Datatype.construct ext other s = .ok d) (neg : Bool) (m k : Nat)
    (hm : m < 10 ^ 28) (hk : k ≤ 1000026) :
    ∃ x, c.write ext (.one (.dec (.fin neg m (-(k : Int))))) = .ok (.str x) ∧ (x ∉ c.null → NotDefaulted c x →
      ∃ neg' m' e', c.read ext x = .ok (.one (.dec (.fin neg' m' e'))) ∧
        Dec.value (.fin neg' m' e') = Dec.value (.fin neg m (-(k : Int)))) := by
  obtain ⟨x, neg', m', e', h1, h2, h3⟩ := C20_roundtrip_nonpos hb hf hs h neg m k hm hk
  refine ⟨x, ?_, fun hn hd => ⟨neg', m', e', ?_, h3⟩⟩
  · unfold CCol.write; rw [hsep]; simp only [CCol.fmt, hdt]; rw [if_neg (by simp), h1]; rfl
  · unfold CCol.read
    simp only [orDefault_of hd]
    rw [if_neg (by simp [hn])]
    unfold CCol.prepare
    rw [hsep]
    simp only [if_neg hn, hdt, CCol.applyDt, CCol.readItem, h2, Except.map]

/-- **C31** for binary types. -/
theorem C31_binary (hsep : c.separator = .ok none) (hdt : c.datatype = some d)
    (hb : s.base = .str "hexBinary".toList ∨ s.base = .str "base64Binary".toList ∨ s.base = .str "binary".toList)
    (h : Datatype.construct ext other s = .ok d) (b : List UInt8) (hl : LengthsMet s b.length) :
    ∃ x, c.write ext (.one (.bytes b)) = .ok (.str x) ∧ (x ∉ c.null → NotDefaulted c x → c.read ext x = .ok (.one (.bytes b))) := by
  refine C31_of_datatype hsep hdt (by simp) ?_
  rcases hb with hb | hb
  · exact C22_roundtrip hb h b hl
  · exact C23_roundtrip hb h b hl

/-- **C31** for `date` with one of the documented formats. -/
theorem C31_date (hsep : c.separator = .ok none) (hdt : c.datatype = some d) (hb : s.base = .str "date".toList)
    {p : DatePattern} (hp : p ∈ datePatterns14) (hf : s.format = .str p.text)
    (hs : NoBounds s) (h : Datatype.construct ext other s = .ok d) {y m dd : Nat} (hv : ValidDate y m dd) :
    ∃ x, c.write ext (.one (.dt { year := y, month := m, day := dd })) = .ok (.str x) ∧
      (x ∉ c.null → NotDefaulted c x → c.read ext x = .ok (.one (.dt { year := y, month := m, day := dd }))) :=
  C31_of_datatype hsep hdt (by simp) ⟨_, C29_roundtrip hb hp hf hs h hv⟩

end

/-- **C31 does not hold** for the empty string, even if it is no null marker: it is read as the default value. -/
theorem C31_violated_empty (ext : Ext) :
    ∃ c : CCol, c.separator = .ok none ∧ c.datatype = none ∧ ([] : Str) ∉ c.null ∧
      c.write ext (.one (.str [])) = .ok (.str []) ∧ c.read ext [] = .ok (.one (.str "x".toList)) :=
  ⟨⟨{ props := { default := "x".toList, null := ["NA".toList] } }, []⟩, rfl, rfl, by decide, rfl, rfl⟩

/-- **C31 does not hold** for `None` in columns with a default value: it is written as empty cell and read as default. -/
theorem C31_violated_none (ext : Ext) :
    ∃ c : CCol, c.separator = .ok none ∧ c.datatype = none ∧ c.required = false ∧
      c.write ext (.one .none) = .ok (.str []) ∧ c.read ext [] = .ok (.one (.str "x".toList)) :=
  ⟨⟨{ props := { default := "x".toList } }, []⟩, rfl, rfl, rfl, rfl, rfl⟩

/-- Non-vacuity: a column which inherits the datatype `integer` from the schema. -/
example (ext : Ext) (other : Base → Derived → J → Res Val) :
    ∃ c : CCol, ∃ d s, c.separator = .ok none ∧ c.datatype = some d ∧ Datatype.construct ext other s = .ok d ∧
      s.base = .str "integer".toList ∧ s.format = .null ∧ NoBounds s ∧ c.null = ["NA".toList, []] :=
  ⟨⟨{ props := { null := ["NA".toList, []] } }, [{ datatype := .dtype { base := .integer } }]⟩, { base := .integer },
    { base := .str "integer".toList }, rfl, rfl, rfl, rfl, rfl, ⟨rfl, rfl, rfl, rfl, rfl, rfl⟩, rfl⟩

/-! ## C32: lists -/

section
variable {ext : Ext} {c : CCol} {sep : Str}

theorem fmt_item {v : Val} {s : Str} (h : ItemOk ext c v s) : c.fmt ext v = .ok (.str s) := by
  rcases h with ⟨hv, hs, _, _⟩ | ⟨rfl, hn, _⟩
  · exact fmt_serializes hv hs
  · unfold CCol.fmt
    rw [if_pos rfl]
    cases hc : c.null with
    | nil => rw [hc] at hn; simp at hn
    | cons a r => rw [hc] at hn; simp at hn; rw [hn]

theorem fmtAll_items {vs : List Val} {ss : List Str} (h : All2 (ItemOk ext c) vs ss) : c.fmtAll ext vs = .ok ss := by
  induction h with
  | nil => rfl
  | cons h _ ih => simp only [CCol.fmtAll, fmt_item h, ih]

/-- What an item is read as. -/
theorem read_item {v : Val} {s : Str} (h : ItemOk ext c v s) :
    (match c.datatype with
      | none => .ok (CCol.rawVal (c.unNull (c.orDefault s)))
      | some d => CCol.readItem ext d (c.unNull (c.orDefault s))) = Except.ok v := by
  rcases h with ⟨hv, hs, hn, hd⟩ | ⟨rfl, hn, hd⟩
  · rw [orDefault_of hd]
    unfold CCol.unNull
    rw [if_neg hn]
    unfold Serializes at hs
    cases hdt : c.datatype with
    | none => rw [hdt] at hs; simp only at hs; rw [hs]; rfl
    | some d => rw [hdt] at hs; exact hs.2
  · have hmem : c.orDefault s ∈ c.null := by
      unfold CCol.orDefault
      split
      · rename_i hs
        rcases hd with hd | hd
        · exact absurd hs hd
        · exact hd
      · exact List.mem_of_mem_head? (by rw [hn]; rfl)
    unfold CCol.unNull
    rw [if_pos hmem]
    cases c.datatype <;> rfl

theorem applyDt_items {vs : List Val} {ss : List Str} (h : All2 (ItemOk ext c) vs ss) :
    CCol.applyDt ext c.datatype (.many (ss.map fun s => c.unNull (c.orDefault s))) = .ok (.many vs) := by
  cases hdt : c.datatype with
  | none =>
    simp only [CCol.applyDt, List.map_map, Except.ok.injEq, CVal.many.injEq]
    induction h with
    | nil => rfl
    | cons h _ ih =>
      have := read_item h
      rw [hdt] at this
      simp only [Except.ok.injEq] at this
      simp only [List.map_cons, Function.comp, this, ih]
  | some d =>
    simp only [CCol.applyDt]
    have : CCol.readItems ext d (ss.map fun s => c.unNull (c.orDefault s)) = .ok vs := by
      induction h with
      | nil => rfl
      | cons h _ ih =>
        have := read_item h
        rw [hdt] at this
        simp only at this
        simp only [List.map_cons, CCol.readItems, this, ih]
    rw [this]; rfl

/-- **C32** A list is written as its items' serializations joined by the separator. -/
theorem C32_written (hsep : c.separator = .ok (some sep)) {vs : List Val} {ss : List Str} (h : All2 (ItemOk ext c) vs ss) :
    c.write ext (.many vs) = .ok (.str (Py.join sep ss)) := by
  unfold CCol.write
  rw [hsep]
  simp only [CCol.itemsOf, fmtAll_items h, Except.map]

theorem sep_ne_nil (hsep : c.separator = .ok (some sep)) : sep ≠ [] := by
  unfold CCol.separator at hsep
  split at hsep
  · simp only [Except.ok.injEq, nonEmpty, Option.filter_eq_some_iff] at hsep
    simpa using hsep.2
  · split at hsep <;> simp at hsep
  · simp at hsep

/-- **C32** in full generality: a non-empty list, of values or `None`s, whose serializations (followed by the separator) do not
contain the separator earlier, and whose joined text is neither empty nor a null marker, is read back. -/
theorem C32_roundtrip (hsep : c.separator = .ok (some sep)) {vs : List Val} {ss : List Str} (h : All2 (ItemOk ext c) vs ss)
    (hne : vs ≠ []) (hearly : ∀ s ∈ ss, Py.NoEarly sep s) (hj : Py.join sep ss ≠ []) (hn : Py.join sep ss ∉ c.null) :
    c.write ext (.many vs) = .ok (.str (Py.join sep ss)) ∧ c.read ext (Py.join sep ss) = .ok (.many vs) := by
  refine ⟨C32_written hsep h, ?_⟩
  have hss : ss ≠ [] := by rintro rfl; cases h; exact hne rfl
  unfold CCol.read
  simp only [orDefault_of (c := c) (.inl hj)]
  rw [if_neg (by simp [hn])]
  unfold CCol.prepare
  rw [hsep]
  simp only [if_neg hj, if_neg hn, Py.split_join sep (sep_ne_nil hsep) ss hss hearly]
  exact applyDt_items h

/-- **C32** The empty list. -/
theorem C32_empty (hsep : c.separator = .ok (some sep)) (hd : c.default = []) (hr : c.required = false ∨ [] ∉ c.null) :
    c.write ext (.many []) = .ok (.str []) ∧ c.read ext [] = .ok (.many []) := by
  constructor
  · unfold CCol.write; rw [hsep]; rfl
  · unfold CCol.read
    simp only [orDefault_of (c := c) (.inr hd)]
    rw [if_neg (by rcases hr with hr | hr <;> simp [hr])]
    unfold CCol.prepare
    rw [hsep]
    cases hdt : c.datatype <;> rfl

theorem mem_join_of {ch : Char} {a b : Str} {r : List Str} : ch ∈ Py.join [ch] (a :: b :: r) := by
  rw [Py.join_cons_cons]; simp

/-- **C32** as stated, for a separator of one character which does not occur in null markers: every list of values whose
serializations do not contain the separator and are neither empty nor null markers. -/
theorem C32_char {ch : Char} (hsep : c.separator = .ok (some [ch])) (hnull : ∀ n ∈ c.null, ch ∉ n)
    (hd : c.default = []) (hr : c.required = false ∨ [] ∉ c.null)
    {vs : List Val} {ss : List Str} (h : All2 (fun v s => v ≠ .none ∧ Serializes ext c v s) vs ss)
    (hs : ∀ s ∈ ss, ch ∉ s ∧ s ≠ [] ∧ s ∉ c.null) :
    c.write ext (.many vs) = .ok (.str (Py.join [ch] ss)) ∧ c.read ext (Py.join [ch] ss) = .ok (.many vs) := by
  have hitem : All2 (ItemOk ext c) vs ss := by
    clear hr hd
    induction h with
    | nil => exact .nil
    | @cons a b as bs hab _ ih =>
      have hb := hs b (List.mem_cons_self ..)
      exact .cons (.inl ⟨hab.1, hab.2, hb.2.2, .inl hb.2.1⟩) (ih fun s hs' => hs s (List.mem_cons_of_mem _ hs'))
  cases h with
  | nil => exact C32_empty hsep hd hr
  | @cons a b as bs hab htl =>
    refine C32_roundtrip hsep hitem (by simp) (fun s hs' => Py.noEarly_char ch s (hs s hs').1) ?_ ?_
    · cases bs with
      | nil => exact (hs b (List.mem_cons_self ..)).2.1
      | cons b' bs => intro hj; have := mem_join_of (ch := ch) (a := b) (b := b') (r := bs); rw [hj] at this; simp at this
    · cases bs with
      | nil => exact (hs b (List.mem_cons_self ..)).2.2
      | cons b' bs => exact fun hj => hnull _ hj mem_join_of

end

/-- **C32 does not hold** for separators of several characters: no item contains `aa`, but `xa` and `y` are read as `x` and
`ay`. -/
theorem C32_violated_separator (ext : Ext) :
    ∃ c : CCol, c.separator = .ok (some "aa".toList) ∧ c.datatype = none ∧ c.null = [[]] ∧
      Py.contains "aa".toList "xa".toList = false ∧ Py.contains "aa".toList "y".toList = false ∧
      c.write ext (.many [.str "xa".toList, .str "y".toList]) = .ok (.str "xaaay".toList) ∧
      c.read ext "xaaay".toList = .ok (.many [.str "x".toList, .str "ay".toList]) :=
  ⟨⟨{ props := { separator := .str "aa".toList } }, []⟩, rfl, rfl, rfl, rfl, rfl, rfl, rfl⟩

/-- **C32 does not hold** if the text of the whole list is a null marker. -/
theorem C32_violated_null (ext : Ext) :
    ∃ c : CCol, c.separator = .ok (some ";".toList) ∧ c.datatype = none ∧ c.null = ["a;b".toList] ∧
      c.write ext (.many [.str "a".toList, .str "b".toList]) = .ok (.str "a;b".toList) ∧
      c.read ext "a;b".toList = .ok (.one .none) :=
  ⟨⟨{ props := { separator := .str ";".toList, null := ["a;b".toList] } }, []⟩, rfl, rfl, rfl, rfl, rfl⟩

/-- **C32 does not hold** for the empty list in required columns (with the default null marker), and in columns with a default
value. -/
theorem C32_violated_empty (ext : Ext) :
    (∃ c : CCol, c.separator = .ok (some ";".toList) ∧ c.datatype = none ∧
      c.write ext (.many []) = .ok (.str []) ∧ c.read ext [] = .error .valueError) ∧
    (∃ c : CCol, c.separator = .ok (some ";".toList) ∧ c.datatype = none ∧
      c.write ext (.many []) = .ok (.str []) ∧ c.read ext [] = .ok (.many [.str "x".toList])) :=
  ⟨⟨⟨{ props := { separator := .str ";".toList, required := .bool true } }, []⟩, rfl, rfl, rfl, rfl⟩,
   ⟨⟨{ props := { separator := .str ";".toList, default := "x".toList } }, []⟩, rfl, rfl, rfl, rfl⟩⟩

/-- **C32 does not hold** for `[None]` with the default null marker: it is written as empty cell, which is an empty list. -/
theorem C32_violated_single_none (ext : Ext) :
    ∃ c : CCol, c.separator = .ok (some ";".toList) ∧ c.datatype = none ∧
      c.write ext (.many [.none]) = .ok (.str []) ∧ c.read ext [] = .ok (.many []) :=
  ⟨⟨{ props := { separator := .str ";".toList } }, []⟩, rfl, rfl, rfl, rfl⟩

/-- Non-vacuity of `C32_char`: a list of two strings and, with `C32_roundtrip`, a list with a `None`. -/
example (ext : Ext) : ∃ c : CCol, c.separator = .ok (some [';']) ∧
    All2 (fun v s => v ≠ .none ∧ Serializes ext c v s) [.str "a b".toList, .str "c".toList] ["a b".toList, "c".toList] ∧
    All2 (ItemOk ext c) [.str "a".toList, .none] ["a".toList, []] ∧ Py.join [';'] ["a".toList, []] ∉ c.null :=
  ⟨⟨{ props := { separator := .str ";".toList } }, []⟩, rfl,
   .cons ⟨by simp, rfl⟩ (.cons ⟨by simp, rfl⟩ .nil),
   .cons (.inl ⟨by simp, rfl, by decide, .inl (by decide)⟩) (.cons (.inr ⟨rfl, rfl, .inr (by decide)⟩) .nil), by decide⟩

/-! ## C33: required columns -/

theorem map_ne_none {α : Type} {f : α → Val} {r : Res α} (h : r.map f = .ok .none) (hf : ∀ a, f a ≠ .none) : False := by
  cases r with
  | error e => simp [Except.map] at h
  | ok a => simp only [Except.map, Except.ok.injEq] at h; exact hf a h

theorem toPython_ne_none {ext : Ext} {b : Base} {d : Derived} {s : Str} (hb : b.kind ≠ .json)
    (h : toPython ext b d s = .ok .none) : False := by
  unfold toPython at h
  split at h
  all_goals try (exact absurd (by assumption) hb)
  all_goals (repeat' split at h)
  all_goals first
    | (simp only [Except.ok.injEq, reduceCtorEq] at h; done)
    | (simp only [reduceCtorEq] at h; done)
    | exact map_ne_none h (by simp)

theorem read_ne_none {ext : Ext} {d : Datatype} {s : Str} (hb : d.base.kind ≠ .json) :
    d.read ext s ≠ .ok .none := by
  intro h
  unfold Datatype.read Datatype.parse at h
  split at h
  · simp at h
  · rename_i v hv
    split at hv
    · simp at hv
    · unfold Datatype.validate at h
      split at h
      · rename_i h0
        rw [h0] at hv
        exact toPython_ne_none hb hv
      · rename_i h0
        split at h
        · split at h
          · cases hbo : Datatype.boundsOk ext d v with
            | error e => rw [hbo] at h; simp [Except.map] at h
            | ok _ => rw [hbo] at h; simp [Except.map] at h; exact h0 h
          · simp at h; exact h0 h
        · simp at h

/-- **C33** If a required column is read successfully, then the cell (with the default value instead of an empty cell) is no
null marker, and the value is not `None`. (Exception: datatype `json`, see below.) -/
theorem C33_required {ext : Ext} {c : CCol} {v : Str} {w : CVal} (hr : c.required = true)
    (hj : ∀ d, c.datatype = some d → d.base.kind ≠ .json) (h : c.read ext v = .ok w) :
    (if v = [] then c.default else v) ∉ c.null ∧ w ≠ .one .none := by
  unfold CCol.read at h
  simp only at h
  have hn : c.orDefault v ∉ c.null := by
    intro hn
    rw [if_pos (by simp [hr, hn])] at h
    simp at h
  refine ⟨hn, ?_⟩
  rintro rfl
  rw [if_neg (by simp [hn])] at h
  have key : ∀ r, c.prepare (c.orDefault v) = .ok r → r ≠ .none ∧ CCol.applyDt ext c.datatype r ≠ .ok (.one .none) := by
    intro r hp
    have hrn : (∃ s, r = .one s) ∨ ∃ l, r = .many l := by
      unfold CCol.prepare at hp
      split at hp
      · simp only [if_neg hn, Except.ok.injEq] at hp; exact .inl ⟨_, hp.symm⟩
      · split at hp
        · simp only [Except.ok.injEq] at hp; exact .inr ⟨_, hp.symm⟩
        · simp only [Except.ok.injEq] at hp; exact .inr ⟨_, hp.symm⟩
      · split at hp
        · simp only [Except.ok.injEq] at hp; exact .inr ⟨_, hp.symm⟩
        · simp at hp
    rcases hrn with ⟨s, rfl⟩ | ⟨l, rfl⟩
    · refine ⟨by simp, ?_⟩
      cases hd : c.datatype with
      | none => simp [CCol.applyDt]
      | some d =>
        simp only [CCol.applyDt, CCol.readItem]
        intro hh
        cases hx : d.read ext s with
        | error e => rw [hx] at hh; simp [Except.map] at hh
        | ok y =>
          rw [hx] at hh
          simp [Except.map] at hh
          rw [hh] at hx
          exact read_ne_none (hj d hd) hx
    · refine ⟨by simp, ?_⟩
      cases hd : c.datatype with
      | none => simp [CCol.applyDt]
      | some d =>
        simp only [CCol.applyDt]
        cases CCol.readItems ext d l <;> simp [Except.map]
  cases hp : c.prepare (c.orDefault v) with
  | error e => rw [hp] at h; simp at h
  | ok r => rw [hp] at h; exact (key r hp).2 h

/-- **C33** A null marker (or an empty cell, if the default value is a null marker) in a required column raises `ValueError`. -/
theorem C33_rejected {ext : Ext} {c : CCol} {v : Str} (hr : c.required = true)
    (hn : (if v = [] then c.default else v) ∈ c.null) : c.read ext v = .error .valueError := by
  unfold CCol.read
  have : c.orDefault v ∈ c.null := hn
  simp [hr, this]

/-- **C33** For every datatype: if a required column is read successfully, the cell is no null marker. -/
theorem C33_not_null {ext : Ext} {c : CCol} {v : Str} {w : CVal} (hr : c.required = true) (h : c.read ext v = .ok w) :
    (if v = [] then c.default else v) ∉ c.null := by
  intro hn
  rw [C33_rejected hr hn] at h
  cases h

/-- **C33 does not hold** for the datatype `json`: the JSON document `null` is `None`. -/
theorem C33_violated_json (ext : Ext) (h : ext.jsonLoads "null".toList = .ok .null) :
    ∃ c : CCol, c.required = true ∧ "null".toList ∉ c.null ∧ c.read ext "null".toList = .ok (.one .none) := by
  refine ⟨⟨{ props := { required := .bool true, datatype := .dtype { base := .json } } }, []⟩, rfl, by decide, ?_⟩
  have : Datatype.read ext { base := .json } "null".toList = .ok .none := by
    unfold Datatype.read Datatype.parse
    simp only [Datatype.descr, derived, Base.kind, J.truthy, toPython, h]
    rfl
  show (Datatype.read ext { base := .json } "null".toList).map CVal.one = _
  rw [this]; rfl

/-- Non-vacuity of `C33_required`: a required column, inheriting `required` from the table. -/
example (ext : Ext) : ∃ c : CCol, c.required = true ∧ (∀ d, c.datatype = some d → d.base.kind ≠ .json) ∧
    c.read ext "x".toList = .ok (.one (.str "x".toList)) ∧ c.read ext [] = .error .valueError :=
  ⟨⟨{}, [{}, { required := .bool true }]⟩, rfl, (fun d h => by cases h), rfl, rfl⟩

end Csvw.Props
