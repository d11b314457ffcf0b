import Verif.Lemmas.Binary
import Verif.Lemmas.Datatype
/-!
# C22–C25: binary data, normalized strings, formats of strings

`Datatype.construct ext other s = .ok dt` is `dt = Datatype(**s)`; `dt.read ext x`, `dt.formatted ext v` are
`dt.read(x)`, `dt.formatted(v)`. `ext`/`other` are the external functions, arbitrary.
-/

namespace Csvw.Props
open Datatypes

/-- A length `n` meets the length constraints which a datatype was given. -/
def LengthsMet (s : DatatypeSpec) (n : Nat) : Prop :=
  (∀ l ∈ s.length, (n : Int) = l) ∧ (∀ l ∈ s.minLength, l ≤ n) ∧ (∀ l ∈ s.maxLength, (n : Int) ≤ l)

instance (s : DatatypeSpec) (n : Nat) : Decidable (LengthsMet s n) := by unfold LengthsMet; infer_instance

section
variable {ext : Ext} {other : Base → Derived → J → Res Val} {s : DatatypeSpec} {dt : Datatype}

/-- Validation of a value with length `n` of a type without ordering. -/
theorem validate_len (hB : Datatype.Built ext other s dt) (hm : dt.base.minmax = false) {v : Val} {n : Nat}
    (hv : v ≠ .none) (hl : (if v.truthy ext then v.len? else some 0) = some n) :
    dt.validate ext v = if LengthsMet s n then .ok v else .error .valueError := by
  have h1 : dt.lengthOk ext v = true ↔ LengthsMet s n := by
    unfold Datatype.lengthOk LengthsMet
    rw [hl, hB.length, hB.minLength, hB.maxLength]
    cases s.length <;> cases s.minLength <;> cases s.maxLength <;> simp [and_assoc]
  unfold Datatype.validate
  rw [if_neg hv]
  by_cases h2 : LengthsMet s n
  · rw [if_pos (h1.2 h2), if_pos h2, hm]; rfl
  · rw [if_neg (fun h => h2 (h1.1 h)), if_neg h2]

theorem validate_bytes (hB : Datatype.Built ext other s dt) (hm : dt.base.minmax = false) (b : List UInt8) :
    dt.validate ext (.bytes b) = if LengthsMet s b.length then .ok (.bytes b) else .error .valueError :=
  validate_len hB hm (by simp) (by
    simp only [Val.truthy, Val.len?]
    cases b <;> simp)

theorem validate_str (hB : Datatype.Built ext other s dt) (hm : dt.base.minmax = false) (x : Str) :
    dt.validate ext (.str x) = if LengthsMet s x.length then .ok (.str x) else .error .valueError :=
  validate_len hB hm (by simp) (by
    simp only [Val.truthy, Val.len?]
    cases x <;> simp)

/-- The base of a datatype. -/
theorem base_of (hB : Datatype.Built ext other s dt) {b : Base} (hb : Datatype.convBase s.base = .ok b) : dt.base = b := by
  have := hB.base
  rw [hb] at this
  simpa using this.symm

/-! ## C22 -/

theorem hex_read (hb : s.base = .str "hexBinary".toList) (h : Datatype.construct ext other s = .ok dt) (x : Str) :
    dt.read ext x = match (if Bin.isAscii x then Bin.unhexlify x else none) with
      | some b => if LengthsMet s b.length then .ok (.bytes b) else .error .valueError
      | none => .error .valueError := by
  have hB := Datatype.built_of_construct h
  have hbase := base_of hB (b := .hexBinary) (by rw [hb]; decide)
  have hp : dt.parse ext x = match (if Bin.isAscii x then Bin.unhexlify x else none) with
      | some b => .ok (.bytes b) | none => .error .valueError := by
    simp only [Datatype.parse, Datatype.descr, hbase, derived, Base.kind, toPython]
    by_cases ha : Bin.isAscii x = true
    · simp only [ha, if_true]
      cases Bin.unhexlify x <;> rfl
    · simp only [ha]; rfl
  unfold Datatype.read
  rw [hp]
  cases (if Bin.isAscii x then Bin.unhexlify x else none) with
  | none => rfl
  | some b => exact validate_bytes hB (by rw [hbase]; rfl) b

theorem hex_formatted (hb : s.base = .str "hexBinary".toList) (h : Datatype.construct ext other s = .ok dt) (b : List UInt8) :
    dt.formatted ext (.bytes b) = .ok (Bin.hexlify b) := by
  have hB := Datatype.built_of_construct h
  have hbase := base_of hB (b := .hexBinary) (by rw [hb]; decide)
  simp [Datatype.formatted, Datatype.descr, hbase, derived, Base.kind, toText]

/-- **C22** Formatting bytes (of a length which the datatype allows) as `hexBinary` and reading them back gives the same bytes. -/
theorem C22_roundtrip (hb : s.base = .str "hexBinary".toList) (h : Datatype.construct ext other s = .ok dt)
    (b : List UInt8) (hl : LengthsMet s b.length) :
    ∃ x, dt.formatted ext (.bytes b) = .ok x ∧ dt.read ext x = .ok (.bytes b) := by
  refine ⟨_, hex_formatted hb h b, ?_⟩
  rw [hex_read hb h, Bin.hexlify_ascii, if_pos rfl, Bin.unhexlify_hexlify]
  simp only [hl, if_true]

/-- **C22** Formatting what was read from `x` gives `x` with upper case letters. -/
theorem C22_canonical (hb : s.base = .str "hexBinary".toList) (h : Datatype.construct ext other s = .ok dt)
    (x : Str) (v : Val) (hr : dt.read ext x = .ok v) : dt.formatted ext v = .ok (x.map Char.toUpper) := by
  rw [hex_read hb h] at hr
  split at hr
  · next b hx =>
    split at hr
    · simp only [Except.ok.injEq] at hr
      subst hr
      rw [hex_formatted hb h]
      split at hx
      · rw [(Bin.unhexlify_some hx).1]
      · simp at hx
    · simp at hr
  · simp at hr

/-- **C22** `read` accepts exactly the strings of even length of hexadecimal digits (with an allowed number of bytes) and
raises `ValueError` for all others. -/
theorem C22_accepts (hb : s.base = .str "hexBinary".toList) (h : Datatype.construct ext other s = .ok dt) (x : Str) :
    ((∃ v, dt.read ext x = .ok v) ↔
      (∀ c ∈ x, c ∈ "0123456789abcdefABCDEF".toList) ∧ ∃ n, x.length = 2 * n ∧ LengthsMet s n) ∧
    (∀ e, dt.read ext x = .error e → e = .valueError) := by
  rw [hex_read hb h]
  constructor
  · constructor
    · rintro ⟨v, hr⟩
      split at hr
      · next b hx =>
        split at hx
        · obtain ⟨_, h2, h3⟩ := Bin.unhexlify_some hx
          refine ⟨fun c hc => (Bin.hexVal_iff c).1 (h3 c hc), b.length, h2, ?_⟩
          split at hr
          · next hl => exact hl
          · simp at hr
        · simp at hx
      · simp at hr
    · rintro ⟨hc, n, hn, hl⟩
      have hc' : ∀ c ∈ x, (Bin.hexVal c).isSome = true := fun c hm => (Bin.hexVal_iff c).2 (hc c hm)
      obtain ⟨b, hu⟩ := Bin.unhexlify_isSome (by omega) hc'
      have hbl : b.length = n := by have := (Bin.unhexlify_some hu).2.1; omega
      rw [Bin.isAscii_of_hex hc', if_pos rfl, hu]
      exact ⟨.bytes b, by rw [← hbl] at hl; simp only [hl, if_true]⟩
  · intro e he
    split at he
    · split at he
      · simp at he
      · simpa using he.symm
    · simpa using he.symm

/-! ## C23 -/

theorem b64_read (hb : s.base = .str "base64Binary".toList ∨ s.base = .str "binary".toList)
    (h : Datatype.construct ext other s = .ok dt) (x : Str) :
    dt.read ext x = match (if Bin.isAscii x then Bin.decodebytes x else none) with
      | some b => if LengthsMet s b.length then .ok (.bytes b) else .error .valueError
      | none => .error .valueError := by
  have hB := Datatype.built_of_construct h
  have hbase : dt.base = .base64Binary ∨ dt.base = .binary := by
    rcases hb with hb | hb
    · exact .inl (base_of hB (by rw [hb]; decide))
    · exact .inr (base_of hB (by rw [hb]; decide))
  have hk : dt.base.kind = .base64 := by rcases hbase with h | h <;> rw [h] <;> rfl
  have hp : dt.parse ext x = match (if Bin.isAscii x then Bin.decodebytes x else none) with
      | some b => .ok (.bytes b) | none => .error .valueError := by
    simp only [Datatype.parse, Datatype.descr, hk, derived, toPython]
    by_cases ha : Bin.isAscii x = true
    · simp only [ha, if_true]
      cases Bin.decodebytes x <;> rfl
    · simp only [ha]; rfl
  unfold Datatype.read
  rw [hp]
  cases (if Bin.isAscii x then Bin.decodebytes x else none) with
  | none => rfl
  | some b => exact validate_bytes hB (by rw [Base.minmax, hk]) b

/-- **C23** Formatting bytes (of a length which the datatype allows) as `base64Binary` and reading them back gives the same
bytes. -/
theorem C23_roundtrip (hb : s.base = .str "base64Binary".toList ∨ s.base = .str "binary".toList)
    (h : Datatype.construct ext other s = .ok dt) (b : List UInt8) (hl : LengthsMet s b.length) :
    ∃ x, dt.formatted ext (.bytes b) = .ok x ∧ dt.read ext x = .ok (.bytes b) := by
  have hB := Datatype.built_of_construct h
  have hk : dt.base.kind = .base64 := by
    rcases hb with hb | hb
    · rw [base_of hB (b := .base64Binary) (by rw [hb]; decide)]; rfl
    · rw [base_of hB (b := .binary) (by rw [hb]; decide)]; rfl
  refine ⟨Py.strip (Bin.encodebytes b), ?_, ?_⟩
  · simp [Datatype.formatted, Datatype.descr, derived, hk, toText]
  · rw [b64_read hb h, Bin.isAscii_strip_encode, if_pos rfl, Bin.decode_strip_encode]
    simp only [hl, if_true]

/-- **C23** Two ASCII strings which agree up to characters outside of the base64 alphabet (for example line breaks) are read alike. -/
theorem C23_ignored_chars (hb : s.base = .str "base64Binary".toList ∨ s.base = .str "binary".toList)
    (h : Datatype.construct ext other s = .ok dt) (x y : Str) (hx : ∀ c ∈ x, c.toNat < 128) (hy : ∀ c ∈ y, c.toNat < 128)
    (hxy : x.filter (fun c => c ∈ "ABCDEFGHIJKLMNOPQRSTUVWXYZabcdefghijklmnopqrstuvwxyz0123456789+/=".toList) =
      y.filter (fun c => c ∈ "ABCDEFGHIJKLMNOPQRSTUVWXYZabcdefghijklmnopqrstuvwxyz0123456789+/=".toList)) :
    dt.read ext x = dt.read ext y := by
  have hk : ∀ z : Str, (∀ c ∈ z, c.toNat < 128) →
      z.filter (fun c => c ∈ "ABCDEFGHIJKLMNOPQRSTUVWXYZabcdefghijklmnopqrstuvwxyz0123456789+/=".toList) = z.filter Bin.keep := by
    intro z hz
    apply List.filter_congr
    intro c hc
    have key : ∀ m : Nat, m < 128 → decide (Char.ofNat m ∈
        "ABCDEFGHIJKLMNOPQRSTUVWXYZabcdefghijklmnopqrstuvwxyz0123456789+/=".toList) = Bin.keep (Char.ofNat m) := by decide +kernel
    have := key _ (hz c hc)
    rwa [Char.ofNat_toNat] at this
  have hd : Bin.decodebytes x = Bin.decodebytes y := by
    unfold Bin.decodebytes
    rw [← Bin.a2bGo_filter x, ← Bin.a2bGo_filter y, ← hk x hx, ← hk y hy, hxy]
  have ha : ∀ z : Str, (∀ c ∈ z, c.toNat < 128) → Bin.isAscii z = true := by
    intro z hz
    simpa [Bin.isAscii] using hz
  rw [b64_read hb h, b64_read hb h, ha x hx, ha y hy, hd]

/-! ## C24 -/

/-- A string in normal form: no tab, line feed, carriage return, no whitespace at either end. -/
def NormalForm (y : Str) : Prop :=
  '\t' ∉ y ∧ '\n' ∉ y ∧ '\r' ∉ y ∧ (∀ c ∈ y.head?, Py.isSpace c = false) ∧ (∀ c ∈ y.getLast?, Py.isSpace c = false)

theorem strip_head (s : Str) : ∀ c ∈ (Py.strip s).head?, Py.isSpace c = false := by
  intro c hc
  unfold Py.strip Py.rstrip Py.lstrip Py.lstripP Py.rstripP at hc
  -- the head of the right-stripped list is the head of the list
  have hd : ∀ l : Str, (∀ c ∈ l.head?, Py.isSpace c = false) → ∀ c ∈ ((l.reverse.dropWhile Py.isSpace).reverse).head?, Py.isSpace c = false := by
    intro l hl c hc
    have hpre : (l.reverse.dropWhile Py.isSpace).reverse <+: l := by
      have := List.dropWhile_suffix (l := l.reverse) Py.isSpace
      have := List.reverse_prefix.2 this
      rwa [List.reverse_reverse] at this
    obtain ⟨t, ht⟩ := hpre
    apply hl
    rw [← ht]
    cases hr : (l.reverse.dropWhile Py.isSpace).reverse with
    | nil => rw [hr] at hc; simp at hc
    | cons a r => rw [hr] at hc; simpa using hc
  refine hd (s.dropWhile Py.isSpace) ?_ c hc
  intro c hc
  cases hl : s.dropWhile Py.isSpace with
  | nil => rw [hl] at hc; simp at hc
  | cons a r =>
    rw [hl] at hc
    have := List.head_dropWhile_not Py.isSpace (l := s) (by rw [hl]; simp)
    simp only [hl, List.head_cons] at this
    simp only [List.head?_cons, Option.mem_def, Option.some.injEq] at hc
    rw [← hc]; exact this

theorem strip_last (s : Str) : ∀ c ∈ (Py.strip s).getLast?, Py.isSpace c = false := by
  intro c hc
  unfold Py.strip Py.rstrip Py.rstripP at hc
  rw [List.getLast?_reverse] at hc
  generalize (Py.lstrip s).reverse = l at hc
  cases hl : l.dropWhile Py.isSpace with
  | nil => rw [hl] at hc; simp at hc
  | cons a r =>
    rw [hl] at hc
    have := List.head_dropWhile_not Py.isSpace (l := l) (by rw [hl]; simp)
    simp only [hl, List.head_cons] at this
    simp only [List.head?_cons, Option.mem_def, Option.some.injEq] at hc
    rw [← hc]; exact this

theorem dropWhile_id {p : Char → Bool} {l : Str} (h : ∀ c ∈ l.head?, p c = false) : l.dropWhile p = l := by
  cases l with
  | nil => rfl
  | cons a l => exact List.dropWhile_cons_of_neg (by simp [h a (by simp)])

theorem strip_id {y : Str} (h1 : ∀ c ∈ y.head?, Py.isSpace c = false) (h2 : ∀ c ∈ y.getLast?, Py.isSpace c = false) :
    Py.strip y = y := by
  unfold Py.strip Py.rstrip Py.lstrip Py.lstripP Py.rstripP
  rw [dropWhile_id h1, dropWhile_id (by simpa using h2), List.reverse_reverse]

/-- The value of a `normalizedString`: tab, line feed and carriage return become blanks, then whitespace is stripped. -/
theorem norm_eq (x : Str) :
    normToPython x = Py.strip (x.map fun c => if c = '\t' ∨ c = '\n' ∨ c = '\r' then ' ' else c) := by
  unfold normToPython
  split
  · next h => subst h; rfl
  · congr 1
    simp only [Py.replace_char]
    rename_i hx
    clear hx
    induction x with
    | nil => rfl
    | cons c x ih =>
      simp only [List.flatMap_cons, List.flatMap_append, List.map_cons]
      rw [ih]
      by_cases h1 : c = '\r'
      · subst h1; rfl
      · by_cases h2 : c = '\n'
        · subst h2; rfl
        · by_cases h3 : c = '\t'
          · subst h3; rfl
          · simp [h1, h2, h3]

theorem norm_normalForm (x : Str) : NormalForm (normToPython x) := by
  rw [norm_eq]
  have hm : ∀ c ∈ x.map (fun c => if c = '\t' ∨ c = '\n' ∨ c = '\r' then ' ' else c), c ≠ '\t' ∧ c ≠ '\n' ∧ c ≠ '\r' := by
    intro c hc
    obtain ⟨d, _, rfl⟩ := List.mem_map.1 hc
    split
    · decide
    · next h => simpa [not_or] using h
  exact ⟨fun h => (hm _ (Py.mem_strip h)).1 rfl, fun h => (hm _ (Py.mem_strip h)).2.1 rfl,
    fun h => (hm _ (Py.mem_strip h)).2.2 rfl, strip_head _, strip_last _⟩

theorem norm_id {y : Str} (h : NormalForm y) : normToPython y = y := by
  obtain ⟨h1, h2, h3, h4, h5⟩ := h
  rw [norm_eq]
  have : y.map (fun c => if c = '\t' ∨ c = '\n' ∨ c = '\r' then ' ' else c) = y := by
    conv => rhs; rw [← List.map_id y]
    apply List.map_congr_left
    intro c hc
    rw [if_neg]
    · rfl
    · rintro (rfl | rfl | rfl)
      · exact h1 hc
      · exact h2 hc
      · exact h3 hc
  rw [this, strip_id h4 h5]

/-- What `read` of a `normalizedString` does (any format is ignored). -/
theorem norm_read (hb : s.base = .str "normalizedString".toList) (h : Datatype.construct ext other s = .ok dt) (x : Str) :
    dt.read ext x = if LengthsMet s (normToPython x).length then .ok (.str (normToPython x)) else .error .valueError := by
  have hB := Datatype.built_of_construct h
  have hbase := base_of hB (b := .normalizedString) (by rw [hb]; decide)
  have hp : dt.parse ext x = .ok (.str (normToPython x)) := by
    simp [Datatype.parse, Datatype.descr, hbase, derived, Base.kind, toPython]
  unfold Datatype.read
  rw [hp]
  exact validate_str hB (by rw [hbase]; rfl) _

/-- **C24** Whatever is read as `normalizedString` is a string in normal form. -/
theorem C24_normal_form (hb : s.base = .str "normalizedString".toList) (h : Datatype.construct ext other s = .ok dt)
    (x : Str) (v : Val) (hr : dt.read ext x = .ok v) : ∃ y, v = .str y ∧ NormalForm y := by
  rw [norm_read hb h] at hr
  split at hr
  · simp only [Except.ok.injEq] at hr
    exact ⟨_, hr.symm, norm_normalForm x⟩
  · simp at hr

/-- **C24** Reading is idempotent: what was read is read again unchanged. -/
theorem C24_idempotent (hb : s.base = .str "normalizedString".toList) (h : Datatype.construct ext other s = .ok dt)
    (x y : Str) (hr : dt.read ext x = .ok (.str y)) : dt.read ext y = .ok (.str y) := by
  rw [norm_read hb h] at hr ⊢
  split at hr
  · next hl =>
    simp only [Except.ok.injEq, Val.str.injEq] at hr
    subst hr
    rw [norm_id (norm_normalForm x), if_pos hl]
  · simp at hr

/-- **C24** A string in normal form (of a length which the datatype allows) is read unchanged. -/
theorem C24_unchanged (hb : s.base = .str "normalizedString".toList) (h : Datatype.construct ext other s = .ok dt)
    (y : Str) (hn : NormalForm y) (hl : LengthsMet s y.length) : dt.read ext y = .ok (.str y) := by
  rw [norm_read hb h, norm_id hn, if_pos hl]

/-- **C24** The value read is the string with tabs, line feeds and carriage returns replaced by blanks, stripped. (So it
contains the same other characters in the same order.) -/
theorem C24_value (hb : s.base = .str "normalizedString".toList) (h : Datatype.construct ext other s = .ok dt)
    (x y : Str) (hr : dt.read ext x = .ok (.str y)) :
    y = Py.strip (x.map fun c => if c = '\t' ∨ c = '\n' ∨ c = '\r' then ' ' else c) := by
  rw [norm_read hb h] at hr
  split at hr
  · simp only [Except.ok.injEq, Val.str.injEq] at hr
    rw [← hr, norm_eq]
  · simp at hr

/-! ## C25 -/

/-- The names of the datatypes whose values are plain strings with an optional format. -/
def stringTypes : List String := ["string", "QName", "gDay", "gMonth", "gMonthDay", "gYear", "gYearMonth", "xml", "html"]

theorem string_kind {t : String} (ht : t ∈ stringTypes) : ∃ b, Datatype.convBase (.str t.toList) = .ok b ∧ b.kind = .string := by
  simp only [stringTypes, List.mem_cons, List.not_mem_nil, or_false] at ht
  rcases ht with rfl | rfl | rfl | rfl | rfl | rfl | rfl | rfl | rfl
  · exact ⟨.string, by decide, rfl⟩
  · exact ⟨.QName, by decide, rfl⟩
  · exact ⟨.gDay, by decide, rfl⟩
  · exact ⟨.gMonth, by decide, rfl⟩
  · exact ⟨.gMonthDay, by decide, rfl⟩
  · exact ⟨.gYear, by decide, rfl⟩
  · exact ⟨.gYearMonth, by decide, rfl⟩
  · exact ⟨.xml, by decide, rfl⟩
  · exact ⟨.html, by decide, rfl⟩

theorem fullMatch_iff (f : Str → Nat → Bool) (v : Str) :
    fullMatch f v = true ↔ f v v.length = true ∨ ∃ u, v = u ++ ['\n'] ∧ f v u.length = true := by
  simp only [fullMatch, List.any_eq_true, List.mem_range, Bool.and_eq_true, atEnd, Bool.or_eq_true, beq_iff_eq]
  constructor
  · rintro ⟨n, _, hf, hn | ⟨hn, hl⟩⟩
    · subst hn; exact .inl hf
    · right
      obtain ⟨u, hu⟩ := List.getLast?_eq_some_iff.1 hl
      refine ⟨u, hu, ?_⟩
      have : u.length = n := by
        have := congrArg List.length hu
        simp at this; omega
      rwa [this]
  · rintro (hf | ⟨u, hu, hf⟩)
    · exact ⟨_, by omega, hf, .inl rfl⟩
    · refine ⟨u.length, ?_, hf, .inr ⟨?_, ?_⟩⟩
      · rw [hu]; simp; omega
      · rw [hu]; simp
      · rw [hu]; simp

theorem string_read {t : String} (ht : t ∈ stringTypes) (hb : s.base = .str t.toList)
    (h : Datatype.construct ext other s = .ok dt) (x : Str) :
    dt.read ext x = match stringToPython ext (stringDerived ext s.format) x with
      | .error e => .error e
      | .ok y => if LengthsMet s y.length then .ok (.str y) else .error .valueError := by
  have hB := Datatype.built_of_construct h
  obtain ⟨b, hcb, hbk⟩ := string_kind ht
  have hbase := base_of hB (b := b) (by rw [hb]; exact hcb)
  have hk : dt.base.kind = .string := by rw [hbase]; exact hbk
  have hf : dt.format = s.format := hB.format_kind (by simp [hk]) (by simp [hk])
  have hp : dt.parse ext x = (stringToPython ext (stringDerived ext s.format) x).map .str := by
    simp [Datatype.parse, Datatype.descr, derived, hk, toPython, hf]
  unfold Datatype.read
  rw [hp]
  cases stringToPython ext (stringDerived ext s.format) x with
  | error e => rfl
  | ok y => exact validate_str hB (by rw [Base.minmax, hk]) y

/-- **C25** (exact) Let `p` be a valid regular expression and `f v n` say that it matches the first `n` characters of `v`.
A string datatype with format `p` (and no length constraints) accepts exactly the strings which match as a whole, and in
addition those which match except for a final line feed; all others raise `ValueError`. What is accepted is read unchanged. -/
theorem C25_accepts_iff {t : String} (ht : t ∈ stringTypes) (hb : s.base = .str t.toList) {p : Str} (hp : p ≠ [])
    (hfmt : s.format = .str p) {f : Str → Nat → Bool} (hre : ext.re p = some f)
    (h : Datatype.construct ext other s = .ok dt) (x : Str) (hl : LengthsMet s x.length) :
    (dt.read ext x = .ok (.str x) ∨ dt.read ext x = .error .valueError) ∧
    (dt.read ext x = .ok (.str x) ↔ f x x.length = true ∨ ∃ u, x = u ++ ['\n'] ∧ f x u.length = true) := by
  rw [string_read ht hb h, hfmt]
  have hd : stringDerived ext (.str p) = .regex p := by simp [stringDerived, J.truthy, hp, hre]
  rw [hd]
  simp only [stringToPython, hre]
  rw [← fullMatch_iff]
  cases hm : fullMatch f x <;> simp [hl]

/-- **C25** On strings which do not end with a line feed, a string datatype with a format accepts exactly those which match
as a whole. -/
theorem C25_whole_value {t : String} (ht : t ∈ stringTypes) (hb : s.base = .str t.toList) {p : Str} (hp : p ≠ [])
    (hfmt : s.format = .str p) {f : Str → Nat → Bool} (hre : ext.re p = some f)
    (h : Datatype.construct ext other s = .ok dt) (x : Str) (hl : LengthsMet s x.length) (hx : x.getLast? ≠ some '\n') :
    dt.read ext x = .ok (.str x) ↔ f x x.length = true := by
  rw [(C25_accepts_iff ht hb hp hfmt hre h x hl).2]
  constructor
  · rintro (h | ⟨u, rfl, _⟩)
    · exact h
    · simp at hx
  · exact .inl

/-- **C25 does not hold**: with a format which matches `a` but not `a⏎`, the string `a⏎` is accepted. -/
theorem C25_violated {t : String} (ht : t ∈ stringTypes) (hb : s.base = .str t.toList) {p : Str} (hp : p ≠ [])
    (hfmt : s.format = .str p) {f : Str → Nat → Bool} (hre : ext.re p = some f)
    (h : Datatype.construct ext other s = .ok dt) (hl : s.length = none ∧ s.minLength = none ∧ s.maxLength = none)
    (h1 : f "a\n".toList 1 = true) (_h2 : f "a\n".toList 2 = false) :
    dt.read ext "a\n".toList = .ok (.str "a\n".toList) := by
  refine (C25_accepts_iff ht hb hp hfmt hre h _ ?_).2.2 (.inr ⟨['a'], rfl, h1⟩)
  simp [LengthsMet, hl.1, hl.2.1, hl.2.2]

/-- **C25** An invalid regular expression is ignored: every string (of an allowed length) is read unchanged. -/
theorem C25_invalid_regex {t : String} (ht : t ∈ stringTypes) (hb : s.base = .str t.toList) {p : Str}
    (hfmt : s.format = .str p) (hre : ext.re p = none) (h : Datatype.construct ext other s = .ok dt) (x : Str)
    (hl : LengthsMet s x.length) : dt.read ext x = .ok (.str x) := by
  rw [string_read ht hb h, hfmt]
  have hd : stringDerived ext (.str p) = .empty := by
    simp [stringDerived, hre]
  rw [hd]
  simp [stringToPython, hl]

/-- **C25** Without a format every string (of an allowed length) is read unchanged. -/
theorem C25_no_format {t : String} (ht : t ∈ stringTypes) (hb : s.base = .str t.toList)
    (hfmt : s.format = .null) (h : Datatype.construct ext other s = .ok dt) (x : Str)
    (hl : LengthsMet s x.length) : dt.read ext x = .ok (.str x) := by
  rw [string_read ht hb h, hfmt]
  simp [stringDerived, J.truthy, stringToPython, hl]

/-- The converse for the round trip: a string datatype formats strings unchanged. -/
theorem C25_formatted {t : String} (ht : t ∈ stringTypes) (hb : s.base = .str t.toList)
    (h : Datatype.construct ext other s = .ok dt) (x : Str) : dt.formatted ext (.str x) = .ok x := by
  have hB := Datatype.built_of_construct h
  obtain ⟨b, hcb, hbk⟩ := string_kind ht
  have hbase := base_of hB (b := b) (by rw [hb]; exact hcb)
  have hk : dt.base.kind = .string := by rw [hbase]; exact hbk
  simp [Datatype.formatted, Datatype.descr, derived, hk, toText]

end

/-! Non-vacuity -/

example (ext : Ext) (other : Base → Derived → J → Res Val) :
    Datatype.construct ext other { base := .str "hexBinary".toList, maxLength := some 4 }
      = .ok { base := .hexBinary, maxLength := some 4 } := rfl
example (ext : Ext) (other : Base → Derived → J → Res Val) :
    ∃ dt, Datatype.construct ext other { base := .str "base64Binary".toList } = .ok dt := ⟨_, rfl⟩
example (ext : Ext) (other : Base → Derived → J → Res Val) :
    ∃ dt, Datatype.construct ext other { base := .str "normalizedString".toList, format := .str "[a-z]+".toList } = .ok dt := ⟨_, rfl⟩
example (ext : Ext) (other : Base → Derived → J → Res Val) :
    ∃ dt, Datatype.construct ext other { base := .str "string".toList, format := .str "a".toList } = .ok dt := ⟨_, rfl⟩
example : LengthsMet { base := .str "hexBinary".toList, maxLength := some 4 } 3 := by decide
example : NormalForm "a  b".toList := by unfold NormalForm; decide
/-- A matcher for the regular expression `a`. -/
example : (fun (v : Str) (n : Nat) => n == 1 && v.head? == some 'a') "a\n".toList 1 = true ∧
    (fun (v : Str) (n : Nat) => n == 1 && v.head? == some 'a') "a\n".toList 2 = false := by decide

end Csvw.Props
