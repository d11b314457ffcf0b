import Verif.Lemmas.Datatype
import Verif.Py.StrLemmas
/-!
# C17: boolean

`Datatype.construct ext other s = .ok dt` is `dt = Datatype(**s)`; `dt.read ext x`, `dt.formatted ext v` are
`dt.read(x)`, `dt.formatted(v)`. `ext`/`other` are the external functions, arbitrary.
-/

namespace Csvw.Props
open Datatypes

theorem partition_bar {t f : Str} (ht : '|' ∉ t) : Py.partition '|' (t ++ '|' :: f) = (t, true, f) := by
  induction t with
  | nil => simp [Py.partition]
  | cons c t ih =>
    simp only [List.mem_cons, not_or] at ht
    have hc : ¬ c = '|' := fun h => ht.1 h.symm
    simp [Py.partition, hc, ih ht.2]

theorem convBase_boolean {b : Base} (h : Datatype.convBase (.str "boolean".toList) = .ok b) : b = .boolean := by
  have : Datatype.convBase (.str "boolean".toList) = .ok .boolean := by decide
  rw [this] at h
  simpa using h.symm

section
variable {ext : Ext} {other : Base → Derived → J → Res Val} {s : DatatypeSpec} {dt : Datatype}

theorem bool_read (hb : s.base = .str "boolean".toList) (h : Datatype.construct ext other s = .ok dt) (x : Str)
    {t f : List Str} (hd : boolDerived s.format = .bool t f) :
    dt.read ext x = (boolToPython t f x).map .bool := by
  have hB := Datatype.built_of_construct h
  have h1 := convBase_boolean (hb ▸ hB.base)
  have hf : dt.format = s.format := hB.format_kind (by rw [h1]; decide) (by rw [h1]; decide)
  have hp : dt.parse ext x = (boolToPython t f x).map .bool := by
    simp [Datatype.parse, Datatype.descr, h1, derived, Base.kind, toPython, hf, hd]
  unfold Datatype.read
  rw [hp]
  cases hr : boolToPython t f x with
  | error e => rfl
  | ok b =>
    simp only [Except.map]
    exact hB.validate_ok (by rw [h1]; rfl) (by rw [h1]; rfl) (.inr rfl)

theorem bool_formatted (hb : s.base = .str "boolean".toList) (h : Datatype.construct ext other s = .ok dt) (b : Bool)
    {t f : Str} {ts fs : List Str} (hd : boolDerived s.format = .bool (t :: ts) (f :: fs)) :
    dt.formatted ext (.bool b) = .ok (if b then t else f) := by
  have hB := Datatype.built_of_construct h
  have h1 := convBase_boolean (hb ▸ hB.base)
  have hf : dt.format = s.format := hB.format_kind (by rw [h1]; decide) (by rw [h1]; decide)
  cases b <;> simp [Datatype.formatted, Datatype.descr, h1, derived, Base.kind, toText, hf, hd]

theorem boolToPython_spec {t f : List Str} (hd : ∀ y ∈ t, y ∉ f) (x : Str) :
    ((boolToPython t f x).map Val.bool = .ok (.bool true) ↔ x ∈ t) ∧
    ((boolToPython t f x).map Val.bool = .ok (.bool false) ↔ x ∈ f) ∧
    (x ∉ t → x ∉ f → (boolToPython t f x).map Val.bool = .error .valueError) := by
  unfold boolToPython
  by_cases h1 : x ∈ t
  · have := hd x h1
    simp [h1, Except.map, this]
  · by_cases h2 : x ∈ f <;> simp [h1, h2, Except.map]

theorem boolDerived_format {t f : Str} (ht : '|' ∉ t) (hf : '|' ∉ f) :
    boolDerived (.str (t ++ '|' :: f)) = .bool [t] [f] := by
  have hc : (t ++ '|' :: f).count '|' = 1 := by
    simp [List.count_append, List.count_eq_zero_of_not_mem ht, List.count_eq_zero_of_not_mem hf]
  simp [boolDerived, hc, partition_bar ht]

theorem boolDerived_default {fmt : J} (hf : ∀ a, fmt = .str a → a.count '|' ≠ 1) :
    boolDerived fmt = .bool ["true".toList, "1".toList] ["false".toList, "0".toList] := by
  unfold boolDerived
  split
  · next a => rw [if_neg (hf a rfl)]
  · rfl

/-- **C17** With the format `t|f`, `read` accepts exactly the two tokens, with the right values, and raises `ValueError`
for every other string. -/
theorem C17_format_read (hb : s.base = .str "boolean".toList) {t f : Str} (hF : s.format = .str (t ++ '|' :: f))
    (ht : '|' ∉ t) (hf : '|' ∉ f) (hne : t ≠ f) (h : Datatype.construct ext other s = .ok dt) (x : Str) :
    (dt.read ext x = .ok (.bool true) ↔ x = t) ∧ (dt.read ext x = .ok (.bool false) ↔ x = f) ∧
    (x ≠ t → x ≠ f → dt.read ext x = .error .valueError) := by
  rw [bool_read hb h x (by rw [hF]; exact boolDerived_format ht hf)]
  simp only [boolToPython, List.mem_singleton]
  by_cases h1 : x = t
  · subst h1; simp [Except.map, hne]
  · by_cases h2 : x = f
    · subst h2; simp [Except.map, h1]
    · simp [Except.map, h1, h2]

/-- **C17** With the format `t|f`, formatting and reading back gives the same boolean. -/
theorem C17_format_roundtrip (hb : s.base = .str "boolean".toList) {t f : Str} (hF : s.format = .str (t ++ '|' :: f))
    (ht : '|' ∉ t) (hf : '|' ∉ f) (hne : t ≠ f) (h : Datatype.construct ext other s = .ok dt) (b : Bool) :
    ∃ x, dt.formatted ext (.bool b) = .ok x ∧ x = (if b then t else f) ∧ dt.read ext x = .ok (.bool b) := by
  refine ⟨_, bool_formatted hb h b (by rw [hF]; exact boolDerived_format ht hf), rfl, ?_⟩
  have := C17_format_read hb hF ht hf hne h (if b then t else f)
  cases b
  · exact this.2.1.2 rfl
  · exact this.1.2 rfl

/-- **C17** Without a (valid) format `read` accepts exactly `true`, `1`, `false`, `0`. -/
theorem C17_default_read (hb : s.base = .str "boolean".toList) (hF : ∀ a, s.format = .str a → a.count '|' ≠ 1)
    (h : Datatype.construct ext other s = .ok dt) (x : Str) :
    (dt.read ext x = .ok (.bool true) ↔ x = "true".toList ∨ x = "1".toList) ∧
    (dt.read ext x = .ok (.bool false) ↔ x = "false".toList ∨ x = "0".toList) ∧
    (x ∉ ["true".toList, "1".toList, "false".toList, "0".toList] → dt.read ext x = .error .valueError) := by
  rw [bool_read hb h x (boolDerived_default hF)]
  have := boolToPython_spec (t := ["true".toList, "1".toList]) (f := ["false".toList, "0".toList]) (by decide) x
  refine ⟨this.1.trans (by simp), this.2.1.trans (by simp), fun hx => this.2.2 (fun hm => hx ?_) (fun hm => hx ?_)⟩
  · rcases List.mem_cons.1 hm with rfl | hm
    · simp
    · simp only [List.mem_singleton] at hm; subst hm; simp
  · rcases List.mem_cons.1 hm with rfl | hm
    · simp
    · simp only [List.mem_singleton] at hm; subst hm; simp

/-- **C17** Without a (valid) format, formatting and reading back gives the same boolean. -/
theorem C17_default_roundtrip (hb : s.base = .str "boolean".toList) (hF : ∀ a, s.format = .str a → a.count '|' ≠ 1)
    (h : Datatype.construct ext other s = .ok dt) (b : Bool) :
    ∃ x, dt.formatted ext (.bool b) = .ok x ∧ dt.read ext x = .ok (.bool b) := by
  refine ⟨_, bool_formatted hb h b (boolDerived_default hF), ?_⟩
  have := C17_default_read hb hF h (if b then "true".toList else "false".toList)
  cases b
  · exact this.2.1.2 (.inl rfl)
  · exact this.1.2 (.inl rfl)

end

/-- Non-vacuity: `Datatype(base='boolean', format='Yea|Nay')` and `Datatype(base='boolean')` are constructed. -/
example (ext : Ext) (other : Base → Derived → J → Res Val) :
    Datatype.construct ext other { base := .str "boolean".toList, format := .str "Yea|Nay".toList }
      = .ok { base := .boolean, format := .str "Yea|Nay".toList } := rfl
example (ext : Ext) (other : Base → Derived → J → Res Val) :
    Datatype.construct ext other { base := .str "boolean".toList } = .ok { base := .boolean } := rfl
example : "Yea|Nay".toList = "Yea".toList ++ '|' :: "Nay".toList := rfl

end Csvw.Props
