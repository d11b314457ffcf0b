import Verif.Model.Datatype
/-!
# Consequences of successful construction of a `Datatype`
-/

namespace Csvw.Datatype
open Datatypes

variable {ext : Ext} {other : Base → Derived → J → Res Val} {s : DatatypeSpec} {dt : Datatype}

/-- What a successfully constructed datatype looks like: `fmt` is the format before a bad pattern is dropped. -/
structure Built (ext : Ext) (other : Base → Derived → J → Res Val) (s : DatatypeSpec) (dt : Datatype) : Prop where
  base : convBase s.base = .ok dt.base
  descr : ∃ d, derived ext dt.base s.format = .ok d ∧
    (∃ bad, badPattern dt.base s.format = .ok bad ∧ dt.format = (if bad then .null else s.format)) ∧
    parseBound ext other dt.base d s.minimum = .ok dt.minimum ∧
    parseBound ext other dt.base d s.maximum = .ok dt.maximum ∧
    parseBound ext other dt.base d s.minInclusive = .ok dt.minInclusive ∧
    parseBound ext other dt.base d s.maxInclusive = .ok dt.maxInclusive ∧
    parseBound ext other dt.base d s.minExclusive = .ok dt.minExclusive ∧
    parseBound ext other dt.base d s.maxExclusive = .ok dt.maxExclusive
  length : dt.length = s.length
  minLength : dt.minLength = s.minLength
  maxLength : dt.maxLength = s.maxLength
  atProps : dt.atProps = s.atProps
  common : dt.common = s.common
  lengths : lengthsBad dt = false
  kind : kindBad ext dt = false
  interval : intervalBad ext dt = .ok false
  notBuiltin : (idOf s.atProps).any builtinId = false

theorem bind_ok {α β : Type} {x : Res α} {f : α → Res β} {b : β} (h : (x >>= f) = .ok b) :
    ∃ a, x = .ok a ∧ f a = .ok b := by
  cases x with
  | error e => simp [bind, Except.bind] at h
  | ok a => exact ⟨a, rfl, h⟩

theorem built_of_construct (h : construct ext other s = .ok dt) : Built ext other s dt := by
  unfold construct at h
  obtain ⟨b, hb, h⟩ := bind_ok h
  obtain ⟨d, hd, h⟩ := bind_ok h
  obtain ⟨b1, h1, h⟩ := bind_ok h
  obtain ⟨b2, h2, h⟩ := bind_ok h
  obtain ⟨b3, h3, h⟩ := bind_ok h
  obtain ⟨b4, h4, h⟩ := bind_ok h
  obtain ⟨b5, h5, h⟩ := bind_ok h
  obtain ⟨b6, h6, h⟩ := bind_ok h
  unfold finish at h
  split at h
  · simp at h
  next hl =>
  split at h
  · simp at h
  next hk =>
  split at h
  · simp at h
  · simp at h
  next hi =>
  split at h
  · simp at h
  next ha =>
  split at h
  · simp at h
  next bad hp =>
  simp only [Except.ok.injEq] at h
  cases bad with
  | true =>
    subst h
    exact ⟨hb, ⟨d, hd, ⟨true, hp, rfl⟩, h1, h2, h3, h4, h5, h6⟩, rfl, rfl, rfl, rfl, rfl, by simpa [lengthsBad] using hl,
      by simpa [kindBad] using hk, by simpa [intervalBad] using hi, by simpa using ha⟩
  | false =>
    subst h
    exact ⟨hb, ⟨d, hd, ⟨false, hp, rfl⟩, h1, h2, h3, h4, h5, h6⟩, rfl, rfl, rfl, rfl, rfl, by simpa [lengthsBad] using hl,
      by simpa [kindBad] using hk, by simpa [intervalBad] using hi, by simpa using ha⟩

/-- Patterns are only checked for decimal numbers and integers. -/
theorem badPattern_kind {b : Base} (h1 : b.kind ≠ .decimal) (h2 : b.kind ≠ .integer) (f : J) : badPattern b f = .ok false := by
  unfold badPattern
  split <;> simp_all

theorem badPattern_null (b : Base) : badPattern b .null = .ok false := by
  unfold badPattern
  split <;> rfl

theorem Built.format_eq (h : Built ext other s dt) (hp : badPattern dt.base s.format = .ok false) : dt.format = s.format := by
  obtain ⟨d, -, ⟨bad, h1, h2⟩, -⟩ := h.descr
  rw [hp] at h1
  cases h1
  simpa using h2

theorem Built.format_kind (h : Built ext other s dt) (h1 : dt.base.kind ≠ .decimal) (h2 : dt.base.kind ≠ .integer) : dt.format = s.format :=
  h.format_eq (badPattern_kind h1 h2 _)

/-- The pattern of a constructed datatype is not bad. -/
theorem Built.notBad (h : Built ext other s dt) : badPattern dt.base dt.format = .ok false := by
  obtain ⟨d, -, ⟨bad, h1, h2⟩, -⟩ := h.descr
  rw [h2]
  cases bad with
  | true => exact badPattern_null _
  | false => exact h1

/-- Types without length can only have length constraints equal to zero. -/
theorem Built.noLength (h : Built ext other s dt) (hb : dt.base.hasLength = false) :
    (∀ l ∈ dt.length, l = 0) ∧ (∀ l ∈ dt.minLength, l = 0) ∧ (∀ l ∈ dt.maxLength, l = 0) := by
  have hk := h.kind
  simp only [kindBad, hb, Bool.or_eq_false_iff, Bool.and_eq_false_iff, Bool.not_false, Bool.true_eq_false, false_or,
    decide_eq_false_iff_not, Decidable.not_not] at hk
  obtain ⟨⟨⟨_, ⟨h1, h2⟩, h3⟩, _⟩, _⟩ := hk
  refine ⟨?_, ?_, ?_⟩ <;> intro l hl <;> simp only [Option.mem_def] at hl
  · rw [hl] at h1; simpa using h1
  · rw [hl] at h2; simpa using h2
  · rw [hl] at h3; simpa using h3

/-- A value of a type without length passes the length tests. -/
theorem Built.lengthOk_of_none (h : Built ext other s dt) (hb : dt.base.hasLength = false) {v : Val}
    (hv : v.truthy ext = false ∨ v.len? = none) : lengthOk ext dt v = true := by
  obtain ⟨h1, h2, h3⟩ := h.noLength hb
  unfold lengthOk
  cases ht : v.truthy ext with
  | true =>
    have : v.len? = none := by rcases hv with hv | hv <;> simp_all
    simp [this]
  | false =>
    simp only [Bool.false_eq_true, if_false]
    cases hl : dt.length <;> cases hm : dt.minLength <;> cases hx : dt.maxLength <;> simp_all <;> omega

/-- `validate` for types without ordering whose values have no length. -/
theorem Built.validate_ok (h : Built ext other s dt) (hb : dt.base.hasLength = false) (hm : dt.base.minmax = false)
    {v : Val} (hv : v.truthy ext = false ∨ v.len? = none) : validate ext dt v = .ok v := by
  unfold validate
  simp [h.lengthOk_of_none hb hv, hm]

end Csvw.Datatype
