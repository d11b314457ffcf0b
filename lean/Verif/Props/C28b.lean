import Verif.Props.C28
import Verif.Lemmas.NumberPattern2
/-!
# C28: number patterns with exponent, percent sign and negative pattern
-/

namespace Csvw.Props
open Datatypes Spec

/-- **C28** (exact) For all patterns, with or without exponent, percent or permille sign and negative pattern, and all numbers, with or without exponent, percent or
permille sign: `NumberPattern(pattern).is_valid(number)` is true if and only if the number conforms to the pattern. In particular the
negative pattern and the percent signs do not matter. -/
theorem C28_exponent_iff {p : NumPatternX} {v : NumTextX} (hp : p.WF) (hv : v.WF) :
    NumPat.valid p.text v.text = .ok true ↔ ConformsX p v := NumPat.validX hp hv

/-- The characters of patterns. -/
def patternChars : Str := "#0.,;%‰E-+".toList

section
variable {ext : Ext} {other : Base → Derived → J → Res Val} {s : DatatypeSpec} {dt : Datatype}

/-- **C28** For every numeric datatype with such a pattern as format: a number which `read` accepts conforms to the pattern. -/
theorem C28_exponent_read {t : String} (ht : t ∈ numericTypes) (hb : s.base = .str t.toList) {p : NumPatternX} (hp : p.WF)
    (hneg : ∀ n ∈ p.neg, ∀ c ∈ n, c ∈ patternChars)
    (hf : s.format = .str p.text) (h : Datatype.construct ext other s = .ok dt) {v : NumTextX} (hv : v.WF) {w : Val}
    (hr : dt.read ext v.text = .ok w) : ConformsX p v := by
  rw [← C28_exponent_iff hp hv]
  refine C28_read_valid ht hb ?_ ?_ hf h hr
  · intro h0
    unfold NumPatternX.text at h0
    simp only [List.append_eq_nil_iff] at h0
    exact pattern_ne_nil hp.core h0.1.1.1
  · rw [List.all_eq_true]
    intro c hc
    rw [List.contains_iff_mem]
    unfold NumPatternX.text at hc
    rcases List.mem_append.1 hc with hc | hc
    · rcases List.mem_append.1 hc with hc | hc
      · rcases List.mem_append.1 hc with hc | hc
        · rcases NumPat.text_mem hp.core hc with rfl | rfl | rfl | rfl <;> decide
        · cases he : p.expo with
          | none => rw [he] at hc; simp at hc
          | some e =>
            rw [he] at hc
            rcases List.mem_cons.1 hc with rfl | hc
            · decide
            · rcases (hp.expo e he).2 c hc with rfl | rfl <;> decide
      · rcases hp.mark with hm | hm | hm <;> rw [hm] at hc <;> simp at hc <;> subst hc <;> decide
    · cases hn : p.neg with
      | none => rw [hn] at hc; simp at hc
      | some n =>
        rw [hn] at hc
        rcases List.mem_cons.1 hc with rfl | hc
        · decide
        · exact hneg n hn c hc

/-- **C28** A format with two or more `;` is no pattern: no value is accepted. -/
theorem C28_semicolons {t : String} (ht : t ∈ numericTypes) (hb : s.base = .str t.toList) {q : Str}
    (h2 : 2 ≤ q.count ';') (hchars : ∀ c ∈ q, c ∈ patternChars)
    (hf : s.format = .str q) (h : Datatype.construct ext other s = .ok dt) (x : Str) (w : Val) : dt.read ext x ≠ .ok w := by
  intro hr
  have hq : q ≠ [] := by rintro rfl; simp at h2
  have := C28_read_valid ht hb hq (by
    rw [List.all_eq_true]
    intro c hc
    rw [List.contains_iff_mem]
    exact hchars c hc) hf h hr
  unfold NumPat.valid NumPat.positive at this
  rw [if_neg (by omega)] at this
  simp [Except.map] at this

end

/-- **C28 is violated** for percent patterns without a decimal point: `00%` requires two digits, but `5%` is accepted. -/
theorem C28_percent_violated (ext : Ext) (other : Base → Derived → J → Res Val) :
    ∃ dt, Datatype.construct ext other { base := .str "decimal".toList, format := .str "00%".toList } = .ok dt ∧
      dt.read ext "5%".toList = .ok (.dec (.fin false 5 (-2))) := ⟨_, rfl, rfl⟩

/-- **C28 is violated** for numbers with an exponent but without a decimal point: the digits of the exponent are counted as digits of the last group, so
that with the pattern `#,##0.#E000` the number `12E34` is rejected, although `12.0E34` is accepted. -/
theorem C28_exponent_violated (ext : Ext) (other : Base → Derived → J → Res Val) :
    ∃ dt, Datatype.construct ext other { base := .str "double".toList, format := .str "#,##0.#E000".toList } = .ok dt ∧
      dt.read ext "12E34".toList = .error .valueError ∧
      ∀ t, ext.floatParse "12.0E34".toList = some t → dt.read ext "12.0E34".toList = .ok (.flt t) := by
  refine ⟨_, rfl, rfl, ?_⟩
  intro t ht
  have hv : NumPat.valid "#,##0.#E000".toList "12.0E34".toList = .ok true := by decide
  have hp : toPython ext .double (.num ⟨some "#,##0.#E000".toList, none, none⟩) "12.0E34".toList = .ok (.flt t) := by
    show (match NumPat.valid "#,##0.#E000".toList "12.0E34".toList with
          | .error e => Except.error e
          | .ok false => Except.error PyErr.valueError
          | .ok true => (match ext.floatParse "12.0E34".toList with
            | some t => Except.ok (Val.flt t)
            | none => Except.error PyErr.valueError : Res Val)) = _
    rw [hv, ht]
  have hd : Datatype.descr ext { base := .double, format := .str "#,##0.#E000".toList } =
    .ok (.num ⟨some "#,##0.#E000".toList, none, none⟩) := rfl
  show Datatype.read ext { base := .double, format := .str "#,##0.#E000".toList } _ = _
  unfold Datatype.read Datatype.parse
  rw [hd]
  simp only
  rw [hp]
  have hl : Datatype.lengthOk ext { base := .double, format := .str "#,##0.#E000".toList } (.flt t) = true := by
    unfold Datatype.lengthOk
    split <;> rfl
  show Datatype.validate ext _ _ = _
  unfold Datatype.validate
  rw [if_neg (by simp), if_pos hl]
  rfl

/-! ## The hypotheses are satisfiable -/

/-- `#,##0.0##E00%;-0` -/
def examplePatternX : NumPatternX := ⟨examplePattern, some "00".toList, ['%'], some "-0".toList⟩
/-- `-12,345.67e+12%` -/
def exampleNumberX : NumTextX := ⟨exampleNumber, some ('e', ['+'], "12".toList), ['%']⟩

example : examplePatternX.text = "#,##0.0##E00%;-0".toList ∧ exampleNumberX.text = "-12,345.67e+12%".toList := by decide
theorem examplePatternX_wf : examplePatternX.WF := by
  refine ⟨examplePattern_wf, ?_, .inr (.inl rfl), .inr (by decide), ?_⟩
  · intro e he; cases he; decide
  · intro e he; cases he; decide
theorem exampleNumberX_wf : exampleNumberX.WF := by
  refine ⟨exampleNumber_wf, ?_, .inr (.inl rfl), .inl rfl⟩
  intro e he; cases he
  exact ⟨.inl rfl, .inr (.inl rfl), by decide⟩
example : ConformsX examplePatternX exampleNumberX :=
  (C28_exponent_iff examplePatternX_wf exampleNumberX_wf).1 (by decide)
/-- The exponent has too many digits. -/
example : ¬ ConformsX examplePatternX ⟨exampleNumber, some ('E', [], "123".toList), []⟩ := by
  intro h
  have := h.2 "00".toList rfl _ rfl
  revert this; decide
example (ext : Ext) (other : Base → Derived → J → Res Val) :
    ∃ dt w, Datatype.construct ext other { base := .str "decimal".toList, format := .str examplePatternX.text } = .ok dt ∧
      dt.read ext (NumTextX.text ⟨exampleNumber, none, ['%']⟩) = .ok w := ⟨_, _, rfl, rfl⟩
example : 2 ≤ "0;0;0".toList.count ';' ∧ ∀ c ∈ "0;0;0".toList, c ∈ patternChars := by decide

open NumPat Py in
theorem decGo_E (f x y : Str) (h : 'E' ∉ f) : decDigitsGo (f ++ 'E' :: x) = decDigitsGo (f ++ 'E' :: y) ∧ sigDigitsGo (f ++ 'E' :: x) = sigDigitsGo (f ++ 'E' :: y) := by
  induction f with
  | nil => exact ⟨by simp [decDigitsGo], by simp [sigDigitsGo]⟩
  | cons c cs ih =>
    have ih := ih fun h' => h (List.mem_cons_of_mem _ h')
    simp only [List.cons_append, decDigitsGo, sigDigitsGo, ih.1, ih.2, and_self]

open NumPat in
theorem expGo_comma (a b : Str) : expDigitsGo (a ++ ',' :: b) = expDigitsGo (a ++ b) := by
  induction a with
  | nil => simp [expDigitsGo]
  | cons c cs ih => simp only [List.cons_append, expDigitsGo, ih]

open NumPat Py in
/-- **C28** Separators in the exponent of a pattern do not matter. -/
theorem C28_exponent_separators {i f a b : Str} (hi : '.' ∉ i ∧ 'E' ∉ i ∧ 'e' ∉ i) (hf : 'E' ∉ f ∧ 'e' ∉ f) (v : Str) :
    isValid (i ++ '.' :: (f ++ 'E' :: (a ++ ',' :: b))) v = isValid (i ++ '.' :: (f ++ 'E' :: (a ++ b))) v := by
  have hhead : ∀ x, (split ['.'] (i ++ '.' :: x)).headD [] = i := fun x => split_head hi.1
  have hdec : ∀ x, (partition '.' (i ++ '.' :: x)).2.2 = x := fun x => by rw [Dec.partition_of_not_mem hi.1]
  have hl : ∀ s : Str, 'E' ∉ s → lowerE s = s := by
    intro s hs
    unfold lowerE
    conv => rhs; rw [← List.map_id s]
    apply List.map_congr_left
    intro c hc
    have : ¬ c = 'E' := fun h => hs (h ▸ hc)
    simp [this]
  have hexp : ∀ x, (partition 'e' (lowerE (i ++ '.' :: (f ++ 'E' :: x)))).2.2 = lowerE x := by
    intro x
    have e : lowerE (i ++ '.' :: (f ++ 'E' :: x)) = (i ++ '.' :: f) ++ 'e' :: lowerE x := by
      have e1 : lowerE (i ++ '.' :: (f ++ 'E' :: x)) = lowerE i ++ '.' :: (lowerE f ++ 'e' :: lowerE x) := by simp [lowerE]
      rw [e1, hl i hi.2.1, hl f hf.1]; simp
    rw [e, Dec.partition_of_not_mem]
    intro h
    rcases List.mem_append.1 h with h | h
    · exact hi.2.2 h
    · rcases List.mem_cons.1 h with h | h
      · revert h; decide
      · exact hf.2 h
  rw [isValid_checks, isValid_checks]
  have e1 : ∀ x y, minInt (i ++ '.' :: x) = minInt (i ++ '.' :: y) ∧ primary (i ++ '.' :: x) = primary (i ++ '.' :: y) ∧
      secondary (i ++ '.' :: x) = secondary (i ++ '.' :: y) := by
    intro x y
    refine ⟨?_, ?_, ?_⟩
    · unfold minInt; rw [hhead, hhead]
    · unfold primary intComps; rw [hhead, hhead]
    · unfold secondary primary intComps; rw [hhead, hhead]
  have e2 : decDigits (i ++ '.' :: (f ++ 'E' :: (a ++ ',' :: b))) = decDigits (i ++ '.' :: (f ++ 'E' :: (a ++ b))) := by
    unfold decDigits; rw [hdec, hdec]; exact (decGo_E f _ _ hf.1).1
  have e3 : sigDigits (i ++ '.' :: (f ++ 'E' :: (a ++ ',' :: b))) = sigDigits (i ++ '.' :: (f ++ 'E' :: (a ++ b))) := by
    unfold sigDigits; rw [hdec, hdec]; exact (decGo_E f _ _ hf.1).2
  have e4 : expDigits (i ++ '.' :: (f ++ 'E' :: (a ++ ',' :: b))) = expDigits (i ++ '.' :: (f ++ 'E' :: (a ++ b))) := by
    unfold expDigits; rw [hexp, hexp]
    have : lowerE (a ++ ',' :: b) = lowerE a ++ ',' :: lowerE b := by simp [lowerE]
    rw [this, expGo_comma]
    simp [lowerE]
  obtain ⟨k1, k2, k3⟩ := e1 (f ++ 'E' :: (a ++ ',' :: b)) (f ++ 'E' :: (a ++ b))
  rw [k1, k2, k3, e2, e3, e4]

/-- Non-vacuity: `0.0E0,0` is the same as `0.0E00`. -/
example (v : Str) : NumPat.isValid "0.0E0,0".toList v = NumPat.isValid "0.0E00".toList v :=
  C28_exponent_separators (i := ['0']) (f := ['0']) (a := ['0']) (b := ['0']) (by decide) (by decide) v

end Csvw.Props
