import Verif.Props.C61b
/-!
# C62: date-times without format are written in ISO 8601 and read back
-/

namespace Csvw.Props
open Datatypes Spec DateFmt

theorem digitsN (n k : Nat) : Digits n n (numeralN n k) :=
  ⟨by rw [numeralN_length]; exact Nat.le_refl _, by rw [numeralN_length]; exact Nat.le_refl _, numeralN_digits n k⟩

theorem isoTz_text {t : Option Int} (h : ∀ o ∈ t, o.natAbs < 1440) : TzText (isoTzText t) t := by
  cases t with
  | none => exact .none
  | some t =>
    have ht : t.natAbs < 1440 := h t rfl
    have v1 : Nat.ofDigitChars 10 (numeralN 2 (t.natAbs / 60)) 0 = t.natAbs / 60 := numeralN_value (by omega)
    have v2 : Nat.ofDigitChars 10 (numeralN 2 (t.natAbs % 60)) 0 = t.natAbs % 60 := numeralN_value (by omega)
    unfold isoTzText
    by_cases hn : t < 0
    · simp only [if_pos hn]
      have := TzText.minus (digitsN 2 (t.natAbs / 60)) (digitsN 2 (t.natAbs % 60)) (by rw [v1]; omega) (by rw [v2]; omega)
      rw [v1, v2] at this
      have e : -(60 * ((t.natAbs / 60 : Nat) : Int) + (t.natAbs % 60 : Nat)) = t := by omega
      rw [e] at this
      exact this
    · simp only [if_neg hn]
      have := TzText.plus (digitsN 2 (t.natAbs / 60)) (digitsN 2 (t.natAbs % 60)) (by rw [v1]; omega) (by rw [v2]; omega)
      rw [v1, v2] at this
      have e : (60 * ((t.natAbs / 60 : Nat) : Int) + (t.natAbs % 60 : Nat)) = t := by omega
      rw [e] at this
      exact this

theorem isoformat_eq {d : DateTime} (hv : ValidDateTime d) (htz : ∀ o ∈ d.tz, o.natAbs < 1440) : isoformat d = isoText d := by
  obtain ⟨hd, hh, hm, hs, hu⟩ := hv
  have hy := hd.2.1
  have hmo := hd.2.2.2.1
  have hda : d.day ≤ 31 := by have := hd.2.2.2.2.2; (repeat' split at this) <;> omega
  unfold isoformat isoText isoTzText
  rw [padNat_eq (by omega) (show d.year < 10 ^ 4 by omega), padNat_eq (by omega) (show d.month < 10 ^ 2 by omega),
    padNat_eq (by omega) (show d.day < 10 ^ 2 by omega), padNat_eq (by omega) (show d.hour < 10 ^ 2 by omega),
    padNat_eq (by omega) (show d.minute < 10 ^ 2 by omega), padNat_eq (by omega) (show d.second < 10 ^ 2 by omega),
    padNat_eq (by omega) (show d.micro < 10 ^ 6 by omega)]
  cases htz' : d.tz with
  | none => simp
  | some t =>
    have := htz t htz'
    simp only
    rw [padNat_eq (by omega) (show t.natAbs / 60 < 10 ^ 2 by omega), padNat_eq (by omega) (show t.natAbs % 60 < 10 ^ 2 by omega)]
    simp

theorem isoparse_isoText (ext : Ext) {d : DateTime} (hv : ValidDateTime d) (htz : ∀ o ∈ d.tz, o.natAbs < 1440) :
    isoparse ext (isoText d) = .ok d := by
  obtain ⟨hd, hh, hm, hs, hu⟩ := id hv
  have hy := hd.2.1
  have hmo := hd.2.2.2.1
  have hda : d.day ≤ 31 := by have := hd.2.2.2.2.2; (repeat' split at this) <;> omega
  have e : isoText d = (⟨.ymd, ['-'], true⟩ : DatePattern).fill (numeralN 4 d.year) (numeralN 2 d.month) (numeralN 2 d.day) ++
      'T' :: ((⟨true, true⟩ : TimePattern).fill (numeralN 2 d.hour) (numeralN 2 d.minute) (numeralN 2 d.second) ++
        (fracText (if d.micro = 0 then [] else numeralN 6 d.micro) ++ isoTzText d.tz)) := by
    unfold isoText
    by_cases h0 : d.micro = 0
    · simp [DatePattern.fill, TimePattern.fill, h0, fracText]
    · have hne : numeralN 6 d.micro ≠ [] := by intro h; have := numeralN_length 6 d.micro; rw [h] at this; simp at this
      simp [DatePattern.fill, TimePattern.fill, h0, fracText, hne]
  have hfm : fracMicros (if d.micro = 0 then [] else numeralN 6 d.micro) = d.micro := by
    by_cases h0 : d.micro = 0
    · rw [if_pos h0, h0]; rfl
    · rw [if_neg h0]
      have : Dec.numeral (numeralN 6 d.micro) = d.micro := numeralN_value (by omega)
      unfold fracMicros
      rw [numeralN_length]
      change Dec.numeral (numeralN 6 d.micro) * 10 ^ 6 / 10 ^ 6 = d.micro
      rw [this]; omega
  rw [e, isoparse_text ext (.inr rfl) ⟨true, true⟩ (z := isoTzText d.tz) (tz := d.tz) ⟨digitsN 4 _, digitsN 2 _, digitsN 2 _⟩ (by decide)
    (digitsN 2 _) (digitsN 2 _) (digitsN 2 _) ?_ (isoTz_text htz) (.inl rfl) ?_]
  · rw [hfm, numeralN_value (show d.year < 10 ^ 4 by omega), numeralN_value (show d.month < 10 ^ 2 by omega),
      numeralN_value (show d.day < 10 ^ 2 by omega), numeralN_value (show d.hour < 10 ^ 2 by omega),
      numeralN_value (show d.minute < 10 ^ 2 by omega), if_pos rfl, numeralN_value (show d.second < 10 ^ 2 by omega), mkDT_valid]
    rw [if_pos hv]
  · intro c hc
    split at hc
    · simp at hc
    · exact numeralN_digits _ _ c hc
  · rw [numeralN_value (show d.hour < 10 ^ 2 by omega)]; omega

section
variable {ext : Ext} {other : Base → Derived → J → Res Val} {s : DatatypeSpec} {dt : Datatype}

/-- **C62** Without a format every date-time is written in ISO 8601, and reading this text gives the same date-time, including microseconds and
timezone. -/
theorem C62_iso_roundtrip (hb : s.base = .str "dateTime".toList ∨ s.base = .str "datetime".toList) (hf : s.format = .null) (hs : NoBounds s)
    (h : Datatype.construct ext other s = .ok dt) {d : DateTime} (hv : ValidDateTime d) (htz : ∀ o ∈ d.tz, o.natAbs < 1440) :
    dt.formatted ext (.dt d) = .ok (isoText d) ∧ dt.read ext (isoText d) = .ok (.dt d) := by
  have hB := Datatype.built_of_construct h
  have hbb : dt.base = .dateTime ∨ dt.base = .datetime := by
    rcases hb with hb | hb
    · exact .inl (base_of hB (b := .dateTime) (by rw [hb]; decide +kernel))
    · exact .inr (base_of hB (b := .datetime) (by rw [hb]; decide +kernel))
  have hk : dt.base.kind = .dateTime := by rcases hbb with h | h <;> rw [h] <;> rfl
  have hdesc : dt.descr ext = .ok (.dt ⟨none, none, none⟩) := by
    have hfm := hB.format_kind (by simp [hk]) (by simp [hk])
    rw [hf] at hfm
    unfold Datatype.descr
    rw [hfm]
    rcases hbb with h | h <;> rw [h] <;> rfl
  constructor
  · unfold Datatype.formatted
    rw [hdesc]
    simp only [toText, hk, Option.getD_none]
    rw [isoformat_eq hv htz]
  · unfold Datatype.read Datatype.parse
    rw [hdesc]
    simp only [toPython, hk]
    unfold dateTimeToPython
    rw [if_pos (by rfl), isoparse_isoText ext hv htz]
    exact dt_validate hB hs (.inl hk) d

/-- **C62** (default format) A `dateTimeStamp` without format reads the ISO 8601 text of every date-time with a timezone. -/
theorem C62_stamp_default (hb : s.base = .str "dateTimeStamp".toList) (hf : s.format = .null) (hs : NoBounds s)
    (h : Datatype.construct ext other s = .ok dt) {d : DateTime} (hv : ValidDateTime d) (htz : ∀ o ∈ d.tz, o.natAbs < 1440) :
    dt.read ext (isoText d) = .ok (.dt d) := by
  have hB := Datatype.built_of_construct h
  have hbb : dt.base = .dateTimeStamp := base_of hB (b := .dateTimeStamp) (by rw [hb]; decide +kernel)
  have hk : dt.base.kind = .dateTime := by rw [hbb]; rfl
  obtain ⟨D, hDr, hD⟩ : ∃ D : Desc, D.regex = some (rxOf (dtFormat2 ⟨.ymd, ['-'], true⟩ 'T' ⟨true, true⟩ 6)) ∧ dt.descr ext = .ok (.dt D) := by
    have hfm := hB.format_kind (by simp [hk]) (by simp [hk])
    rw [hf] at hfm
    unfold Datatype.descr
    rw [hfm, hbb]
    exact ⟨_, by decide +kernel, rfl⟩
  have hx : (dtFormat2 ⟨.ymd, ['-'], true⟩ 'T' ⟨true, true⟩ 6).Parts ⟨numeralN 4 d.year, numeralN 2 d.month, numeralN 2 d.day, numeralN 2 d.hour,
      numeralN 2 d.minute, numeralN 2 d.second, if d.micro = 0 then [] else numeralN 6 d.micro⟩ := by
    refine ⟨?_, digitsN 2 _, digitsN 2 _, digitsN 2 _, ?_, by simp⟩
    · intro p hp
      simp only [Option.mem_def, Option.some.injEq] at hp
      rw [← hp]
      exact ⟨digitsN 4 _, digitsN 2 _, digitsN 2 _⟩
    · intro c hc
      simp only at hc
      split at hc
      · simp at hc
      · exact numeralN_digits _ _ c hc
  have e : isoText d = (dtFormat2 ⟨.ymd, ['-'], true⟩ 'T' ⟨true, true⟩ 6).fill ⟨numeralN 4 d.year, numeralN 2 d.month, numeralN 2 d.day,
      numeralN 2 d.hour, numeralN 2 d.minute, numeralN 2 d.second, if d.micro = 0 then [] else numeralN 6 d.micro⟩ ++ isoTzText d.tz := by
    rw [dtFormat2_fill]
    unfold isoText
    by_cases h0 : d.micro = 0
    · simp [DatePattern.fill, TimePattern.fill, h0, fracText]
    · have hne : numeralN 6 d.micro ≠ [] := by intro h; have := numeralN_length 6 d.micro; rw [h] at this; simp at this
      simp [DatePattern.fill, TimePattern.fill, h0, fracText, hne]
  obtain ⟨hWF, hPr⟩ := dtFormat2_wf (dp := ⟨.ymd, ['-'], true⟩) (by decide +kernel) (.inr rfl) ⟨true, true⟩ 6
  have hpre : preMatch (isoText d) D.regex D.pattern = true := by
    unfold preMatch
    rw [hDr]
    split
    · next hq =>
      simp only [Option.some.injEq] at hq
      rw [e, ← hq, match_dt hWF hPr hx (tz_head' (isoTz_text htz))]; rfl
    · rfl
  unfold Datatype.read Datatype.parse
  rw [hD]
  simp only [toPython, hk]
  unfold dateTimeToPython
  rw [if_pos hpre, isoparse_isoText ext hv htz]
  exact dt_validate hB hs (.inl hk) d

/-- But a `dateTimeStamp` without format accepts texts without a timezone, too. -/
theorem C62_violated_stamp_without_timezone (hb : s.base = .str "dateTimeStamp".toList) (hf : s.format = .null) (hs : NoBounds s)
    (h : Datatype.construct ext other s = .ok dt) :
    dt.read ext "2021-12-03T10:20:30".toList = .ok (.dt ⟨2021, 12, 3, 10, 20, 30, 0, none⟩) :=
  C62_stamp_default hb hf hs h (d := ⟨2021, 12, 3, 10, 20, 30, 0, none⟩) (by decide) (by simp)

end

/-- Hypotheses can be met. -/
theorem C62_example (ext : Ext) (other : Base → Derived → J → Res Val) :
    ∃ dt, Datatype.construct ext other { base := .str "dateTime".toList } = .ok dt ∧
      dt.formatted ext (.dt ⟨2020, 2, 29, 23, 59, 59, 1, some (-90)⟩) = .ok "2020-02-29T23:59:59.000001-01:30".toList ∧
      dt.read ext "2020-02-29T23:59:59.000001-01:30".toList = .ok (.dt ⟨2020, 2, 29, 23, 59, 59, 1, some (-90)⟩) := by
  have hd : derived ext .dateTime .null = .ok (.dt ⟨none, none, none⟩) := rfl
  have hc := construct_dt ext other (b := .dateTime) (name := "dateTime".toList) (by decide +kernel) (.inl rfl) .null
  rw [hd] at hc
  have := C62_iso_roundtrip (.inl rfl) rfl ⟨rfl, rfl, rfl, rfl, rfl, rfl⟩ hc (d := ⟨2020, 2, 29, 23, 59, 59, 1, some (-90)⟩) (by decide)
    (by intro o ho; simp only [Option.mem_def, Option.some.injEq] at ho; subst ho; decide)
  exact ⟨_, hc, this.1, this.2⟩

end Csvw.Props
