import Verif.Spec.JsonDates
import Verif.Props.C62
import Verif.Model.JsonLd
/-!
# C67: date-times as JSON-LD literals
-/

namespace Csvw.Props
open Datatypes Spec DateFmt JsonLd

theorem isoparse_stamp (ext : Ext) {d : DateTime} (hv : ValidDateTime d) {f z : Str} (hf : ∀ c ∈ f, c.isDigit = true) (hfm : fracMicros f = d.micro)
    (hz : TzText z d.tz) : isoparse ext (dateText d ++ "T".toList ++ timeText d ++ (fracText f ++ z)) = .ok d := by
  obtain ⟨hd, hh, hm, hs, hu⟩ := id hv
  have hy := hd.2.1
  have hmo := hd.2.2.2.1
  have hda : d.day ≤ 31 := by have := hd.2.2.2.2.2; (repeat' split at this) <;> omega
  have e : dateText d ++ "T".toList ++ timeText d ++ (fracText f ++ z) =
      (⟨.ymd, ['-'], true⟩ : DatePattern).fill (numeralN 4 d.year) (numeralN 2 d.month) (numeralN 2 d.day) ++
      'T' :: ((⟨true, true⟩ : TimePattern).fill (numeralN 2 d.hour) (numeralN 2 d.minute) (numeralN 2 d.second) ++ (fracText f ++ z)) := by
    simp [DatePattern.fill, TimePattern.fill, dateText, timeText]
  rw [e, isoparse_text ext (.inr rfl) ⟨true, true⟩ (z := z) (tz := d.tz) ⟨digitsN 4 _, digitsN 2 _, digitsN 2 _⟩ (by decide)
    (digitsN 2 _) (digitsN 2 _) (digitsN 2 _) hf hz (.inl rfl) ?_]
  · rw [hfm, numeralN_value (show d.year < 10 ^ 4 by omega), numeralN_value (show d.month < 10 ^ 2 by omega),
      numeralN_value (show d.day < 10 ^ 2 by omega), numeralN_value (show d.hour < 10 ^ 2 by omega),
      numeralN_value (show d.minute < 10 ^ 2 by omega), if_pos rfl, numeralN_value (show d.second < 10 ^ 2 by omega), mkDT_valid]
    rw [if_pos hv]
  · rw [numeralN_value (show d.hour < 10 ^ 2 by omega)]; omega

theorem replaceGo_skip {h : Char} {old new : Str} : ∀ {a : Str} (b : Str), h ∉ a → Py.replaceGo (h :: old) new 0 (a ++ b) = a ++ Py.replaceGo (h :: old) new 0 b
  | [], _, _ => rfl
  | c :: a, b, hc => by
    simp only [List.mem_cons, not_or] at hc
    rw [List.cons_append, Py.replaceGo, if_neg, replaceGo_skip b hc.2]
    · rfl
    · simp [List.isPrefixOf, hc.1]

theorem not_mem_numeralN {c : Char} (hc : c.isDigit = false) (n k : Nat) : c ∉ numeralN n k := fun h => by
  have := numeralN_digits n k c h
  rw [hc] at this; cases this

theorem not_mem_start {c : Char} (hc : c.isDigit = false) (h1 : c ≠ '-') (h2 : c ≠ 'T') (h3 : c ≠ ':') (d : DateTime) :
    c ∉ dateText d ++ "T".toList ++ timeText d := by
  have := not_mem_numeralN hc
  unfold dateText timeText
  simp [this, h1, h2, h3]

theorem not_mem_zone {c : Char} (hc : c.isDigit = false) (h1 : c ≠ '-') (h2 : c ≠ '+') (h3 : c ≠ ':') (t : Option Int) : c ∉ isoTzText t := by
  have := not_mem_numeralN hc
  cases t with
  | none => simp [isoTzText]
  | some t =>
    unfold isoTzText
    by_cases h : t < 0 <;> simp [h, this, h1, h2, h3]

theorem digitChar_zero : ∀ k : Fin 10, Nat.digitChar k = '0' → k = 0 := by decide

theorem replace_zone {t : Option Int} (h : ∀ o ∈ t, o.natAbs < 1440) : Py.replace "+00:00".toList "Z".toList (isoTzText t) = zoneText t := by
  cases t with
  | none => rfl
  | some t =>
    have ht : t.natAbs < 1440 := h t rfl
    by_cases h0 : t = 0
    · subst h0; decide +kernel
    · have hz : zoneText (some t) = isoTzText (some t) := by
        unfold zoneText
        split
        · next heq => cases heq; exact absurd rfl h0
        · rfl
      rw [hz]
      unfold isoTzText
      by_cases hn : t < 0
      · simp only [if_pos hn]
        have hnm : '+' ∉ ('-' :: numeralN 2 (t.natAbs / 60) ++ ':' :: numeralN 2 (t.natAbs % 60)) := by
          have := not_mem_numeralN (c := '+') (by decide)
          simp [this]
        have := replaceGo_skip (old := "00:00".toList) (new := "Z".toList) [] hnm
        simp only [List.append_nil] at this
        exact this
      · simp only [if_neg hn]
        have e1 : numeralN 2 (t.natAbs / 60) = [Nat.digitChar (t.natAbs / 60 / 10 % 10), Nat.digitChar (t.natAbs / 60 % 10)] := rfl
        have e2 : numeralN 2 (t.natAbs % 60) = [Nat.digitChar (t.natAbs % 60 / 10 % 10), Nat.digitChar (t.natAbs % 60 % 10)] := rfl
        have hrest : '+' ∉ numeralN 2 (t.natAbs / 60) ++ ':' :: numeralN 2 (t.natAbs % 60) := by
          have := not_mem_numeralN (c := '+') (by decide)
          simp [this]
        have hne : "+00:00".toList.isPrefixOf ('+' :: (numeralN 2 (t.natAbs / 60) ++ ':' :: numeralN 2 (t.natAbs % 60))) = false := by
          cases hp : "+00:00".toList.isPrefixOf ('+' :: (numeralN 2 (t.natAbs / 60) ++ ':' :: numeralN 2 (t.natAbs % 60))) with
          | false => rfl
          | true =>
            exfalso
            rw [e1, e2] at hp
            simp [List.isPrefixOf] at hp
            obtain ⟨g1, g2, g3, g4⟩ := hp
            omega
        show Py.replaceGo "+00:00".toList "Z".toList 0 ('+' :: (numeralN 2 (t.natAbs / 60) ++ ':' :: numeralN 2 (t.natAbs % 60))) = _
        rw [Py.replaceGo, hne]
        have := replaceGo_skip (old := "00:00".toList) (new := "Z".toList) [] hrest
        simp only [List.append_nil] at this
        have this' : Py.replaceGo "+00:00".toList "Z".toList 0 (numeralN 2 (t.natAbs / 60) ++ ':' :: numeralN 2 (t.natAbs % 60)) = _ := this
        simp only [Bool.false_eq_true, if_false]
        rw [this']
        rfl

theorem rstripP_last {c : Char} (h : c ≠ '0') (a : Str) : Py.rstripP (· = '0') (a ++ [c]) = a ++ [c] := by
  unfold Py.rstripP
  rw [List.reverse_append]
  simp [h]

theorem isoText_eq (d : DateTime) : isoText d = dateText d ++ "T".toList ++ timeText d ++ ((if d.micro = 0 then [] else ".".toList ++ numeralN 6 d.micro) ++ isoTzText d.tz) := by
  unfold isoText dateText timeText
  simp

/-- The conditions under which the literal is right. -/
def StampSafe (d : DateTime) : Prop := d.tz = none ∨ d.micro = 0 ∨ ∀ o ∈ d.tz, o.natAbs % 10 ≠ 0

instance (d : DateTime) : Decidable (StampSafe d) := by
  unfold StampSafe
  cases d.tz <;> infer_instance

theorem stampText_iso {d : DateTime} (htz : ∀ o ∈ d.tz, o.natAbs < 1440) (hs : StampSafe d) : stampText (isoText d) = jsonStamp d := by
  rw [isoText_eq]
  unfold stampText jsonStamp
  by_cases h0 : d.micro = 0
  · simp only [h0, if_true, List.nil_append]
    rw [Dec.partition_none]
    · simp only [ne_eq, not_true_eq_false, if_false]
      unfold Py.replace
      rw [show "+00:00".toList = '+' :: "00:00".toList from rfl,
        replaceGo_skip _ (not_mem_start (by decide) (by decide) (by decide) (by decide) d)]
      congr 1
      exact replace_zone htz
    · intro h
      rcases List.mem_append.1 h with h | h
      · exact not_mem_start (by decide) (by decide) (by decide) (by decide) d h
      · exact not_mem_zone (by decide) (by decide) (by decide) (by decide) _ h
  · simp only [h0, if_false]
    have e : dateText d ++ "T".toList ++ timeText d ++ (".".toList ++ numeralN 6 d.micro ++ isoTzText d.tz) =
        (dateText d ++ "T".toList ++ timeText d) ++ '.' :: (numeralN 6 d.micro ++ isoTzText d.tz) := by simp
    rw [e, Dec.partition_of_not_mem (not_mem_start (by decide) (by decide) (by decide) (by decide) d)]
    have hne : numeralN 6 d.micro ++ isoTzText d.tz ≠ [] := by
      intro h
      have := numeralN_length 6 d.micro
      rw [(List.append_eq_nil_iff.1 h).1] at this
      cases this
    simp only [ne_eq, hne, not_false_eq_true, if_true]
    cases ht : d.tz with
    | none =>
      simp only [if_true, isoTzText, List.append_nil]
      rfl
    | some t =>
      rw [if_neg (by simp)]
      have hm : t.natAbs % 10 ≠ 0 := by
        rcases hs with h | h | h
        · rw [ht] at h; cases h
        · exact absurd h h0
        · exact h t ht
      have hlast : Nat.digitChar (t.natAbs % 60 % 10) ≠ '0' := by
        intro h
        have := digitChar_zero ⟨t.natAbs % 60 % 10, by omega⟩ h
        simp only [Fin.ext_iff, Fin.val_zero] at this
        omega
      have hz : isoTzText (some t) = ((if t < 0 then '-' else '+') :: numeralN 2 (t.natAbs / 60) ++ ':' :: numeralN 1 (t.natAbs % 60 / 10)) ++
          [Nat.digitChar (t.natAbs % 60 % 10)] := by
        unfold isoTzText
        simp [numeralN]
      rw [hz, ← List.append_assoc, rstripP_last hlast]
      simp

theorem trimZeros_spec (s : Str) : ∃ n, s = trimZeros s ++ List.replicate n '0' := by
  have h : ∀ l : Str, ∃ n, l = List.replicate n '0' ++ l.dropWhile (· = '0') := by
    intro l
    induction l with
    | nil => exact ⟨0, rfl⟩
    | cons c r ih =>
      by_cases hc : c = '0'
      · obtain ⟨n, hn⟩ := ih
        refine ⟨n + 1, ?_⟩
        rw [List.dropWhile_cons_of_pos (by simpa using hc), hc]
        conv => lhs; rw [hn]
        rfl
      · refine ⟨0, ?_⟩
        rw [List.dropWhile_cons_of_neg (by simpa using hc)]
        rfl
  obtain ⟨n, hn⟩ := h s.reverse
  refine ⟨n, ?_⟩
  unfold trimZeros
  rw [← List.reverse_inj, List.reverse_append, List.reverse_reverse, List.reverse_replicate]
  exact hn

theorem fracMicros_trim {k : Nat} (h : k < 10 ^ 6) : fracMicros (trimZeros (numeralN 6 k)) = k ∧ (k ≠ 0 → trimZeros (numeralN 6 k) ≠ []) ∧
    ∀ c ∈ trimZeros (numeralN 6 k), c.isDigit = true := by
  obtain ⟨n, hn⟩ := trimZeros_spec (numeralN 6 k)
  generalize trimZeros (numeralN 6 k) = t at hn ⊢
  have hv : Dec.numeral (numeralN 6 k) = k := numeralN_value h
  have hl := numeralN_length 6 k
  rw [hn] at hv hl
  rw [Dec.numeral_append_zeros] at hv
  simp only [List.length_append, List.length_replicate] at hl
  refine ⟨?_, ?_, ?_⟩
  · unfold fracMicros
    show Dec.numeral t * 10 ^ 6 / 10 ^ t.length = k
    rw [show 6 = n + t.length by omega, Nat.pow_add, ← Nat.mul_assoc, Nat.mul_div_cancel _ (Nat.pow_pos (by omega)), hv]
  · rintro hk rfl
    exact hk (by rw [← hv]; show 0 * _ = 0; omega)
  · intro c hc
    exact numeralN_digits 6 k c (by rw [hn]; exact List.mem_append_left _ hc)

theorem zoneText_text {t : Option Int} (h : ∀ o ∈ t, o.natAbs < 1440) : TzText (zoneText t) t := by
  unfold zoneText
  split
  · exact .zulu
  · exact isoTz_text h

theorem isoparse_jsonStamp (ext : Ext) {d : DateTime} (hv : ValidDateTime d) (htz : ∀ o ∈ d.tz, o.natAbs < 1440) : isoparse ext (jsonStamp d) = .ok d := by
  have hu : d.micro < 10 ^ 6 := by have := hv.2.2.2.2; omega
  unfold jsonStamp
  by_cases h0 : d.micro = 0
  · rw [if_pos h0]
    exact isoparse_stamp ext hv (f := []) (by simp) (by rw [h0]; rfl) (zoneText_text htz)
  · rw [if_neg h0]
    by_cases ht : d.tz = none
    · rw [if_pos ht]
      obtain ⟨h1, h2, h3⟩ := fracMicros_trim hu
      have := isoparse_stamp ext hv (f := trimZeros (numeralN 6 d.micro)) (z := []) h3 h1 (by rw [ht]; exact .none)
      have e : fracText (trimZeros (numeralN 6 d.micro)) ++ [] = ".".toList ++ trimZeros (numeralN 6 d.micro) := by
        unfold fracText
        simp [h2 h0]
      rw [e] at this
      exact this
    · rw [if_neg ht]
      have hm : fracMicros (numeralN 6 d.micro) = d.micro := by
        unfold fracMicros
        rw [numeralN_length]
        change Dec.numeral (numeralN 6 d.micro) * 10 ^ 6 / 10 ^ 6 = d.micro
        rw [numeralN_value hu]; omega
      have := isoparse_stamp ext hv (f := numeralN 6 d.micro) (z := isoTzText d.tz) (numeralN_digits _ _) hm (isoTz_text htz)
      have hne : numeralN 6 d.micro ≠ [] := by intro h; have := numeralN_length 6 d.micro; rw [h] at this; simp at this
      have e : fracText (numeralN 6 d.micro) ++ isoTzText d.tz = ".".toList ++ numeralN 6 d.micro ++ isoTzText d.tz := by
        unfold fracText
        simp [hne]
      rw [e] at this
      exact this

section
variable {ext : Ext} {jx : JExt} {other : Base → Derived → J → Res Val} {s : DatatypeSpec} {dt : Datatype}

/-- **C67** Date-times are given in JSON in ISO 8601, from which the datatype reads the same date-time, unless there are both a fraction of a second
and a timezone whose text ends with `0`. -/
theorem C67_datetime (hb : s.base = .str "dateTime".toList ∨ s.base = .str "datetime".toList) (hf : s.format = .null) (hs : NoBounds s)
    (h : Datatype.construct ext other s = .ok dt) {c : CCol} (hc : c.col.props.datatype = .dtype dt)
    {d : DateTime} (hv : ValidDateTime d) (htz : ∀ o ∈ d.tz, o.natAbs < 1440) (hd : StampSafe d) :
    formatValue ext jx (some c) (.one (.dt d)) = .ok (.one (.str (jsonStamp d))) ∧ dt.read ext (jsonStamp d) = .ok (.dt d) := by
  have hB := Datatype.built_of_construct h
  have hbb : dt.base = .dateTime ∨ dt.base = .datetime := by
    rcases hb with hb | hb
    · exact .inl (base_of hB (b := .dateTime) (by rw [hb]; decide +kernel))
    · exact .inr (base_of hB (b := .datetime) (by rw [hb]; decide +kernel))
  have hk : dt.base.kind = .dateTime := by rcases hbb with h | h <;> rw [h] <;> rfl
  have hdesc : dt.descr ext = .ok (.dt ⟨none, none, none⟩) := by
    have hfm := hB.format_kind (by simp [hk]) (by simp [hk])
    rw [hf] at hfm
    unfold Datatype.descr
    rw [hfm]
    rcases hbb with h | h <;> rw [h] <;> rfl
  constructor
  · have ho : ownDatatype (some c) = some dt := by unfold ownDatatype; simp only [hc]
    unfold formatValue
    simp only [ho]
    have hi : isoFor (some dt.base) d = isoText d := by
      unfold isoFor
      rw [isoformat_eq hv htz, if_neg, if_neg]
      · rcases hbb with h | h <;> rw [h] <;> decide
      · rcases hbb with h | h <;> rw [h] <;> decide
    rw [hi, stampText_iso htz hd]
  · unfold Datatype.read Datatype.parse
    rw [hdesc]
    simp only [toPython, hk]
    unfold dateTimeToPython
    rw [if_pos (by rfl), isoparse_jsonStamp ext hv htz]
    exact dt_validate hB hs (.inl hk) d

end

theorem isoFor_split {a b : Str} (ha : 'T' ∉ a) (f : Char → Bool) :
    (a ++ 'T' :: b).takeWhile (· ≠ 'T') = a ∧ ((a ++ 'T' :: b).dropWhile (· ≠ 'T')).drop 1 = b := by
  induction a with
  | nil => simp
  | cons c r ih =>
    simp only [List.mem_cons, not_or] at ha
    have hc : c ≠ 'T' := fun h => ha.1 h.symm
    have := ih ha.2
    rw [List.cons_append, List.takeWhile_cons_of_pos (by simpa using hc), List.dropWhile_cons_of_pos (by simpa using hc)]
    exact ⟨by rw [this.1], this.2⟩

theorem dropWhile_append_all {p : Char → Bool} {a b : Str} (ha : ∀ c ∈ a, p c = true) (hb : b.head?.all (fun c => !p c) = true) : (a ++ b).dropWhile p = b := by
  induction a with
  | nil =>
    cases b with
    | nil => rfl
    | cons c r =>
      simp at hb
      rw [List.nil_append, List.dropWhile_cons_of_neg (by simp [hb])]
  | cons c r ih =>
    rw [List.cons_append, List.dropWhile_cons_of_pos (ha c (by simp))]
    exact ih fun c hc => ha c (by simp [hc])

/-- The literal of a value of a column with base `date`: the date and the timezone, without the time. -/
theorem C67_date {ext : Ext} {jx : JExt} {dt : Datatype} (hb : dt.base = .date) {c : CCol} (hc : c.col.props.datatype = .dtype dt) {d : DateTime}
    (hv : ValidDateTime d) (htz : ∀ o ∈ d.tz, o.natAbs < 1440) :
    formatValue ext jx (some c) (.one (.dt d)) = .ok (.one (.str (dateText d ++ zoneText d.tz))) := by
  have ho : ownDatatype (some c) = some dt := by unfold ownDatatype; simp only [hc]
  unfold formatValue
  simp only [ho]
  have hT : 'T' ∉ dateText d := by
    have := not_mem_numeralN (c := 'T') (by decide)
    unfold dateText
    simp [this]
  have hi : isoFor (some dt.base) d = dateText d ++ isoTzText d.tz := by
    unfold isoFor
    rw [isoformat_eq hv htz, isoText_eq, hb, if_neg (by decide), if_pos rfl]
    have e : dateText d ++ "T".toList ++ timeText d ++ ((if d.micro = 0 then [] else ".".toList ++ numeralN 6 d.micro) ++ isoTzText d.tz) =
        dateText d ++ 'T' :: ((timeText d ++ (if d.micro = 0 then [] else ".".toList ++ numeralN 6 d.micro)) ++ isoTzText d.tz) := by simp
    rw [e]
    obtain ⟨h1, h2⟩ := isoFor_split (b := (timeText d ++ (if d.micro = 0 then [] else ".".toList ++ numeralN 6 d.micro)) ++ isoTzText d.tz) hT (fun _ => true)
    simp only [h1, h2]
    congr 1
    refine dropWhile_append_all ?_ ?_
    · intro c hc
      have hdig : ∀ n k, c ∈ numeralN n k → (c.isDigit || decide (c = '.') || decide (c = ':')) = true := by
        intro n k h
        rw [numeralN_digits n k c h]; rfl
      rcases List.mem_append.1 hc with h | h
      · unfold timeText at h
        simp only [List.mem_append] at h
        rcases h with (((h | h) | h) | h) | h
        · exact hdig _ _ h
        · simp at h; subst h; decide
        · exact hdig _ _ h
        · simp at h; subst h; decide
        · exact hdig _ _ h
      · split at h
        · cases h
        · rcases List.mem_append.1 h with h | h
          · simp at h; subst h; decide
          · exact hdig _ _ h
    · cases d.tz with
      | none => rfl
      | some t =>
        unfold isoTzText
        by_cases h : t < 0
        · simp [h]
        · simp [h]
  rw [hi]
  unfold stampText
  have hdot : '.' ∉ dateText d ++ isoTzText d.tz := by
    intro h
    rcases List.mem_append.1 h with h | h
    · revert h
      have := not_mem_numeralN (c := '.') (by decide)
      unfold dateText
      simp [this]
    · exact not_mem_zone (by decide) (by decide) (by decide) (by decide) _ h
  rw [Dec.partition_none hdot]
  simp only [ne_eq, not_true_eq_false, if_false]
  have hplus : '+' ∉ dateText d := by
    have := not_mem_numeralN (c := '+') (by decide)
    unfold dateText
    simp [this]
  unfold Py.replace
  rw [show "+00:00".toList = '+' :: "00:00".toList from rfl, replaceGo_skip _ hplus]
  have := replace_zone htz
  unfold Py.replace at this
  rw [show "+00:00".toList = '+' :: "00:00".toList from rfl] at this
  rw [this]

/-- **C67** (dates) Whatever the format of the column is, a date is given in JSON in ISO 8601, and the datatype `date` with format `yyyy-MM-dd` reads
this as the same date. -/
theorem C67_date_roundtrip {ext : Ext} {jx : JExt} {other : Base → Derived → J → Res Val} {s : DatatypeSpec} {dt dt' : Datatype}
    (hb : dt'.base = .date) {c : CCol} (hc : c.col.props.datatype = .dtype dt')
    (hs' : s.base = .str "date".toList) (hf : s.format = .str "yyyy-MM-dd".toList) (hs : NoBounds s) (h : Datatype.construct ext other s = .ok dt)
    {y m d : Nat} (hv : ValidDate y m d) :
    formatValue ext jx (some c) (.one (.dt { year := y, month := m, day := d })) = .ok (.one (.str (dateText { year := y, month := m, day := d }))) ∧
    dt.read ext (dateText { year := y, month := m, day := d }) = .ok (.dt { year := y, month := m, day := d }) := by
  constructor
  · have := C67_date (ext := ext) (jx := jx) hb hc (d := { year := y, month := m, day := d }) ⟨hv, Nat.zero_le _, Nat.zero_le _, Nat.zero_le _, Nat.zero_le _⟩ (by simp)
    rw [this]
    simp [zoneText, isoTzText]
  · have := (C29_roundtrip (p := ⟨.ymd, ['-'], true⟩) hs' (by decide +kernel) hf hs h hv).2
    rw [show (⟨.ymd, ['-'], true⟩ : DatePattern).write y m d = dateText { year := y, month := m, day := d } from ?_] at this
    · exact this
    · simp [DatePattern.write, DatePattern.fill, dateText, numeral2]

/-- **Defect**: with a fraction of a second, zeros at the end of the timezone are removed. The text is read as another date-time, or can't be read. -/
theorem C67_fraction_violated (ext : Ext) (jx : JExt) :
    formatValue ext jx none (.one (.dt ⟨2020, 1, 2, 3, 4, 5, 100000, some 90⟩)) = .ok (.one (.str "2020-01-02T03:04:05.100000+01:3".toList)) ∧
    isoparse ext "2020-01-02T03:04:05.100000+01:3".toList = .ok ⟨2020, 1, 2, 3, 4, 5, 100000, some 63⟩ ∧
    formatValue ext jx none (.one (.dt ⟨2020, 1, 2, 3, 4, 5, 100000, some 0⟩)) = .ok (.one (.str "2020-01-02T03:04:05.100000+00:".toList)) ∧
    isoparse ext "2020-01-02T03:04:05.100000+00:".toList = .error .valueError := by
  refine ⟨?_, ?_, ?_, ?_⟩
  · show Except.ok (CVal.one (.str (stampText (isoFor none ⟨2020, 1, 2, 3, 4, 5, 100000, some 90⟩)))) = _
    rw [show stampText (isoFor none ⟨2020, 1, 2, 3, 4, 5, 100000, some 90⟩) = "2020-01-02T03:04:05.100000+01:3".toList by decide +kernel]
  · rfl
  · show Except.ok (CVal.one (.str (stampText (isoFor none ⟨2020, 1, 2, 3, 4, 5, 100000, some 0⟩)))) = _
    rw [show stampText (isoFor none ⟨2020, 1, 2, 3, 4, 5, 100000, some 0⟩) = "2020-01-02T03:04:05.100000+00:".toList by decide +kernel]
  · rfl

/-- Non-vacuity. -/
example : StampSafe ⟨2020, 1, 2, 3, 4, 5, 100000, some 45⟩ ∧ jsonStamp ⟨2020, 1, 2, 3, 4, 5, 100000, some 45⟩ = "2020-01-02T03:04:05.100000+00:45".toList ∧
    StampSafe ⟨2020, 1, 2, 3, 4, 5, 100000, none⟩ ∧ jsonStamp ⟨2020, 1, 2, 3, 4, 5, 100000, none⟩ = "2020-01-02T03:04:05.1".toList ∧
    StampSafe ⟨2020, 1, 2, 3, 4, 5, 0, some 0⟩ ∧ jsonStamp ⟨2020, 1, 2, 3, 4, 5, 0, some 0⟩ = "2020-01-02T03:04:05Z".toList := by
  decide +kernel

end Csvw.Props
