import Verif.Props.C61
/-!
# C61: reading date-times with a format
-/

namespace Csvw.Props
open Datatypes Spec DateFmt

/-- The format of a date-time. -/
abbrev dtFormat2 (dp : DatePattern) (c : Char) (tp : TimePattern) (n : Nat) : DTFormat := ⟨some dp, some c, some tp, n⟩

theorem dtFormat2_wf {dp : DatePattern} (hdp : dp ∈ datePatterns14) {c : Char} (hc : c = ' ' ∨ c = 'T') (tp : TimePattern) (n : Nat) :
    (dtFormat2 dp c tp n).WF false ∧ (dtFormat2 dp c tp n).Proper :=
  ⟨⟨by simpa using hdp, hc⟩, by simp [DTFormat.Proper]⟩

theorem dtFormat2_fill (dp : DatePattern) (c : Char) (tp : TimePattern) (n : Nat) (x : DTText) :
    (dtFormat2 dp c tp n).fill x = dp.fill x.y x.m x.d ++ c :: (tp.fill x.h x.mi x.s ++ fracText x.frac) := by
  simp [DTFormat.fill, fracText]

theorem ymd_cases {dp : DatePattern} (hdp : dp ∈ datePatterns14) (h : dp.order = .ymd) :
    dp = ⟨.ymd, [], true⟩ ∨ dp = ⟨.ymd, ['-'], true⟩ := by
  revert dp; decide +kernel

/-- In the other orders the text starts with at most two digits and a separator. -/
theorem isoparse_other (ext : Ext) {dp : DatePattern} (hdp : dp ∈ datePatterns14) (ho : dp.order ≠ .ymd) {y m d : Str} (h : dp.Parts y m d)
    (r : Str) : isoparse ext (dp.fill y m d ++ r) = .error .valueError := by
  have hlo : 1 ≤ (if dp.padded then 2 else 1) := by split <;> omega
  have hs : ∃ c, c ∈ ['-', '/', '.'] ∧ dp.sep = [c] := by
    clear h hlo
    have key : ∀ q ∈ datePatterns14, q.order ≠ .ymd → q.sep = ['-'] ∨ q.sep = ['/'] ∨ q.sep = ['.'] := by decide +kernel
    rcases key dp hdp ho with h | h | h
    · exact ⟨_, by simp, h⟩
    · exact ⟨_, by simp, h⟩
    · exact ⟨_, by simp, h⟩
  obtain ⟨c, hc, hs⟩ := hs
  unfold DatePattern.fill
  split
  · next h' => exact absurd h' ho
  · rw [hs]
    simp only [List.append_assoc, List.cons_append, List.nil_append]
    exact isoparse_dmy ext (Digits.weaken h.2.2 hlo) hc
  · rw [hs]
    simp only [List.append_assoc, List.cons_append, List.nil_append]
    exact isoparse_dmy ext (Digits.weaken h.2.1 hlo) hc

/-- The first and the last characters of the text are digits. -/
theorem date_head_digit (dp : DatePattern) {y m d : Str} (h : dp.Parts y m d) (r : Str) :
    ∃ c, (dp.fill y m d ++ r).head? = some c ∧ c.isDigit = true := by
  have key : ∀ {q : Str} {lo hi : Nat} (r : Str), Digits lo hi q → 1 ≤ lo → ∃ c, (q ++ r).head? = some c ∧ c.isDigit = true := by
    intro q lo hi r hq hl
    cases q with
    | nil => have := hq.1; simp at this; omega
    | cons c q => exact ⟨c, rfl, hq.2.2 c (by simp)⟩
  have hlo : 1 ≤ (if dp.padded then 2 else 1) := by split <;> omega
  unfold DatePattern.fill
  split
  · simp only [List.append_assoc]; exact key _ h.1 (by omega)
  · simp only [List.append_assoc]; exact key _ h.2.2 hlo
  · simp only [List.append_assoc]; exact key _ h.2.1 hlo

theorem last_digit {q : Str} {lo hi : Nat} (r : Str) (hq : Digits lo hi q) (hl : 1 ≤ lo) : ∃ c, (r ++ q).getLast? = some c ∧ c.isDigit = true := by
  have hne : q ≠ [] := by rintro rfl; have := hq.1; simp at this; omega
  refine ⟨q.getLast hne, ?_, hq.2.2 _ (List.getLast_mem hne)⟩
  rw [List.getLast?_append, List.getLast?_eq_some_getLast hne]; rfl

theorem time_last_digit (p : TimePattern) {h m s fr : Str} (hm : Digits 2 2 m) (hs : Digits 2 2 s)
    (hf : ∀ c ∈ fr, c.isDigit = true) (r : Str) : ∃ c, (r ++ (p.fill h m s ++ fracText fr)).getLast? = some c ∧ c.isDigit = true := by
  unfold fracText
  by_cases hn : fr = []
  · rw [if_pos hn, List.append_nil]
    unfold TimePattern.fill
    simp only
    generalize (if p.colons then ":".toList else []) = k
    split
    · have := last_digit (r ++ (h ++ k ++ m ++ k)) hs (by omega)
      simpa only [List.append_assoc] using this
    · have := last_digit (r ++ (h ++ k)) hm (by omega)
      simpa only [List.append_assoc, List.append_nil] using this
  · rw [if_neg hn]
    have hq : Digits 1 fr.length fr := ⟨by cases fr with | nil => exact absurd rfl hn | cons _ _ => simp, Nat.le_refl _, hf⟩
    have := last_digit (r ++ (p.fill h m s ++ ['.'])) hq (by omega)
    simpa only [List.append_assoc, List.cons_append, List.nil_append] using this

theorem strip_dt {dp : DatePattern} {c : Char} {tp : TimePattern} {n : Nat} {x : DTText} (hx : (dtFormat2 dp c tp n).Parts x) :
    Py.strip ((dtFormat2 dp c tp n).fill x) = (dtFormat2 dp c tp n).fill x := by
  have hd : dp.Parts x.y x.m x.d := hx.1 dp rfl
  rw [dtFormat2_fill]
  obtain ⟨a, ha, ha'⟩ := date_head_digit dp hd (c :: (tp.fill x.h x.mi x.s ++ fracText x.frac))
  obtain ⟨b, hb, hb'⟩ := time_last_digit tp (h := x.h) (m := x.mi) (s := x.s) (fr := x.frac) hx.2.2.1 hx.2.2.2.1 hx.2.2.2.2.1
    (dp.fill x.y x.m x.d ++ [c])
  refine strip_id ?_ ?_
  · intro u hu
    rw [ha] at hu
    simp only [Option.mem_def, Option.some.injEq] at hu
    rw [← hu]; exact digit_not_space (by rw [isDig_eq]; exact ha')
  · intro u hu
    have e : dp.fill x.y x.m x.d ++ c :: (tp.fill x.h x.mi x.s ++ fracText x.frac) =
      dp.fill x.y x.m x.d ++ [c] ++ (tp.fill x.h x.mi x.s ++ fracText x.frac) := by simp
    rw [e, hb] at hu
    simp only [Option.mem_def, Option.some.injEq] at hu
    rw [← hu]; exact digit_not_space (by rw [isDig_eq]; exact hb')

theorem mkDT_valid (d : DateTime) : mkDT d = if ValidDateTime d then .ok d else .error .valueError := by
  unfold mkDT
  by_cases hv : ValidDateTime d
  · rw [if_pos (validDT_full.2 hv), if_pos hv]
  · rw [if_neg (fun hh => hv (validDT_full.1 hh)), if_neg hv]

theorem nextDay_spec {y m d y' m' d' : Nat} {tz : Option Int} (hv : ValidDate y m d) (hn : NextDate y m d y' m' d') :
    nextDay ⟨y, m, d, 0, 0, 0, 0, tz⟩ = if y' ≤ 9999 then .ok ⟨y', m', d', 0, 0, 0, 0, tz⟩ else .error .overflowError := by
  have hd : daysIn y m = (if m = 2 then (if (4 ∣ y ∧ ¬ 100 ∣ y) ∨ 400 ∣ y then 29 else 28)
      else if m = 4 ∨ m = 6 ∨ m = 9 ∨ m = 11 then 30 else 31) := by
    unfold daysIn
    by_cases hm : m = 2
    · rw [if_pos hm, if_pos hm]
      by_cases hl : (4 ∣ y ∧ ¬ 100 ∣ y) ∨ 400 ∣ y
      · rw [if_pos hl, if_pos (by omega)]
      · rw [if_neg hl, if_neg (by omega)]
    · rw [if_neg hm, if_neg hm]
  have hval : ValidDate y m (d + 1) ↔ d < daysIn y m := by
    rw [hd]
    unfold ValidDate at hv ⊢
    constructor
    · intro h; omega
    · intro h; exact ⟨hv.1, hv.2.1, hv.2.2.1, hv.2.2.2.1, by omega, by omega⟩
  unfold NextDate at hn
  unfold nextDay
  simp only
  have hy := hv.2.1
  rcases hn with ⟨h1, rfl, rfl, rfl⟩ | ⟨h1, h2, rfl, rfl, rfl⟩ | ⟨h1, h2, rfl, rfl, rfl⟩
  · rw [if_pos (hval.1 h1), if_pos hy]
  · rw [if_neg (fun h => h1 (hval.2 h)), if_pos h2, if_pos hy]
  · rw [if_neg (fun h => h1 (hval.2 h)), if_neg (by omega)]
    by_cases h9 : y < 9999
    · rw [if_pos h9, if_pos (by omega)]
    · rw [if_neg h9, if_neg (by omega)]

theorem tz_head' {z : Str} {tz : Option Int} (hz : TzText z tz) : ∀ c ∈ z.head?, isDig c = false ∧ c ≠ '.' := by
  intro c hc
  rcases tz_head hz c hc with rfl | rfl | rfl <;> decide

section
variable {ext : Ext} {other : Base → Derived → J → Res Val} {s : DatatypeSpec} {dt : Datatype}

/-- What reading amounts to. -/
theorem dt_read (hB : Datatype.Built ext other s dt) (hk : dt.base.kind = .dateTime) {f : Str} (hf : s.format = .str f) (hf0 : f ≠ [])
    {F : DTFormat} {mk : Option Str} (hI : IsFormat false f F mk) (hP : F.Proper) (hn : NoBounds s) {x : DTText} (hx : F.Parts x) {z : Str}
    (hz : ∀ c ∈ z.head?, isDig c = false ∧ c ≠ '.') :
    dt.read ext (F.fill x ++ z) = (match isoparse ext (F.fill x ++ z) with
      | .error .valueError => (parseRx ext (F.fill x ++ z) (some (rxOf F)) mk).map .dt
      | r => r.map .dt) := by
  have hdesc := dt_descr hB (.inl hk) hf hf0 (by rw [hk]; exact hI)
  have hWF : F.WF false := by cases hI <;> assumption
  unfold Datatype.read Datatype.parse
  rw [hdesc]
  simp only [toPython, hk]
  unfold dateTimeToPython
  have hpre : preMatch (F.fill x ++ z) (some (rxOf F)) (some f) = true := by
    unfold preMatch
    cases f with
    | nil => exact absurd rfl hf0
    | cons a f =>
      simp only [Option.getD_some]
      rw [match_dt hWF hP hx hz]; rfl
  rw [if_pos hpre]
  generalize isoparse ext (F.fill x ++ z) = R
  cases R with
  | error e =>
    cases e <;> try rfl
    generalize parseRx ext (F.fill x ++ z) (some (rxOf F)) mk = P
    cases P with
    | error e => rfl
    | ok d => exact dt_validate hB hn (.inl hk) d
  | ok d => exact dt_validate hB hn (.inl hk) d

theorem body_ne {F : DTFormat} (hP : F.Proper) (hs : F.sep ≠ none) : F.body ≠ [] := by
  intro h
  unfold DTFormat.body at h
  simp only [List.append_eq_nil_iff] at h
  cases hq : F.sep with
  | none => exact hs hq
  | some c => rw [hq] at h; simp at h

/-- **C61** (date-times) With a format made of a date pattern, a separator and a time pattern with `n` places for fractions of seconds, a
text of that form is read as the date-time it denotes; it is rejected if a field is out of range or the fraction has more than `n` digits.
Exception: if the date pattern is `yyyy-MM-dd` or `yyyyMMdd` and the time pattern has seconds, the text is read as ISO 8601 first,
which allows any number of digits in the fraction (the digits after the sixth are dropped) and hour 24 (`C61_midnight`). -/
theorem C61_datetime (hb : s.base = .str "dateTime".toList ∨ s.base = .str "datetime".toList) {dp : DatePattern} (hdp : dp ∈ datePatterns14)
    {c : Char} (hc : c = ' ' ∨ c = 'T') {tp : TimePattern} {n : Nat} (hf : s.format = .str (dtFormat2 dp c tp n).body) (hs : NoBounds s)
    (h : Datatype.construct ext other s = .ok dt) {x : DTText} (hx : (dtFormat2 dp c tp n).Parts x)
    (h24 : dp.order = .ymd → numeralValue x.h ≠ 24) :
    dt.read ext ((dtFormat2 dp c tp n).fill x) =
      if (x.frac.length ≤ n ∨ (dp.order = .ymd ∧ tp.seconds = true)) ∧ ValidDateTime ((dtFormat2 dp c tp n).valueOf ext.today x none)
      then .ok (.dt ((dtFormat2 dp c tp n).valueOf ext.today x none)) else .error .valueError := by
  have hB := Datatype.built_of_construct h
  have hk : dt.base.kind = .dateTime := by
    rcases hb with hb | hb
    · rw [base_of hB (b := .dateTime) (by rw [hb]; decide +kernel)]; rfl
    · rw [base_of hB (b := .datetime) (by rw [hb]; decide +kernel)]; rfl
  obtain ⟨hWF, hPr⟩ := dtFormat2_wf hdp hc tp n
  have hR := dt_read hB hk hf (body_ne hPr (by simp)) (.plain hWF) hPr hs hx (z := []) (by simp)
  rw [List.append_nil] at hR
  rw [hR]
  have hd : dp.Parts x.y x.m x.d := hx.1 dp rfl
  have hprx := parseRx_dt ext hWF hPr hx (r := []) (by simp) (v := (dtFormat2 dp c tp n).fill x) (by rw [strip_dt hx, List.append_nil]) none
  have hsoft : (parseRx ext ((dtFormat2 dp c tp n).fill x) (some (rxOf (dtFormat2 dp c tp n))) none).map Val.dt =
      if x.frac.length ≤ n ∧ ValidDateTime ((dtFormat2 dp c tp n).valueOf ext.today x none)
      then .ok (.dt ((dtFormat2 dp c tp n).valueOf ext.today x none)) else .error .valueError := by
    rw [hprx, mkDT_valid]
    by_cases hl : n < x.frac.length
    · rw [if_pos hl, if_neg (by omega)]; rfl
    · rw [if_neg hl]
      by_cases hv : ValidDateTime ((dtFormat2 dp c tp n).valueOf ext.today x none)
      · rw [if_pos hv, if_pos ⟨by omega, hv⟩]; rfl
      · rw [if_neg hv, if_neg (fun hh => hv hh.2)]; rfl
  by_cases ho : dp.order = .ymd
  · rcases Bool.eq_false_or_eq_true tp.seconds with hsec | hsec
    · have hiso := isoparse_text ext (ymd_cases hdp ho) tp hd (c := c) (by rcases hc with rfl | rfl <;> decide) hx.2.1 hx.2.2.1 hx.2.2.2.1
        hx.2.2.2.2.1 (z := []) .none (.inl hsec) (h24 ho)
      rw [List.append_nil, ← dtFormat2_fill dp c tp n] at hiso
      have ev : (dtFormat2 dp c tp n).valueOf ext.today x none =
          ⟨Dec.numeral x.y, Dec.numeral x.m, Dec.numeral x.d, Dec.numeral x.h, Dec.numeral x.mi, if tp.seconds then Dec.numeral x.s else 0,
            fracMicros x.frac, none⟩ := by
        simp [DTFormat.valueOf, hsec, numeralValue, Dec.numeral]
      rw [← ev, mkDT_valid] at hiso
      rw [hiso]
      by_cases hv : ValidDateTime ((dtFormat2 dp c tp n).valueOf ext.today x none)
      · rw [if_pos hv, if_pos ⟨.inr ⟨ho, hsec⟩, hv⟩]; rfl
      · rw [if_neg hv, if_neg (fun hh => hv hh.2)]
        simp only
        rw [hsoft, if_neg (fun hh => hv hh.2)]
    · simp only [show (x.frac.length ≤ n ∨ (dp.order = .ymd ∧ tp.seconds = true)) = (x.frac.length ≤ n) by simp [hsec]]
      by_cases hfr : x.frac = []
      · have hiso := isoparse_text ext (ymd_cases hdp ho) tp hd (c := c) (by rcases hc with rfl | rfl <;> decide) hx.2.1 hx.2.2.1 hx.2.2.2.1
          hx.2.2.2.2.1 (z := []) .none (.inr hfr) (h24 ho)
        rw [List.append_nil, ← dtFormat2_fill dp c tp n] at hiso
        have ev : (dtFormat2 dp c tp n).valueOf ext.today x none =
            ⟨Dec.numeral x.y, Dec.numeral x.m, Dec.numeral x.d, Dec.numeral x.h, Dec.numeral x.mi, if tp.seconds then Dec.numeral x.s else 0,
              fracMicros x.frac, none⟩ := by
          simp [DTFormat.valueOf, hsec, numeralValue, Dec.numeral]
        rw [← ev, mkDT_valid] at hiso
        rw [hiso]
        by_cases hv : ValidDateTime ((dtFormat2 dp c tp n).valueOf ext.today x none)
        · rw [if_pos hv, if_pos ⟨by simp [hfr], hv⟩]; rfl
        · rw [if_neg hv, if_neg (fun hh => hv hh.2)]
          simp only
          rw [hsoft, if_neg (fun hh => hv hh.2)]
      · have hiso : isoparse ext ((dtFormat2 dp c tp n).fill x) = .error .valueError := by
          rw [dtFormat2_fill, isoparse_fill ext (ymd_cases hdp ho) hd (by rcases hc with rfl | rfl <;> decide)
            ((ascii_time tp hx.2.1 hx.2.2.1 hx.2.2.2.1).append (ascii_frac hx.2.2.2.2.1))]
          have := isoTime_nosec tp (h := x.h) (m := x.mi) (s := x.s) (z := []) hx.2.1 hx.2.2.1 hfr hsec
          rw [List.append_nil] at this
          rw [this]
        rw [hiso]
        exact hsoft
  · simp only [show (x.frac.length ≤ n ∨ (dp.order = .ymd ∧ tp.seconds = true)) = (x.frac.length ≤ n) by simp [ho]]
    have hiso : isoparse ext ((dtFormat2 dp c tp n).fill x) = .error .valueError := by
      rw [dtFormat2_fill]; exact isoparse_other ext hdp ho hd _
    rw [hiso]
    exact hsoft

/-- **C61** (timezones) With an ISO date pattern a timezone after the text is taken over, whether or not the format has a marker; this is how
date-time stamps are read. -/
theorem C61_datetime_tz (hb : s.base = .str "dateTime".toList ∨ s.base = .str "datetime".toList ∨ s.base = .str "dateTimeStamp".toList)
    {dp : DatePattern} (hdp : dp ∈ datePatterns14) (ho : dp.order = .ymd)
    {c : Char} (hc : c = ' ' ∨ c = 'T') {tp : TimePattern} {n : Nat} {f : Str} {mk : Option Str} (hf : s.format = .str f)
    (hI : IsFormat false f (dtFormat2 dp c tp n) mk) (hs : NoBounds s)
    (h : Datatype.construct ext other s = .ok dt) {x : DTText} (hx : (dtFormat2 dp c tp n).Parts x) {z : Str} {tz : Option Int} (hz : TzText z tz)
    (hsec : tp.seconds = true ∨ x.frac = []) (hv : ValidDateTime ((dtFormat2 dp c tp n).valueOf ext.today x tz)) :
    dt.read ext ((dtFormat2 dp c tp n).fill x ++ z) = .ok (.dt ((dtFormat2 dp c tp n).valueOf ext.today x tz)) := by
  have hB := Datatype.built_of_construct h
  have hk : dt.base.kind = .dateTime := by
    rcases hb with hb | hb | hb
    · rw [base_of hB (b := .dateTime) (by rw [hb]; decide +kernel)]; rfl
    · rw [base_of hB (b := .datetime) (by rw [hb]; decide +kernel)]; rfl
    · rw [base_of hB (b := .dateTimeStamp) (by rw [hb]; decide +kernel)]; rfl
  obtain ⟨hWF, hPr⟩ := dtFormat2_wf hdp hc tp n
  have hd : dp.Parts x.y x.m x.d := hx.1 dp rfl
  have hf0 : f ≠ [] := by
    have hne := body_ne hPr (by simp)
    cases hI with
    | plain => exact hne
    | marked => simp [hne]
  rw [dt_read hB hk hf hf0 hI hPr hs hx (tz_head' hz)]
  have ev : (dtFormat2 dp c tp n).valueOf ext.today x tz =
      ⟨Dec.numeral x.y, Dec.numeral x.m, Dec.numeral x.d, Dec.numeral x.h, Dec.numeral x.mi, if tp.seconds then Dec.numeral x.s else 0,
        fracMicros x.frac, tz⟩ := by
    simp [DTFormat.valueOf, numeralValue, Dec.numeral]
  have hiso := isoparse_text ext (ymd_cases hdp ho) tp hd (c := c) (by rcases hc with rfl | rfl <;> decide) hx.2.1 hx.2.2.1 hx.2.2.2.1
    hx.2.2.2.2.1 hz hsec (by
      have := hv.2.1
      rw [ev] at this
      simp only at this
      omega)
  rw [← ev, mkDT_valid, if_pos hv] at hiso
  have efill : (dtFormat2 dp c tp n).fill x ++ z = dp.fill x.y x.m x.d ++ c :: (tp.fill x.h x.mi x.s ++ (fracText x.frac ++ z)) := by
    rw [dtFormat2_fill]; simp
  rw [efill, hiso]
  rfl

/-- With the other date patterns and a format without timezone marker a timezone in the text is dropped without notice. -/
theorem C61_violated_timezone_lost (hb : s.base = .str "dateTime".toList) {dp : DatePattern} (hdp : dp ∈ datePatterns14) (ho : dp.order ≠ .ymd)
    {c : Char} (hc : c = ' ' ∨ c = 'T') {tp : TimePattern} {n : Nat} (hf : s.format = .str (dtFormat2 dp c tp n).body) (hs : NoBounds s)
    (h : Datatype.construct ext other s = .ok dt) {x : DTText} (hx : (dtFormat2 dp c tp n).Parts x) (hl : x.frac.length ≤ n)
    (hv : ValidDateTime ((dtFormat2 dp c tp n).valueOf ext.today x none)) {z : Str} {tz : Option Int} (hz : TzText z tz) :
    dt.read ext ((dtFormat2 dp c tp n).fill x ++ z) = .ok (.dt ((dtFormat2 dp c tp n).valueOf ext.today x none)) := by
  have hB := Datatype.built_of_construct h
  have hk : dt.base.kind = .dateTime := by
    rw [base_of hB (b := .dateTime) (by rw [hb]; decide +kernel)]; rfl
  obtain ⟨hWF, hPr⟩ := dtFormat2_wf hdp hc tp n
  have hd : dp.Parts x.y x.m x.d := hx.1 dp rfl
  rw [dt_read hB hk hf (body_ne hPr (by simp)) (.plain hWF) hPr hs hx (tz_head' hz)]
  have hiso : isoparse ext ((dtFormat2 dp c tp n).fill x ++ z) = .error .valueError := by
    rw [dtFormat2_fill, List.append_assoc]; exact isoparse_other ext hdp ho hd _
  rw [hiso]
  simp only
  have hstrip : Py.strip ((dtFormat2 dp c tp n).fill x ++ z) = (dtFormat2 dp c tp n).fill x ++ z := by
    by_cases hz0 : z = []
    · rw [hz0, List.append_nil, strip_dt hx]
    · refine strip_id ?_ ?_
      · obtain ⟨a, ha, ha'⟩ := date_head_digit dp hd (c :: (tp.fill x.h x.mi x.s ++ fracText x.frac) ++ z)
        rw [dtFormat2_fill, List.append_assoc, ha]
        intro u hu
        simp only [Option.mem_def, Option.some.injEq] at hu
        rw [← hu]; exact digit_not_space (by rw [isDig_eq]; exact ha')
      · intro u hu
        rw [List.getLast?_append, List.getLast?_eq_some_getLast hz0] at hu
        simp only [Option.some_or, Option.mem_def, Option.some.injEq] at hu
        rw [← hu]
        cases hz with
        | none => exact absurd rfl hz0
        | zulu => rfl
        | plus hh hm h1 h2 =>
          rename_i a b
          obtain ⟨e, he, he'⟩ := last_digit ('+' :: a ++ [':']) hm (by omega)
          simp only [List.append_assoc, List.cons_append, List.nil_append] at he
          rw [List.getLast?_eq_some_getLast (by simp)] at he
          simp only [Option.some.injEq] at he
          rw [← he] at he'
          exact digit_not_space (by rw [isDig_eq]; exact he')
        | minus hh hm h1 h2 =>
          rename_i a b
          obtain ⟨e, he, he'⟩ := last_digit ('-' :: a ++ [':']) hm (by omega)
          simp only [List.append_assoc, List.cons_append, List.nil_append] at he
          rw [List.getLast?_eq_some_getLast (by simp)] at he
          simp only [Option.some.injEq] at he
          rw [← he] at he'
          exact digit_not_space (by rw [isDig_eq]; exact he')
  rw [parseRx_dt ext hWF hPr hx (tz_head' hz) hstrip none, if_neg (by simpa using hl), mkDT_valid, if_pos hv]
  rfl

/-- **C61** (hour 24) With an ISO date pattern the hour 24 denotes midnight at the end of the day, i.e. the start of the next day; with
minutes, seconds or fractions it is rejected, and so it is after the last day, 9999-12-31 (with `OverflowError`, which is not a
`ValueError`). -/
theorem C61_midnight (hb : s.base = .str "dateTime".toList ∨ s.base = .str "datetime".toList) {dp : DatePattern} (hdp : dp ∈ datePatterns14)
    (ho : dp.order = .ymd) {c : Char} (hc : c = ' ' ∨ c = 'T') {tp : TimePattern} {n : Nat} (hf : s.format = .str (dtFormat2 dp c tp n).body)
    (hs : NoBounds s) (h : Datatype.construct ext other s = .ok dt) {x : DTText} (hx : (dtFormat2 dp c tp n).Parts x)
    (hsec : tp.seconds = true ∨ x.frac = []) (h24 : numeralValue x.h = 24)
    (hvd : ValidDate (numeralValue x.y) (numeralValue x.m) (numeralValue x.d)) :
    let d := (dtFormat2 dp c tp n).valueOf ext.today x none
    if d.minute = 0 ∧ d.second = 0 ∧ d.micro = 0 then
      (∀ y' m' d', NextDate d.year d.month d.day y' m' d' →
        dt.read ext ((dtFormat2 dp c tp n).fill x) = if y' ≤ 9999 then .ok (.dt ⟨y', m', d', 0, 0, 0, 0, none⟩) else .error .overflowError)
    else dt.read ext ((dtFormat2 dp c tp n).fill x) = .error .valueError := by
  intro d
  have hB := Datatype.built_of_construct h
  have hk : dt.base.kind = .dateTime := by
    rcases hb with hb | hb
    · rw [base_of hB (b := .dateTime) (by rw [hb]; decide +kernel)]; rfl
    · rw [base_of hB (b := .datetime) (by rw [hb]; decide +kernel)]; rfl
  obtain ⟨hWF, hPr⟩ := dtFormat2_wf hdp hc tp n
  have hR := dt_read hB hk hf (body_ne hPr (by simp)) (.plain hWF) hPr hs hx (z := []) (by simp)
  rw [List.append_nil] at hR
  have hd : dp.Parts x.y x.m x.d := hx.1 dp rfl
  have h24' : Dec.numeral x.h = 24 := h24
  have ev : d = ⟨Dec.numeral x.y, Dec.numeral x.m, Dec.numeral x.d, Dec.numeral x.h, Dec.numeral x.mi, if tp.seconds then Dec.numeral x.s else 0,
        fracMicros x.frac, none⟩ := by
    simp [d, DTFormat.valueOf, numeralValue, Dec.numeral]
  have hiso := isoparse_fill ext (ymd_cases hdp ho) hd (c := c) (by rcases hc with rfl | rfl <;> decide)
      ((ascii_time tp hx.2.1 hx.2.2.1 hx.2.2.2.1).append (ascii_frac hx.2.2.2.2.1))
  rw [← dtFormat2_fill dp c tp n] at hiso
  have ht := isoTime_text tp hx.2.1 hx.2.2.1 hx.2.2.2.1 hx.2.2.2.2.1 (z := []) .none hsec rfl rfl rfl rfl
  rw [List.append_nil] at ht
  rw [ht] at hiso
  by_cases hz : d.minute = 0 ∧ d.second = 0 ∧ d.micro = 0
  · rw [if_pos hz]
    rw [ev] at hz
    simp only at hz
    intro y' m' d' hN
    rw [ev] at hN
    simp only at hN
    rw [if_neg (by omega)] at hiso
    simp only at hiso
    rw [if_pos (by omega), mkDT_valid, if_pos ⟨hvd, by simp⟩] at hiso
    simp only at hiso
    rw [nextDay_spec (y := Dec.numeral x.y) (m := Dec.numeral x.m) (d := Dec.numeral x.d) hvd hN] at hiso
    rw [hR, hiso]
    by_cases hy : y' ≤ 9999
    · rw [if_pos hy, if_pos hy]; rfl
    · rw [if_neg hy, if_neg hy]; rfl
  · rw [if_neg hz]
    rw [ev] at hz
    simp only at hz
    rw [if_pos (by omega)] at hiso
    rw [hR, hiso]
    have hprx := parseRx_dt ext hWF hPr hx (r := []) (by simp) (v := (dtFormat2 dp c tp n).fill x) (by rw [strip_dt hx, List.append_nil]) none
    simp only
    rw [hprx, mkDT_valid]
    by_cases hl : (dtFormat2 dp c tp n).frac < x.frac.length
    · rw [if_pos hl]; rfl
    · rw [if_neg hl, if_neg]
      · rfl
      · intro hv
        have := hv.2.1
        simp [DTFormat.valueOf, h24] at this

end

/-- Hypotheses can be met. -/
theorem C61_example (ext : Ext) (other : Base → Derived → J → Res Val) :
    ∃ dt, Datatype.construct ext other { base := .str "dateTime".toList, format := .str "d.M.yyyy HH:mm:ss.SS".toList } = .ok dt ∧
      dt.read ext "3.12.2021 10:20:30.5".toList = .ok (.dt ⟨2021, 12, 3, 10, 20, 30, 500000, none⟩) ∧
      dt.read ext "3.12.2021 10:20:30.5+05:00".toList = .ok (.dt ⟨2021, 12, 3, 10, 20, 30, 500000, none⟩) ∧
      dt.read ext "3.12.2021 10:20:30.567".toList = .error .valueError := by
  have hb : (dtFormat2 ⟨.dmy, ['.'], false⟩ ' ' ⟨true, true⟩ 2).body = "d.M.yyyy HH:mm:ss.SS".toList := by decide
  have hmem : (⟨.dmy, ['.'], false⟩ : DatePattern) ∈ datePatterns14 := by decide +kernel
  obtain ⟨dt, hdt⟩ := (C60_datetime_formats ext other (.inl rfl) "d.M.yyyy HH:mm:ss.SS".toList).1.2
    ⟨dtFormat2 ⟨.dmy, ['.'], false⟩ ' ' ⟨true, true⟩ 2, none, by
      rw [← hb]; exact .plain (dtFormat2_wf hmem (.inl rfl) _ _).1⟩
  have hP : ∀ fr : Str, (∀ c ∈ fr, c.isDigit = true) → (dtFormat2 ⟨.dmy, ['.'], false⟩ ' ' ⟨true, true⟩ 2).Parts
      ⟨"2021".toList, "12".toList, "3".toList, "10".toList, "20".toList, "30".toList, fr⟩ := by
    intro fr hfr
    have d10 : Digits 2 2 "10".toList := ⟨by decide, by decide, by decide⟩
    have d20 : Digits 2 2 "20".toList := ⟨by decide, by decide, by decide⟩
    have d30 : Digits 2 2 "30".toList := ⟨by decide, by decide, by decide⟩
    have d2021 : Digits 4 4 "2021".toList := ⟨by decide, by decide, by decide⟩
    have d12 : Digits 1 2 "12".toList := ⟨by decide, by decide, by decide⟩
    have d3 : Digits 1 2 "3".toList := ⟨by decide, by decide, by decide⟩
    refine ⟨?_, d10, d20, d30, hfr, by simp⟩
    intro p hp
    simp only [Option.mem_def, Option.some.injEq] at hp
    rw [← hp]
    exact ⟨d2021, d12, d3⟩
  refine ⟨dt, hdt, ?_, ?_, ?_⟩
  · have := C61_datetime (.inl rfl) hmem (.inl rfl) (by rw [hb]) ⟨rfl, rfl, rfl, rfl, rfl, rfl⟩ hdt (hP "5".toList (by decide)) (by decide)
    exact this
  · have := C61_violated_timezone_lost rfl hmem (by decide) (.inl rfl) (by rw [hb]) ⟨rfl, rfl, rfl, rfl, rfl, rfl⟩ hdt (hP "5".toList (by decide)) (by decide)
      (show ValidDateTime ⟨2021, 12, 3, 10, 20, 30, 500000, none⟩ by decide) (z := "+05:00".toList) (.plus (h := "05".toList) (m := "00".toList)
        ⟨by decide, by decide, by decide⟩ ⟨by decide, by decide, by decide⟩ (by decide) (by decide))
    exact this
  · have := C61_datetime (.inl rfl) hmem (.inl rfl) (by rw [hb]) ⟨rfl, rfl, rfl, rfl, rfl, rfl⟩ hdt (hP "567".toList (by decide)) (by decide)
    exact this

end Csvw.Props
