import Verif.Props.C60
/-!
# C61: reading dates and times with a format
-/

namespace Csvw.Props
open Datatypes Spec DateFmt

section
variable {ext : Ext} {other : Base → Derived → J → Res Val} {s : DatatypeSpec} {dt : Datatype}

theorem dt_validate (hB : Datatype.Built ext other s dt) (hn : NoBounds s) (hk : dt.base.kind = .dateTime ∨ dt.base.kind = .time) (d : DateTime) :
    dt.validate ext (.dt d) = .ok (.dt d) := by
  have hlm : dt.base.hasLength = false ∧ dt.base.minmax = true := by
    revert hk; cases dt.base <;> decide
  unfold Datatype.validate
  simp [hB.lengthOk_of_none hlm.1 (v := .dt d) (.inr rfl), hlm.2, boundsOk_of_noBounds hB hn, Except.map]

/-- The description of a datatype with a format. -/
theorem dt_descr (hB : Datatype.Built ext other s dt) (hk : dt.base.kind = .dateTime ∨ dt.base.kind = .time) {f : Str} (hf : s.format = .str f)
    (hf0 : f ≠ []) {F : DTFormat} {mk : Option Str} (hI : IsFormat (decide (dt.base.kind = .time)) f F mk) :
    dt.descr ext = .ok (.dt ⟨some (rxOf F), mk, some f⟩) := by
  obtain ⟨d, hd, -⟩ := hB.descr
  have hfm := hB.format_kind (by rcases hk with h | h <;> simp [h]) (by rcases hk with h | h <;> simp [h])
  rw [hf] at hfm hd
  unfold Datatype.descr
  rw [hfm]
  rw [hd]
  obtain ⟨c, g, rfl⟩ : ∃ c g, f = c :: g := by cases f with | nil => exact absurd rfl hf0 | cons c g => exact ⟨c, g, rfl⟩
  rcases hk with h | h
  · rw [h] at hI
    have hr : formatAndRegex (c :: g) false = _ := far_ok hI
    have e : derived ext dt.base (.str (c :: g)) = if dt.base = .dateTimeStamp then
        (match formatAndRegex (c :: g) false with
          | .error e => .error e
          | .ok d => if d.tzMarker.getD [] = [] then .error .valueError else .ok (.dt d))
        else (formatAndRegex (c :: g) false).map .dt := by
      simp only [derived, h]; rfl
    rw [e, hr] at hd
    split at hd
    · simp only at hd
      split at hd
      · simp at hd
      · rw [← hd]
    · rw [← hd]; rfl
  · rw [h] at hI
    have hr : formatAndRegex (c :: g) true = _ := far_ok hI
    have e : derived ext dt.base (.str (c :: g)) = (formatAndRegex (c :: g) true).map .dt := by
      simp only [derived, h]; rfl
    rw [e, hr] at hd
    rw [← hd]; rfl

/-! ## Times -/

/-- The text of a time consists of digits, colons and points. -/
theorem time_text_chars (p : TimePattern) {h m s fr : Str} (hh : Digits 2 2 h) (hm : Digits 2 2 m) (hs : Digits 2 2 s)
    (hf : ∀ c ∈ fr, c.isDigit = true) : ∀ c ∈ p.fill h m s ++ fracText fr, c.isDigit = true ∨ c = ':' ∨ c = '.' := by
  have hc : ∀ c ∈ (if p.colons then ":".toList else []), c = ':' := by
    intro c hc; split at hc
    · simpa using hc
    · simp at hc
  intro c h'
  rcases List.mem_append.1 h' with h' | h'
  · unfold TimePattern.fill at h'
    simp only [List.mem_append] at h'
    rcases h' with ((h' | h') | h') | h'
    · exact .inl (hh.2.2 c h')
    · exact .inr (.inl (hc c h'))
    · exact .inl (hm.2.2 c h')
    · split at h'
      · rcases List.mem_append.1 h' with h' | h'
        · exact .inr (.inl (hc c h'))
        · exact .inl (hs.2.2 c h')
      · simp at h'
  · unfold fracText at h'
    split at h'
    · simp at h'
    · rcases List.mem_cons.1 h' with rfl | h'
      · exact .inr (.inr rfl)
      · exact .inl (hf c h')

theorem tzSuffix_none {v : Str} (h : ∀ c ∈ v, c ≠ 'Z' ∧ c ≠ '+' ∧ c ≠ '-' ∧ c ≠ '\n') : tzSuffix v = none := by
  unfold tzSuffix
  have hd : dropNl v.reverse = v.reverse := by
    unfold dropNl
    split
    · next r hr => exact absurd rfl (h '\n' (by rw [← List.mem_reverse, hr]; simp)).2.2.2
    · rfl
  simp only [hd]
  split
  · next r hr => exact absurd rfl (h 'Z' (by rw [← List.mem_reverse, hr]; simp)).1
  · next m2 m1 h2 h1 sg r _ hr =>
    rw [if_neg]
    rintro ⟨hsg, _⟩
    have := h sg (by rw [← List.mem_reverse, hr]; simp)
    rcases hsg with rfl | rfl
    · exact this.2.1 rfl
    · exact this.2.2.1 rfl
  · rfl

theorem two_digits {a b : Char} {n : Nat} (ha : a.isDigit = true) (hb : b.isDigit = true) (h : Nat.ofDigitChars 10 [a, b] 0 ≤ 10 * n + 9) :
    '0' ≤ a ∧ a.toNat ≤ 48 + n := by
  have h1 := (Dec.isDigit_iff a).1 ha
  have h2 := (Dec.isDigit_iff b).1 hb
  have e : Nat.ofDigitChars 10 [a, b] 0 = (a.toNat - 48) * 10 + (b.toNat - 48) := by simp [Nat.ofDigitChars]; omega
  rw [e] at h
  refine ⟨?_, by omega⟩
  rw [Char.le_def, UInt32.le_iff_toNat_le]
  exact h1.1

theorem tzSuffix_some {v z : Str} {tz : Option Int} (hz : TzText z tz) (hne : z ≠ []) : tzSuffix (v ++ z) = some (v, z) := by
  have key : ∀ (sg a b c d : Char), (sg = '+' ∨ sg = '-') → a.isDigit = true → b.isDigit = true → c.isDigit = true → d.isDigit = true →
      Nat.ofDigitChars 10 [a, b] 0 ≤ 23 → Nat.ofDigitChars 10 [c, d] 0 ≤ 59 →
      tzSuffix (v ++ (sg :: [a, b] ++ ':' :: [c, d])) = some (v, sg :: [a, b] ++ ':' :: [c, d]) := by
    intro sg a b c d hsg ha hb hc hd h1 h2
    have e : (v ++ (sg :: [a, b] ++ ':' :: [c, d])).reverse = d :: c :: ':' :: b :: a :: sg :: v.reverse := by simp
    unfold tzSuffix
    have hdn : dropNl (d :: c :: ':' :: b :: a :: sg :: v.reverse) = d :: c :: ':' :: b :: a :: sg :: v.reverse := by
      unfold dropNl
      split
      · next hq => simp only [List.cons.injEq] at hq; exact absurd hq.1 (digit_ne hd (by decide))
      · rfl
    rw [e]
    simp only [hdn]
    split
    · next hq => simp only [List.cons.injEq] at hq; exact absurd hq.1 (digit_ne hd (by decide))
    · next hq =>
      simp only [List.cons.injEq] at hq
      obtain ⟨rfl, rfl, _, rfl, rfl, rfl, rfl⟩ := hq
      have t1 := two_digits (n := 2) ha hb (by omega)
      have t2 := two_digits (n := 5) hc hd (by omega)
      rw [if_pos]
      · simp
      · refine ⟨hsg, t1.1, ?_, by rw [isDig_eq]; exact hb, t2.1, ?_, by rw [isDig_eq]; exact hd⟩
        · rw [Char.le_def, UInt32.le_iff_toNat_le]; exact t1.2
        · rw [Char.le_def, UInt32.le_iff_toNat_le]; exact t2.2
    · next hq => exact absurd rfl (hq _ _ _ _ _ _)
  cases hz with
  | none => exact absurd rfl hne
  | zulu => simp [tzSuffix, dropNl]
  | plus hh hm h1 h2 =>
    rename_i hx mx
    obtain ⟨a, b, rfl⟩ := list2 (l := hx) (by have := hh.1; have := hh.2.1; omega)
    obtain ⟨c, d, rfl⟩ := list2 (l := mx) (by have := hm.1; have := hm.2.1; omega)
    exact key '+' a b c d (.inl rfl) (hh.2.2 a (by simp)) (hh.2.2 b (by simp)) (hm.2.2 c (by simp)) (hm.2.2 d (by simp)) h1 h2
  | minus hh hm h1 h2 =>
    rename_i hx mx
    obtain ⟨a, b, rfl⟩ := list2 (l := hx) (by have := hh.1; have := hh.2.1; omega)
    obtain ⟨c, d, rfl⟩ := list2 (l := mx) (by have := hm.1; have := hm.2.1; omega)
    exact key '-' a b c d (.inr rfl) (hh.2.2 a (by simp)) (hh.2.2 b (by simp)) (hm.2.2 c (by simp)) (hm.2.2 d (by simp)) h1 h2

/-- The format of a time. -/
abbrev timeFormat (p : TimePattern) (n : Nat) : DTFormat := ⟨none, none, some p, n⟩

theorem timeFormat_wf (p : TimePattern) (n : Nat) : (timeFormat p n).WF true ∧ (timeFormat p n).Proper :=
  ⟨⟨by simp, by simp⟩, .inr ⟨rfl, by simp⟩⟩

theorem timeFormat_fill (p : TimePattern) (n : Nat) (x : DTText) : (timeFormat p n).fill x = p.fill x.h x.mi x.s ++ fracText x.frac := by
  simp [DTFormat.fill, fracText]

/-- The parser of times. -/
theorem time_parse (ext : Ext) {p : TimePattern} {n : Nat} {x : DTText} (hx : (timeFormat p n).Parts x)
    (htoday : ValidDate ext.today.1 ext.today.2.1 ext.today.2.2) :
    parseRx ext ((timeFormat p n).fill x) (some (rxOf (timeFormat p n))) none =
      if x.frac.length ≤ n ∧ ValidDateTime ((timeFormat p n).valueOf ext.today x none)
      then .ok ((timeFormat p n).valueOf ext.today x none) else .error .valueError := by
  obtain ⟨hWF, hPr⟩ := timeFormat_wf p n
  have hch := time_text_chars p hx.2.1 hx.2.2.1 hx.2.2.2.1 hx.2.2.2.2.1
  rw [← timeFormat_fill p n] at hch
  have hst : Py.strip ((timeFormat p n).fill x) = (timeFormat p n).fill x := by
    refine Dec.strip_eq_self ?_
    intro c hc
    rcases hch c hc with h | rfl | rfl
    · exact digit_not_space (by rw [isDig_eq]; exact h)
    · decide
    · decide
  rw [parseRx_dt ext hWF hPr hx (r := []) (by simp) (by rw [hst, List.append_nil])]
  by_cases hl : n < x.frac.length
  · rw [if_pos hl, if_neg (by omega)]
  · rw [if_neg hl]
    unfold mkDT
    by_cases hv : ValidDateTime ((timeFormat p n).valueOf ext.today x none)
    · rw [if_pos (validDT_full.2 hv), if_pos ⟨by omega, hv⟩]
      rfl
    · rw [if_neg (fun hh => hv (validDT_full.1 hh)), if_neg (fun hh => hv hh.2)]

/-- **C61** (times) With a time pattern and `n` places for fractions of seconds, a text of that form is read as that time of today; it is rejected
if a field is out of range or the fraction has more than `n` digits. -/
theorem C61_time (hb : s.base = .str "time".toList) {p : TimePattern} {n : Nat} (hf : s.format = .str (timeFormat p n).body)
    (hs : NoBounds s) (h : Datatype.construct ext other s = .ok dt) (htoday : ValidDate ext.today.1 ext.today.2.1 ext.today.2.2)
    {x : DTText} (hx : (timeFormat p n).Parts x) :
    dt.read ext ((timeFormat p n).fill x) =
      if x.frac.length ≤ n ∧ ValidDateTime ((timeFormat p n).valueOf ext.today x none)
      then .ok (.dt ((timeFormat p n).valueOf ext.today x none)) else .error .valueError := by
  have hB := Datatype.built_of_construct h
  have hbase := base_of hB (b := .time) (by rw [hb]; decide +kernel)
  have hk : dt.base.kind = .time := by rw [hbase]; rfl
  obtain ⟨hWF, hPr⟩ := timeFormat_wf p n
  have hne : (timeFormat p n).body ≠ [] := by
    have := (time_text p (time_all p)).2
    simp [DTFormat.body, this]
  have hdesc := dt_descr hB (.inr hk) hf hne (F := timeFormat p n) (mk := none) (by rw [hk]; exact .plain hWF)
  have hch := time_text_chars p hx.2.1 hx.2.2.1 hx.2.2.2.1 hx.2.2.2.2.1
  rw [← timeFormat_fill p n] at hch
  have htz : tzSuffix ((timeFormat p n).fill x) = none := by
    refine tzSuffix_none ?_
    intro c hc
    rcases hch c hc with h | rfl | rfl
    · exact ⟨digit_ne h (by decide), digit_ne h (by decide), digit_ne h (by decide), digit_ne h (by decide)⟩
    · decide
    · decide
  have hnx : ((some (timeFormat p n).body).getD []).any (fun c => c = 'x' || c = 'X') = false := by
    rw [List.any_eq_false]
    intro c hc
    have := (body_noX hWF c hc).1
    unfold isX at this
    rw [this]; decide
  unfold Datatype.read Datatype.parse
  rw [hdesc]
  simp only [toPython, hk]
  unfold timeToPython withTz
  rw [if_neg (by rw [hnx]; decide)]
  simp only [htz, time_parse ext hx htoday]
  by_cases hc : x.frac.length ≤ n ∧ ValidDateTime ((timeFormat p n).valueOf ext.today x none)
  · simp only [if_pos hc, Except.map]
    exact dt_validate hB hs (.inr hk) _
  · simp only [if_neg hc, Except.map]

/-- **C61** (times with timezone) A timezone after the time is taken over (as interpreted by `dateutil`). -/
theorem C61_time_tz (hb : s.base = .str "time".toList) {p : TimePattern} {n : Nat} (hf : s.format = .str (timeFormat p n).body)
    (hs : NoBounds s) (h : Datatype.construct ext other s = .ok dt) (htoday : ValidDate ext.today.1 ext.today.2.1 ext.today.2.2)
    {x : DTText} (hx : (timeFormat p n).Parts x) {z : Str} {tz t : Option Int} (hz : TzText z tz) (hz0 : z ≠ []) (hext : ext.tzOf z = .ok t) :
    dt.read ext ((timeFormat p n).fill x ++ z) =
      if x.frac.length ≤ n ∧ ValidDateTime ((timeFormat p n).valueOf ext.today x none)
      then .ok (.dt ((timeFormat p n).valueOf ext.today x t)) else .error .valueError := by
  have hB := Datatype.built_of_construct h
  have hbase := base_of hB (b := .time) (by rw [hb]; decide +kernel)
  have hk : dt.base.kind = .time := by rw [hbase]; rfl
  obtain ⟨hWF, hPr⟩ := timeFormat_wf p n
  have hne : (timeFormat p n).body ≠ [] := by
    have := (time_text p (time_all p)).2
    simp [DTFormat.body, this]
  have hdesc := dt_descr hB (.inr hk) hf hne (F := timeFormat p n) (mk := none) (by rw [hk]; exact .plain hWF)
  have hnx : ((some (timeFormat p n).body).getD []).any (fun c => c = 'x' || c = 'X') = false := by
    rw [List.any_eq_false]
    intro c hc
    have := (body_noX hWF c hc).1
    unfold isX at this
    rw [this]; decide
  unfold Datatype.read Datatype.parse
  rw [hdesc]
  simp only [toPython, hk]
  unfold timeToPython withTz
  rw [if_neg (by rw [hnx]; decide)]
  simp only [tzSuffix_some hz hz0, time_parse ext hx htoday]
  by_cases hc : x.frac.length ≤ n ∧ ValidDateTime ((timeFormat p n).valueOf ext.today x none)
  · simp only [if_pos hc, hext, Except.map]
    exact dt_validate hB hs (.inr hk) _
  · simp only [if_neg hc, Except.map]

end

end Csvw.Props
