import Verif.Lemmas.DateTimes
import Verif.Spec.DateValues
/-!
# Lemmas about reading date-times
-/

namespace Csvw.DateFmt
open Py Csvw.Spec

theorem numeral_bound {s : Str} (h : ∀ c ∈ s, c.isDigit = true) : Dec.numeral s < 10 ^ s.length := by
  induction s with
  | nil => simp [Dec.numeral]
  | cons c s ih =>
    have ih := ih (fun x hx => h x (by simp [hx]))
    have h1 : Dec.numeral [c] ≤ 9 := by
      have := (Dec.isDigit_iff c).1 (h c (by simp))
      have e : Dec.numeral [c] = c.toNat - 48 := by simp [Dec.numeral, Nat.ofDigitChars]
      omega
    rw [show c :: s = [c] ++ s from rfl, Dec.numeral_append]
    simp only [List.length_append, List.length_cons, List.length_nil, Nat.zero_add, Nat.pow_add]
    calc 10 ^ s.length * Dec.numeral [c] + Dec.numeral s < 10 ^ s.length * Dec.numeral [c] + 10 ^ s.length := by omega
      _ ≤ 10 ^ s.length * 9 + 10 ^ s.length := by
        have := Nat.mul_le_mul_left (10 ^ s.length) h1; omega
      _ = _ := by omega

/-- The microseconds are those of the fraction, rounded down. -/
theorem micro6_value {ds : Str} (h : ∀ c ∈ ds, c.isDigit = true) : Dec.numeral (micro6 ds) = fracMicros ds := by
  unfold micro6 fracMicros
  rw [Dec.numeral_append_zeros]
  change _ = Dec.numeral ds * 10 ^ 6 / 10 ^ ds.length
  by_cases hl : ds.length ≤ 6
  · rw [List.take_of_length_le hl]
    have : 10 ^ 6 = 10 ^ (6 - ds.length) * 10 ^ ds.length := by rw [← Nat.pow_add]; congr 1; omega
    rw [this, ← Nat.mul_assoc, Nat.mul_div_cancel _ (Nat.pow_pos (by decide))]
  · have e : Dec.numeral ds = 10 ^ (ds.length - 6) * Dec.numeral (ds.take 6) + Dec.numeral (ds.drop 6) := by
      have := Dec.numeral_append (ds.take 6) (ds.drop 6)
      rw [List.take_append_drop] at this
      rw [this]; simp
    have hb := numeral_bound (s := ds.drop 6) (fun c hc => h c (List.mem_of_mem_drop hc))
    rw [List.length_drop] at hb
    have h6 : 6 - ds.length = 0 := by omega
    have hp : 10 ^ ds.length = 10 ^ (ds.length - 6) * 10 ^ 6 := by rw [← Nat.pow_add]; congr 1; omega
    rw [h6, hp, Nat.mul_div_mul_right _ _ (by decide), e, Nat.mul_comm (10 ^ (ds.length - 6)), Nat.add_comm,
      Nat.add_mul_div_right _ _ (Nat.pow_pos (by decide)), Nat.div_eq_of_lt hb]
    simp

/-- The groups of a time. -/
def timeFields (p : TimePattern) (h m s : Str) : List (Field × Str) :=
  (.hour, h) :: (.minute, m) :: (if p.seconds then [(.second, s)] else [])

theorem match_time_cont (p : TimePattern) {h m s : Str} (hh : Digits 2 2 h) (hm : Digits 2 2 m) (hs : Digits 2 2 s) {r : Str}
    {is : List RItem} {g : Groups} (hg : matchItems is r = some g) :
    matchItems (timeRx p ++ is) (p.fill h m s ++ r) = some { g with fields := timeFields p h m s ++ g.fields } := by
  have f2 : ∀ {f : Field} {is : List RItem} {q r : Str} {g : Groups}, Digits 2 2 q → matchItems is r = some g →
      matchItems (.field f 2 2 :: is) (q ++ r) = some { g with fields := (f, q) :: g.fields } := by
    intro f is q r g hq hg
    exact matchField_ok hq.1 hq.2.1 (digits_isDig hq) (.inl (by have := hq.1; have := hq.2.1; omega)) hg
  rcases p with ⟨c, sec⟩
  cases c <;> cases sec <;>
    simp only [timeRx, TimePattern.fill, timeFields, if_true, Bool.false_eq_true, if_false, List.append_nil, List.nil_append,
      List.append_assoc, List.cons_append, show ":".toList = [':'] from rfl]
  · exact f2 hh (f2 hm hg)
  · exact f2 hh (f2 hm (f2 hs hg))
  · have h1 := f2 (f := .minute) hm hg
    rw [← matchLit (c := ':')] at h1
    exact f2 hh h1
  · have h2 := f2 (f := .second) hs hg
    rw [← matchLit (c := ':')] at h2
    have h1 := f2 (f := .minute) hm h2
    rw [← matchLit (c := ':')] at h1
    exact f2 hh h1

/-- The text of a fraction. -/
def fracText (fr : Str) : Str := if fr = [] then [] else '.' :: fr

theorem takeWhile_digits {fr r : Str} (h : ∀ c ∈ fr, isDig c = true) (hr : ∀ c ∈ r.head?, isDig c = false) :
    (fr ++ r).takeWhile isDig = fr ∧ (fr ++ r).dropWhile isDig = r := by
  induction fr with
  | nil =>
    cases r with
    | nil => simp
    | cons c r => have := hr c (by simp); simp [this]
  | cons c fr ih =>
    have := ih (fun d hd => h d (by simp [hd]))
    simp [h c (by simp), this]

/-- The groups for a fraction. -/
theorem match_frac {n : Nat} {fr r : Str} (h : ∀ c ∈ fr, isDig c = true) (hr : ∀ c ∈ r.head?, isDig c = false ∧ c ≠ '.') :
    matchItems (if n = 0 then [] else [.frac n]) (fracText fr ++ r) =
      some ⟨[], if n = 0 ∨ fr = [] ∨ n < fr.length then none else some fr, if n = 0 ∨ fr.length ≤ n then none else some fr⟩ := by
  by_cases hn : n = 0
  · simp [hn, matchNil]
  · simp only [hn, if_false, false_or]
    rw [matchItems, matchNil]
    simp only [Option.some.injEq]
    have hr0 : ∀ lo hi (s : Str), (∀ c ∈ s.head?, c ≠ '.') → fracGroup lo hi s = (none, s) := by
      intro lo hi s hs
      unfold fracGroup
      split
      · exact absurd rfl (hs '.' (by simp))
      · rfl
    have hr' : ∀ c ∈ r.head?, c ≠ '.' := fun c hc => (hr c hc).2
    unfold fracText
    by_cases hf : fr = []
    · rw [if_pos hf, List.nil_append]
      unfold matchFrac
      rw [hr0 _ _ r hr']
      simp only
      rw [hr0 _ _ r hr']
      simp [hf]
    · rw [if_neg hf, List.cons_append]
      obtain ⟨e1, e2⟩ := takeWhile_digits h (fun c hc => (hr c hc).1)
      have hl : 1 ≤ fr.length := by cases fr <;> simp at hf ⊢
      unfold matchFrac
      by_cases hle : fr.length ≤ n
      · have : fracGroup 1 (some n) ('.' :: (fr ++ r)) = (some fr, r) := by
          simp only [fracGroup, e1, e2]
          rw [if_pos ⟨hl, by simpa using hle⟩]
        rw [this]
        simp only
        rw [hr0 _ _ r hr']
        simp [hf, hle, Nat.not_lt.2 hle]
      · have h1 : fracGroup 1 (some n) ('.' :: (fr ++ r)) = (none, '.' :: (fr ++ r)) := by
          simp only [fracGroup, e1]
          rw [if_neg (by simp; omega)]
        have h2 : fracGroup (n + 1) none ('.' :: (fr ++ r)) = (some fr, r) := by
          simp only [fracGroup, e1, e2]
          rw [if_pos ⟨by omega, by simp⟩]
        rw [h1]
        simp only
        rw [h2]
        simp [hle]

/-- The fields of a date-time text. -/
def dtFields (F : DTFormat) (x : DTText) : List (Field × Str) :=
  ((F.date.map fun p => (dateGroups p.order x.y x.m x.d).fields).getD []) ++ ((F.time.map fun p => timeFields p x.h x.mi x.s).getD [])

/-- The groups for a text in the format. -/
theorem match_dt {F : DTFormat} {t : Bool} (hF : F.WF t) (hP : F.Proper) {x : DTText} (hx : F.Parts x) {r : Str}
    (hr : ∀ c ∈ r.head?, isDig c = false ∧ c ≠ '.') :
    matchItems (rxOf F) (F.fill x ++ r) =
      some ⟨dtFields F x, if F.frac = 0 ∨ x.frac = [] ∨ F.frac < x.frac.length then none else some x.frac,
        if F.frac = 0 ∨ x.frac.length ≤ F.frac then none else some x.frac⟩ := by
  obtain ⟨hd, hh, hm, hs, hfr, hf0⟩ := hx
  have hfrac := match_frac (n := F.frac) (fr := x.frac) (r := r) (fun c hc => by rw [isDig_eq]; exact hfr c hc) hr
  have ht : matchItems (((F.time.map timeRx).getD []) ++ (if F.frac = 0 then [] else [.frac F.frac]))
      (((F.time.map fun p => p.fill x.h x.mi x.s).getD []) ++ (fracText x.frac ++ r)) =
      some ⟨(F.time.map fun p => timeFields p x.h x.mi x.s).getD [], if F.frac = 0 ∨ x.frac = [] ∨ F.frac < x.frac.length then none else some x.frac,
        if F.frac = 0 ∨ x.frac.length ≤ F.frac then none else some x.frac⟩ := by
    cases ht : F.time with
    | none => simpa using hfrac
    | some p =>
      have := match_time_cont p hh hm hs hfrac
      simpa using this
  have e : F.fill x ++ r = ((F.date.map fun p => p.fill x.y x.m x.d).getD []) ++ (F.sep.toList ++
      (((F.time.map fun p => p.fill x.h x.mi x.s).getD []) ++ (fracText x.frac ++ r))) := by
    simp [DTFormat.fill, fracText]
  rw [e]
  unfold rxOf dtFields
  unfold DTFormat.Proper at hP
  cases hsep : F.sep with
  | none =>
    rw [hsep] at hP
    rcases hP with ⟨h1, h2, h3⟩ | ⟨h1, h2⟩
    · cases hD : F.date with
      | none => exact absurd hD h1
      | some p =>
        have hp := hF.1 p hD
        have hf := hf0 h3
        have := match_date_cont (y := x.y) (m := x.m) (d := x.d) hp (hd p hD) (fun c hc => (hr c hc).1) (matchNil r)
        simp only [h2, h3, hf, fracText, Option.map_some, Option.getD_some, Option.map_none, Option.getD_none, if_true, List.append_nil,
          List.nil_append, Option.toList_none, List.map_nil] at this ⊢
        rw [this]
        simp
    · simp only [h1, Option.map_none, Option.getD_none, List.nil_append, Option.toList_none, List.map_nil]
      exact ht
  | some c =>
    rw [hsep] at hP
    have hc : isDig c = false := by
      have := hF.2
      rw [hsep] at this
      simp only at this
      rcases this with rfl | rfl <;> decide
    cases hD : F.date with
    | none => exact absurd hD hP.1
    | some p =>
      have hp := hF.1 p hD
      simp only [Option.map_some, Option.getD_some, Option.toList_some, List.map_cons, List.map_nil, List.append_assoc,
        List.singleton_append]
      rw [← matchLit (c := c)] at ht
      have := match_date_cont (y := x.y) (m := x.m) (d := x.d) hp (hd p hD) (by simp [hc]) ht
      simpa using this

theorem hasYear_rx {F : DTFormat} {t : Bool} (hF : F.WF t) : hasYear (rxOf F) = decide (F.date ≠ none) := by
  have ht : ∀ p ∈ timePatterns4, hasYear (timeRx p) = false := by decide +kernel
  have ha : ∀ a b, hasYear (a ++ b) = (hasYear a || hasYear b) := by simp [hasYear]
  unfold rxOf
  simp only [ha]
  have h1 : hasYear ((F.time.map timeRx).getD []) = false := by
    cases hT : F.time with
    | none => rfl
    | some p => exact ht p (time_all p)
  have h2 : hasYear (F.sep.toList.map RItem.lit) = false := by
    cases F.sep <;> rfl
  have h3 : hasYear (if F.frac = 0 then [] else [.frac F.frac]) = false := by split <;> rfl
  rw [h1, h2, h3]
  cases hD : F.date with
  | none => rfl
  | some p => simp [hasYear_date p (hF.1 p hD)]

theorem fieldNat_dt {F : DTFormat} {x : DTText} {mi ex : Option Str} :
    (∀ p, F.date = some p → fieldNat ⟨dtFields F x, mi, ex⟩ .year = some (Dec.numeral x.y) ∧
      fieldNat ⟨dtFields F x, mi, ex⟩ .month = some (Dec.numeral x.m) ∧ fieldNat ⟨dtFields F x, mi, ex⟩ .day = some (Dec.numeral x.d)) ∧
    (fieldNat ⟨dtFields F x, mi, ex⟩ .hour).getD 0 = (if F.time = none then 0 else Dec.numeral x.h) ∧
    (fieldNat ⟨dtFields F x, mi, ex⟩ .minute).getD 0 = (if F.time = none then 0 else Dec.numeral x.mi) ∧
    (fieldNat ⟨dtFields F x, mi, ex⟩ .second).getD 0 = (if (F.time.map TimePattern.seconds) = some true then Dec.numeral x.s else 0) := by
  rcases F with ⟨fd, fs, ft, ff⟩
  refine ⟨?_, ?_, ?_, ?_⟩
  · rintro ⟨o, sp, pd⟩ hp
    simp only at hp
    subst hp
    cases o <;> simp [fieldNat, dtFields, dateGroups]
  all_goals
    rcases fd with _ | ⟨o, sp, pd⟩
    · rcases ft with _ | ⟨c, sec⟩
      · simp [fieldNat, dtFields]
      · cases sec <;> simp [fieldNat, dtFields, timeFields]
    · rcases ft with _ | ⟨c, sec⟩
      · cases o <;> simp [fieldNat, dtFields, dateGroups]
      · cases o <;> cases sec <;> simp [fieldNat, dtFields, dateGroups, timeFields]

/-- Reading with the regular expression. -/
theorem parseRx_dt (ext : Ext) {F : DTFormat} {t : Bool} (hF : F.WF t) (hP : F.Proper) {x : DTText} (hx : F.Parts x) {v r : Str}
    (hr : ∀ c ∈ r.head?, isDig c = false ∧ c ≠ '.') (hv : strip v = F.fill x ++ r) (mk : Option Str) :
    parseRx ext v (some (rxOf F)) mk =
      if F.frac < x.frac.length then .error .valueError
      else match mkDT (F.valueOf ext.today x none) with
        | .error e => .error e
        | .ok d => if mk.getD [] ≠ [] then (ext.tzOf (F.fill x ++ r)).map fun t => { d with tz := t } else .ok d := by
  unfold parseRx
  simp only [hv]
  rw [match_dt hF hP hx hr]
  simp only
  have hf0 := hx.2.2.2.2.2
  by_cases hl : F.frac < x.frac.length
  · rw [if_pos hl]
    have h0 : F.frac ≠ 0 := by intro h0; have := hf0 h0; rw [this] at hl; simp at hl
    have hne : x.frac ≠ [] := by intro h; rw [h] at hl; simp at hl
    rw [if_pos]
    rw [if_neg (by omega)]
    simpa using hne
  · rw [if_neg hl, if_neg]
    · obtain ⟨f1, f2, f3, f4⟩ := fieldNat_dt (F := F) (x := x)
        (mi := if F.frac = 0 ∨ x.frac = [] ∨ F.frac < x.frac.length then none else some x.frac)
        (ex := if F.frac = 0 ∨ x.frac.length ≤ F.frac then none else some x.frac)
      rw [hasYear_rx hF]
      have hmic : microOf (if F.frac = 0 ∨ x.frac = [] ∨ F.frac < x.frac.length then none else some x.frac) = fracMicros x.frac := by
        by_cases hn : x.frac = []
        · rw [if_pos (.inr (.inl hn)), hn]; rfl
        · rw [if_neg]
          · exact micro6_value hx.2.2.2.2.1
          · rintro (h | h | h)
            · exact hn (hf0 h)
            · exact hn h
            · exact hl h
      cases hD : F.date with
      | none =>
        simp only [hD, ne_eq, not_true, decide_false, Bool.false_eq_true, if_false, f2, f3, f4, hmic, DTFormat.valueOf, numeralValue, Dec.numeral, if_true]
        generalize mkDT _ = z
        cases z <;> rfl
      | some p =>
        obtain ⟨g1, g2, g3⟩ := f1 p hD
        simp only [hD, ne_eq, reduceCtorEq, not_false_eq_true, decide_true, if_true, g1, g2, g3, f2, f3, f4, hmic, DTFormat.valueOf, numeralValue, Dec.numeral, if_false]
        generalize mkDT _ = z
        cases z <;> rfl
    · rw [if_pos (.inr (by omega))]
      simp

/-! ## ISO 8601 -/

theorem pyIntZ_digits {s : Str} (hne : s ≠ []) (h : ∀ c ∈ s, c.isDigit = true) : pyIntZ s = some (Dec.numeral s : Int) := by
  have h' : ∀ c ∈ s, isDig c = true := fun c hc => by rw [isDig_eq]; exact h c hc
  unfold pyIntZ
  rw [byteStrip_eq_self (fun c hc => digit_not_byteSpace (h' c hc)), pyInt_digits hne h']
  split
  · have := h '-' (by simp)
    exact absurd this (by decide)
  · rfl

theorem pyIntZ_two {a b : Char} (ha : a.isDigit = true) (hb : b.isDigit = true) : pyIntZ [a, b] = some (Dec.numeral [a, b] : Int) :=
  pyIntZ_digits (by simp) (by simp [ha, hb])

theorem isoTimeEnd_tz {z : Str} {tz : Option Int} (hz : TzText z tz) (h m s us : Int) :
    isoTimeEnd h m s us z = some (h, m, s, us, tz) := by
  unfold isoTimeEnd
  cases hz with
  | none => simp
  | zulu => simp [tzHead, isoTz]
  | plus hh hm h1 h2 =>
    rename_i hx mx
    obtain ⟨a, b, rfl⟩ := list2 (l := hx) (by have := hh.1; have := hh.2.1; omega)
    obtain ⟨c, d, rfl⟩ := list2 (l := mx) (by have := hm.1; have := hm.2.1; omega)
    have e1 := pyIntZ_digits (by simp) hh.2.2
    have e2 := pyIntZ_digits (by simp) hm.2.2
    simp only [Dec.numeral] at e1 e2
    simp [tzHead, isoTz, e1, e2]
    split
    · rw [Option.some.injEq]; omega
    · rw [if_neg (by omega)]; simp; omega
  | minus hh hm h1 h2 =>
    rename_i hx mx
    obtain ⟨a, b, rfl⟩ := list2 (l := hx) (by have := hh.1; have := hh.2.1; omega)
    obtain ⟨c, d, rfl⟩ := list2 (l := mx) (by have := hm.1; have := hm.2.1; omega)
    have e1 := pyIntZ_digits (by simp) hh.2.2
    have e2 := pyIntZ_digits (by simp) hm.2.2
    simp only [Dec.numeral] at e1 e2
    simp [tzHead, isoTz, e1, e2]
    split
    · rw [Option.some.injEq]; omega
    · rw [if_neg (by omega)]; simp; omega

theorem tz_head {z : Str} {tz : Option Int} (hz : TzText z tz) : ∀ c ∈ z.head?, c = 'Z' ∨ c = '+' ∨ c = '-' := by
  cases hz <;> simp

theorem tz_or {z : Str} {tz : Option Int} (hz : TzText z tz) : z = [] ∨ tzHead z = true := by
  cases hz <;> simp [tzHead]

theorem frac_us {fr : Str} (h : ∀ c ∈ fr, c.isDigit = true) :
    (Dec.numeral (fr.take 6) * 10 ^ (6 - (fr.take 6).length) : Nat) = fracMicros fr := by
  rw [← micro6_value h]
  unfold micro6
  rw [Dec.numeral_append_zeros, List.length_take]
  congr 2
  omega

theorem isoFrac_tz {z fr : Str} {tz : Option Int} (hz : TzText z tz) (hf : ∀ c ∈ fr, c.isDigit = true) (h m s : Int) :
    isoFrac h m s (fracText fr ++ z) = some (h, m, s, (fracMicros fr : Int), tz) := by
  unfold fracText
  by_cases hn : fr = []
  · rw [if_pos hn, List.nil_append, hn]
    have h0 : (fracMicros [] : Int) = 0 := by decide
    rw [h0]
    unfold isoFrac
    split
    · next c r =>
      rw [if_neg, isoTimeEnd_tz hz]
      rintro ⟨hc, _⟩
      have := tz_head hz c (by simp)
      rcases hc with rfl | rfl <;> revert this <;> decide
    · exact isoTimeEnd_tz hz h m s 0
  · rw [if_neg hn, List.cons_append]
    obtain ⟨e1, e2⟩ := takeWhile_digits (fr := fr) (r := z) (fun c hc => by rw [isDig_eq]; exact hf c hc) (by
      intro c hc
      rcases tz_head hz c hc with rfl | rfl | rfl <;> decide)
    unfold isoFrac
    simp only [e1, e2]
    rw [if_pos ⟨.inl trivial, hn⟩, isoTimeEnd_tz hz]
    have := frac_us hf
    rw [← this]
    simp

theorem tzHead_digit {c : Char} {r : Str} (hc : c.isDigit = true) : tzHead (c :: r) = false := by
  have hn : ∀ d : Char, d.isDigit = false → c ≠ d := fun d hd => digit_ne hc hd
  simp [tzHead, hn 'Z' (by decide), hn 'z' (by decide), hn '+' (by decide), hn '-' (by decide)]

theorem isoSecond_text (sep : Bool) {s r : Str} (hs : Digits 2 2 s) (h m : Int) :
    isoSecond sep h m ((if sep then [':'] else []) ++ (s ++ r)) = isoFrac h m (Dec.numeral s) r := by
  obtain ⟨e, f, rfl⟩ := list2 (l := s) (by have := hs.1; have := hs.2.1; omega)
  have he := hs.2.2 e (by simp)
  have i3 := pyIntZ_two he (hs.2.2 f (by simp))
  unfold isoSecond
  cases sep
  · simp [tzHead_digit he, i3]
  · simp [tzHead, i3]

theorem isoMinute_text (sep : Bool) {s r : Str} (hs : Digits 2 2 s) (h : Int) :
    isoMinute h ((if sep then [':'] else []) ++ (s ++ r)) = isoSecond sep h (Dec.numeral s) r := by
  obtain ⟨e, f, rfl⟩ := list2 (l := s) (by have := hs.1; have := hs.2.1; omega)
  have he := hs.2.2 e (by simp)
  have hne : e ≠ ':' := digit_ne he (by decide)
  have i3 := pyIntZ_two he (hs.2.2 f (by simp))
  unfold isoMinute
  cases sep
  · simp [tzHead_digit he, i3, hne]
  · simp [tzHead, i3]

/-- Times, as written by the patterns. -/
theorem isoTime_text (p : TimePattern) {h m s fr z : Str} {tz : Option Int} (hh : Digits 2 2 h) (hm : Digits 2 2 m) (hs : Digits 2 2 s)
    (hf : ∀ c ∈ fr, c.isDigit = true) (hz : TzText z tz) (hsec : p.seconds = true ∨ fr = []) {H M S U : Nat}
    (eH : H = Dec.numeral h) (eM : M = Dec.numeral m) (eS : S = if p.seconds then Dec.numeral s else 0) (eU : U = fracMicros fr) :
    isoTime (p.fill h m s ++ (fracText fr ++ z)) =
      if (H : Int) = 24 ∧ ((M : Int) ≠ 0 ∨ (S : Int) ≠ 0 ∨ (U : Int) ≠ 0) then none else some ((H : Int), (M : Int), (S : Int), (U : Int), tz) := by
  obtain ⟨a, b, rfl⟩ := list2 (l := h) (by have := hh.1; have := hh.2.1; omega)
  have ha := hh.2.2 a (by simp)
  have i1 := pyIntZ_two ha (hh.2.2 b (by simp))
  have key : isoMinute H (((if p.colons then [':'] else []) ++ (m ++ ((if p.seconds then (if p.colons then [':'] else []) ++ s else []) ++ (fracText fr ++ z))))) =
      some ((H : Int), (M : Int), (S : Int), (U : Int), tz) := by
    rw [isoMinute_text _ hm, ← eM]
    cases hp : p.seconds
    · have hfr : fr = [] := by simpa [hp] using hsec
      subst hfr
      rw [hp] at eS
      simp only [Bool.false_eq_true, if_false] at eS
      subst eS
      have hm0 : fracMicros [] = 0 := by decide
      rw [hm0] at eU
      subst eU
      simp only [Bool.false_eq_true, if_false, fracText, if_true, List.nil_append]
      unfold isoSecond
      rw [if_pos (tz_or hz), isoTimeEnd_tz hz]
      rfl
    · rw [hp] at eS
      simp only [if_true] at eS ⊢
      rw [List.append_assoc, isoSecond_text _ hs, isoFrac_tz hz hf, ← eS, ← eU]
  have e : p.fill [a, b] m s ++ (fracText fr ++ z) = a :: b :: ((if p.colons then [':'] else []) ++ (m ++
      ((if p.seconds then (if p.colons then [':'] else []) ++ s else []) ++ (fracText fr ++ z)))) := by
    simp [TimePattern.fill, show ":".toList = [':'] from rfl]
  rw [e]
  unfold isoTime
  rw [if_neg (by simp)]
  simp only [tzHead_digit ha, Bool.false_eq_true, if_false, List.take_succ_cons, List.take_zero, List.drop_succ_cons, List.drop_zero, i1]
  rw [← eH, key]

/-- Without seconds, fractions are no ISO time. -/
theorem isoTime_nosec (p : TimePattern) {h m s fr z : Str} (hh : Digits 2 2 h) (hm : Digits 2 2 m) (hfr : fr ≠ [])
    (hp : p.seconds = false) : isoTime (p.fill h m s ++ (fracText fr ++ z)) = none := by
  obtain ⟨a, b, rfl⟩ := list2 (l := h) (by have := hh.1; have := hh.2.1; omega)
  have ha := hh.2.2 a (by simp)
  have i1 := pyIntZ_two ha (hh.2.2 b (by simp))
  have key : ∀ H, isoMinute H (((if p.colons then [':'] else []) ++ (m ++ (fracText fr ++ z)))) = none := by
    intro H
    rw [isoMinute_text _ hm]
    unfold fracText isoSecond
    rw [if_neg hfr]
    obtain ⟨c, cs, rfl⟩ : ∃ c cs, fr = c :: cs := by cases fr with | nil => exact absurd rfl hfr | cons c cs => exact ⟨c, cs, rfl⟩
    cases hc : p.colons
    · have : pyIntZ ['.', c] = none := by
        unfold pyIntZ
        have hm : '.' ∈ byteStrip ['.', c] := mem_strip_of (by decide) (by simp)
        have hb : pyInt ['.', c] = none := pyInt_bad (c := '.') (by simp) (by decide) (by decide) (by decide) (by decide)
        split
        · next t ht =>
          rw [if_neg]
          rintro ⟨_, hok⟩
          rw [ht] at hm
          rcases List.mem_cons.1 hm with hm | hm
          · revert hm; decide
          · rcases pyInt_ok_chars _ _ hok _ hm with h | h <;> revert h <;> decide
        · rw [hb]; rfl
      simp [tzHead, this]
    · simp [tzHead]
  have e : p.fill [a, b] m s ++ (fracText fr ++ z) = a :: b :: ((if p.colons then [':'] else []) ++ (m ++ (fracText fr ++ z))) := by
    simp [TimePattern.fill, hp, show ":".toList = [':'] from rfl]
  rw [e]
  unfold isoTime
  rw [if_neg (by simp)]
  simp only [tzHead_digit ha, Bool.false_eq_true, if_false, List.take_succ_cons, List.take_zero, List.drop_succ_cons, List.drop_zero, i1, key]

theorem isoCommon_ymd {p : DatePattern} (hp : p = ⟨.ymd, [], true⟩ ∨ p = ⟨.ymd, ['-'], true⟩) {y m d : Str} (h : p.Parts y m d) (r : Str) :
    isoCommon (p.fill y m d ++ r) = some (Dec.numeral y, Dec.numeral m, Dec.numeral d, (p.fill y m d).length) ∧
    pyInt ((p.fill y m d ++ r).take 4) = some (Dec.numeral y) := by
  have hpad : p.padded = true := by rcases hp with rfl | rfl <;> rfl
  unfold DatePattern.Parts at h
  rw [hpad] at h
  obtain ⟨⟨y1, y2, y3⟩, ⟨m1, m2, m3⟩, ⟨d1, d2, d3⟩⟩ := h
  simp only [if_true] at m1 d1
  obtain ⟨a, b, c, e, rfl⟩ := list4 (l := y) (by omega)
  obtain ⟨f, g, rfl⟩ := list2 (l := m) (by omega)
  obtain ⟨i, j, rfl⟩ := list2 (l := d) (by omega)
  have ey := pyInt_digits (s := [a, b, c, e]) (by simp) (fun x hx => by rw [isDig_eq]; exact y3 x hx)
  have em := pyInt_digits (s := [f, g]) (by simp) (fun x hx => by rw [isDig_eq]; exact m3 x hx)
  have ed := pyInt_digits (s := [i, j]) (by simp) (fun x hx => by rw [isDig_eq]; exact d3 x hx)
  have hf : f ≠ '-' := digit_ne (m3 f (by simp)) (by decide)
  rcases hp with rfl | rfl
  · constructor
    · simp [DatePattern.fill, isoCommon, ey, em, ed, hf]
    · simp [DatePattern.fill, ey]
  · constructor
    · simp [DatePattern.fill, isoCommon, ey, em, ed]
    · simp [DatePattern.fill, ey]

/-- Texts of digits and of other ASCII characters. -/
def AsciiText (s : Str) : Prop := ∀ c ∈ s, c.toNat < 128

theorem AsciiText.append {a b : Str} (ha : AsciiText a) (hb : AsciiText b) : AsciiText (a ++ b) := by
  intro c hc
  rcases List.mem_append.1 hc with h | h
  · exact ha c h
  · exact hb c h

theorem AsciiText.cons {c : Char} {b : Str} (ha : c.toNat < 128) (hb : AsciiText b) : AsciiText (c :: b) := by
  intro d hc
  rcases List.mem_cons.1 hc with rfl | h
  · exact ha
  · exact hb d h

theorem ascii_nil : AsciiText [] := by intro c hc; simp at hc

theorem ascii_digits {s : Str} (h : ∀ c ∈ s, c.isDigit = true) : AsciiText s := fun c hc => digit_ascii (h c hc)

theorem ascii_date {p : DatePattern} (hp : p ∈ datePatterns14) {y m d : Str} (h : p.Parts y m d) : AsciiText (p.fill y m d) := by
  have hsep : AsciiText p.sep := by
    rcases sep_cases p hp with rfl | ⟨c, hc, hs, _⟩
    · exact ascii_nil
    · rw [hs]
      simp only [List.mem_cons, List.not_mem_nil, or_false] at hc
      rcases hc with rfl | rfl | rfl <;> exact AsciiText.cons (by decide) ascii_nil
  have hy := ascii_digits h.1.2.2
  have hm := ascii_digits h.2.1.2.2
  have hd := ascii_digits h.2.2.2.2
  unfold DatePattern.fill
  split
  · exact (((hy.append hsep).append hm).append hsep).append hd
  · exact (((hd.append hsep).append hm).append hsep).append hy
  · exact (((hm.append hsep).append hd).append hsep).append hy

theorem ascii_time (p : TimePattern) {h m s : Str} (hh : Digits 2 2 h) (hm : Digits 2 2 m) (hs : Digits 2 2 s) : AsciiText (p.fill h m s) := by
  have hc : AsciiText (if p.colons then ":".toList else []) := by split <;> intro c hc <;> revert c <;> decide
  have h1 := ascii_digits hh.2.2
  have h2 := ascii_digits hm.2.2
  have h3 := ascii_digits hs.2.2
  unfold TimePattern.fill
  simp only
  refine ((h1.append hc).append h2).append ?_
  split
  · exact hc.append h3
  · exact ascii_nil

theorem ascii_frac {fr : Str} (h : ∀ c ∈ fr, c.isDigit = true) : AsciiText (fracText fr) := by
  unfold fracText
  split
  · exact ascii_nil
  · exact AsciiText.cons (by decide) (ascii_digits h)

theorem ascii_tz {z : Str} {tz : Option Int} (hz : TzText z tz) : AsciiText z := by
  cases hz with
  | none => exact ascii_nil
  | zulu => exact AsciiText.cons (by decide) ascii_nil
  | plus hh hm _ _ => exact AsciiText.cons (by decide) ((ascii_digits hh.2.2).append (AsciiText.cons (by decide) (ascii_digits hm.2.2)))
  | minus hh hm _ _ => exact AsciiText.cons (by decide) ((ascii_digits hh.2.2).append (AsciiText.cons (by decide) (ascii_digits hm.2.2)))

theorem isoparse_fill (ext : Ext) {p : DatePattern} (hp : p = ⟨.ymd, [], true⟩ ∨ p = ⟨.ymd, ['-'], true⟩) {y m d : Str} (h : p.Parts y m d)
    {c : Char} (hc : c.toNat < 128) {r : Str} (hr : AsciiText r) :
    isoparse ext (p.fill y m d ++ c :: r) =
      match isoTime r with
      | none => .error .valueError
      | some (hh, mi, ss, us, tz) =>
        if hh = 24 then
          match mkDT ⟨Dec.numeral y, Dec.numeral m, Dec.numeral d, 0, 0, 0, 0, tz⟩ with
          | .error e => .error e
          | .ok r => nextDay r
        else mkDTZ (Dec.numeral y) (Dec.numeral m) (Dec.numeral d) hh mi ss us tz := by
  have hmem : p ∈ datePatterns14 := by rcases hp with rfl | rfl <;> decide +kernel
  obtain ⟨e1, e2⟩ := isoCommon_ymd hp h (c :: r)
  have hlen : 4 ≤ (p.fill y m d).length := by
    have := h.1.1
    rcases hp with rfl | rfl <;> simp [DatePattern.fill] <;> omega
  unfold isoparse
  rw [if_neg]
  · rw [e2]
    simp only [e1]
    rw [if_neg (by simp)]
    have : (p.fill y m d ++ c :: r).drop ((p.fill y m d).length + 1) = r := by
      rw [List.drop_append]; simp
    rw [this]
    cases isoTime r <;> rfl
  · have ha : ∀ x ∈ p.fill y m d ++ c :: r, x.toNat < 128 := (ascii_date hmem h).append (AsciiText.cons hc hr)
    simp only [Bool.or_eq_true, Bool.not_eq_true', decide_eq_true_eq, not_or]
    constructor
    · rw [Bool.not_eq_false, List.all_eq_true]
      intro x hx
      exact decide_eq_true (ha x hx)
    · simp; omega

theorem isoparse_text (ext : Ext) {p : DatePattern} (hp : p = ⟨.ymd, [], true⟩ ∨ p = ⟨.ymd, ['-'], true⟩) (q : TimePattern) {y m d h mi s fr z : Str}
    {tz : Option Int} (hd : p.Parts y m d) {c : Char} (hc : c.toNat < 128) (hh : Digits 2 2 h) (hm : Digits 2 2 mi) (hs : Digits 2 2 s)
    (hf : ∀ c ∈ fr, c.isDigit = true) (hz : TzText z tz) (hsec : q.seconds = true ∨ fr = []) (h24 : Dec.numeral h ≠ 24) :
    isoparse ext (p.fill y m d ++ c :: (q.fill h mi s ++ (fracText fr ++ z))) =
      mkDT ⟨Dec.numeral y, Dec.numeral m, Dec.numeral d, Dec.numeral h, Dec.numeral mi, if q.seconds then Dec.numeral s else 0, fracMicros fr, tz⟩ := by
  rw [isoparse_fill ext hp hd hc ((ascii_time q hh hm hs).append ((ascii_frac hf).append (ascii_tz hz)))]
  rw [isoTime_text q hh hm hs hf hz hsec rfl rfl rfl rfl, if_neg (by omega)]
  simp only
  rw [if_neg (by omega)]
  unfold mkDTZ
  rw [if_neg (by omega)]
  simp only [Int.toNat_natCast]

theorem validDT_full {d : DateTime} : validDT d = true ↔
    ValidDate d.year d.month d.day ∧ d.hour ≤ 23 ∧ d.minute ≤ 59 ∧ d.second ≤ 59 ∧ d.micro ≤ 999999 := by
  have hd : daysIn d.year d.month = (if d.month = 2 then (if (4 ∣ d.year ∧ ¬ 100 ∣ d.year) ∨ 400 ∣ d.year then 29 else 28)
      else if d.month = 4 ∨ d.month = 6 ∨ d.month = 9 ∨ d.month = 11 then 30 else 31) := by
    unfold daysIn
    by_cases hm : d.month = 2
    · rw [if_pos hm, if_pos hm]
      by_cases hl : (4 ∣ d.year ∧ ¬ 100 ∣ d.year) ∨ 400 ∣ d.year
      · rw [if_pos hl, if_pos (by omega)]
      · rw [if_neg hl, if_neg (by omega)]
    · rw [if_neg hm, if_neg hm]
  unfold validDT ValidDate
  simp only [Bool.and_eq_true, decide_eq_true_eq, hd]
  simp [and_assoc]

end Csvw.DateFmt
