import Verif.Lemmas.Dates
import Verif.Props.C18_C19
import Verif.Props.C22_C25
/-!
# C29: date formats

`p.write y m d` is the date as pattern `p` prescribes, `p.Parts y m d` says that the strings `y m d` have the prescribed numbers of digits,
`p.fill y m d` puts them together (`Spec.Dates`).
-/

namespace Csvw.Props
open Datatypes Spec DateFmt

theorem validDT_iff {y m d : Nat} : validDT { year := y, month := m, day := d } = true ↔ ValidDate y m d := by
  have hd : daysIn y m = (if m = 2 then (if (4 ∣ y ∧ ¬ 100 ∣ y) ∨ 400 ∣ y then 29 else 28)
      else if m = 4 ∨ m = 6 ∨ m = 9 ∨ m = 11 then 30 else 31) := by
    unfold daysIn
    by_cases hm : m = 2
    · rw [if_pos hm, if_pos hm]
      by_cases hl : (4 ∣ y ∧ ¬ 100 ∣ y) ∨ 400 ∣ y
      · rw [if_pos hl, if_pos (by omega)]
      · rw [if_neg hl, if_neg (by omega)]
    · rw [if_neg hm, if_neg hm]
  unfold validDT ValidDate
  simp only [Bool.and_eq_true, decide_eq_true_eq, hd]
  simp [and_assoc]

section
variable {ext : Ext} {other : Base → Derived → J → Res Val} {s : DatatypeSpec} {dt : Datatype}

theorem date_descr {p : DatePattern} (hp : p ∈ datePatterns14) (hB : Datatype.Built ext other s dt) (hb : dt.base = .date)
    (hf : s.format = .str p.text) : dt.descr ext = .ok (.dt ⟨some (dateRx p), none, some p.text⟩) := by
  have hd : derived ext dt.base (.str p.text) = .ok (.dt ⟨some (dateRx p), none, some p.text⟩) := by
    have hne := (text_mem p hp).2
    simp [derived, hb, Base.kind, orFmt, J.truthy, hne, dtFormat, formatAndRegex_date p hp]
  obtain ⟨d, hd', hfm, _⟩ := hB.descr
  rw [hf, hd] at hd'
  simp only [Except.ok.injEq] at hd'
  subst hd'
  unfold Datatype.descr
  rw [hB.format_kind (by rw [hb]; decide) (by rw [hb]; decide), hf]
  exact hd

theorem date_validate (hB : Datatype.Built ext other s dt) (hn : NoBounds s) (hb : dt.base = .date) (d : DateTime) :
    dt.validate ext (.dt d) = .ok (.dt d) := by
  have hl : dt.base.hasLength = false := by rw [hb]; rfl
  have hm : dt.base.minmax = true := by rw [hb]; rfl
  unfold Datatype.validate
  simp [hB.lengthOk_of_none hl (v := .dt d) (.inr rfl), hm, boundsOk_of_noBounds hB hn, Except.map]

/-- Writing: the text has exactly the form which the pattern prescribes, with four digits for the year. -/
theorem C29_formatted (hb : s.base = .str "date".toList) {p : DatePattern} (hp : p ∈ datePatterns14) (hf : s.format = .str p.text)
    (h : Datatype.construct ext other s = .ok dt) {x : DateTime} (hx : ValidDate x.year x.month x.day) :
    dt.formatted ext (.dt x) = .ok (p.write x.year x.month x.day) := by
  have hB := Datatype.built_of_construct h
  have hbase := base_of hB (b := .date) (by rw [hb]; decide)
  have hd := date_descr hp hB hbase hf
  unfold Datatype.formatted
  rw [hd]
  obtain ⟨c, cs, hpt⟩ : ∃ c cs, p.text = c :: cs := by
    cases hq : p.text with
    | nil => exact absurd hq (text_mem p hp).2
    | cons c cs => exact ⟨c, cs, rfl⟩
  simp only [toText, hbase, Base.kind, Option.getD_some]
  have : (match p.text with | [] => Except.ok (isoformat x) | q => .ok (babelDate ext q x) : Res Str) = .ok (babelDate ext p.text x) := by
    rw [hpt]
  refine this.trans ?_
  congr 1
  unfold babelDate
  rw [if_pos (text_mem p hp).1]
  obtain ⟨h1, h2, h3, h4, h5, h6⟩ := hx
  have h7 : x.day ≤ 31 := by
    refine Nat.le_trans h6 ?_
    repeat' split
    all_goals omega
  have e4 : ∀ k, k < 10 ^ 4 → padNat 4 k = numeralN 4 k := fun k hk => padNat_eq (by decide) hk
  have e2 : ∀ k, k < 100 → padNat 2 k = numeral2 true k := by
    intro k hk; rw [padNat_eq (by decide) (by simpa using hk)]; simp [numeral2]
  have e1 : ∀ k, k < 100 → padNat 1 k = numeral2 false k := by decide +kernel
  have hy := e4 x.year (by omega)
  have hm2 := e2 x.month (by omega)
  have hd2 := e2 x.day (by omega)
  have hm1 := e1 x.month (by omega)
  have hd1 := e1 x.day (by omega)
  have hl : ∀ q ∈ datePatterns14, ((runs q.text).map (babelField x)).flatten =
      q.fill (padNat 4 x.year) (padNat (if q.padded then 2 else 1) x.month) (padNat (if q.padded then 2 else 1) x.day) := by
    intro q hq
    simp only [datePatterns14, List.flatMap_cons, List.flatMap_nil, List.cons_append, List.nil_append, List.mem_cons, List.not_mem_nil,
      or_false] at hq
    rcases hq with rfl | rfl | rfl | rfl | rfl | rfl | rfl | rfl | rfl | rfl | rfl | rfl | rfl | rfl <;>
      simp [DatePattern.text, DatePattern.fill, runs, babelField]
  rw [hl p hp]
  unfold DatePattern.write
  cases p.padded <;> simp [hy, hm1, hd1, hm2, hd2]

/-- Reading a text which has the form of the pattern: the date if there is such a date, otherwise a `ValueError`. -/
theorem C29_read (hb : s.base = .str "date".toList) {p : DatePattern} (hp : p ∈ datePatterns14) (hf : s.format = .str p.text)
    (hs : NoBounds s) (h : Datatype.construct ext other s = .ok dt) {y m d : Str} (hd : p.Parts y m d) :
    dt.read ext (p.fill y m d) =
      if ValidDate (Dec.numeral y) (Dec.numeral m) (Dec.numeral d)
      then .ok (.dt { year := Dec.numeral y, month := Dec.numeral m, day := Dec.numeral d }) else .error .valueError := by
  have hB := Datatype.built_of_construct h
  have hbase := base_of hB (b := .date) (by rw [hb]; decide)
  have hdesc := date_descr hp hB hbase hf
  have hstrip := Dec.strip_eq_self (fill_not_space hp hd)
  have hm := match_date hp hd
  have hrx := parseRx_date ext hp (s := p.fill y m d) (by rw [hstrip]; exact hm)
  have hiso : isoparse ext (p.fill y m d) = .error .valueError ∨ isoparse ext (p.fill y m d) = mkDT (ofParts y m d) := by
    rcases sep_cases p hp with rfl | ⟨c, hc, hsep, hymd⟩
    · exact .inr (isoparse_ymd ext (.inl rfl) hd)
    · have hlo : 1 ≤ (if p.padded then 2 else 1) := by split <;> decide
      cases ho : p.order
      · obtain ⟨rfl, hpad⟩ := hymd ho
        exact .inr (isoparse_ymd ext (.inr (by cases p; simp_all)) hd)
      · left
        simp only [DatePattern.fill, ho, hsep, List.append_assoc, List.cons_append, List.nil_append]
        exact isoparse_dmy ext (Digits.weaken hd.2.2 hlo) hc
      · left
        simp only [DatePattern.fill, ho, hsep, List.append_assoc, List.cons_append, List.nil_append]
        exact isoparse_dmy ext (Digits.weaken hd.2.1 hlo) hc
  have hpy : dateToPython ext (p.fill y m d) ⟨some (dateRx p), none, some p.text⟩ = mkDT (ofParts y m d) := by
    unfold dateToPython withTz
    rw [hstrip, fill_no_tz hp hd]
    unfold dateTimeToPython
    have hpre : preMatch (p.fill y m d) (some (dateRx p)) (some p.text) = true := by
      unfold preMatch
      cases hq : p.text with
      | nil => rfl
      | cons a b => simp [hm]
    simp only [hpre, if_true, hrx]
    rcases hiso with hi | hi
    · rw [hi]
    · rw [hi]
      unfold mkDT
      split <;> rfl
  unfold Datatype.read Datatype.parse
  rw [hdesc]
  simp only [toPython, hbase, Base.kind, hpy]
  unfold mkDT ofParts
  by_cases hv : ValidDate (Dec.numeral y) (Dec.numeral m) (Dec.numeral d)
  · rw [if_pos (validDT_iff.2 hv), if_pos hv]
    exact date_validate hB hs hbase _
  · rw [if_neg (fun hh => hv (validDT_iff.1 hh)), if_neg hv]
    rfl

theorem numeral2_parts {padded : Bool} {k : Nat} (h : k < 100) :
    Digits (if padded then 2 else 1) 2 (numeral2 padded k) ∧ Dec.numeral (numeral2 padded k) = k := by
  by_cases hc : padded = true ∨ 10 ≤ k
  · have e : numeral2 padded k = numeralN 2 k := by unfold numeral2; rw [if_pos hc]
    rw [e]
    refine ⟨⟨?_, ?_, numeralN_digits _ _⟩, numeralN_value (by simpa using h)⟩
    · rw [numeralN_length]; split <;> decide
    · rw [numeralN_length]; decide
  · have e : numeral2 padded k = numeralN 1 k := by unfold numeral2; rw [if_neg hc]
    rw [e]
    rw [not_or] at hc
    refine ⟨⟨?_, ?_, numeralN_digits _ _⟩, numeralN_value (by simp; omega)⟩
    · rw [numeralN_length, if_neg hc.1]; decide
    · rw [numeralN_length]; decide

theorem validDate_bounds {y m d : Nat} (h : ValidDate y m d) : y < 10000 ∧ m < 100 ∧ d < 100 := by
  obtain ⟨h1, h2, h3, h4, h5, h6⟩ := h
  have h7 : d ≤ 31 := by
    refine Nat.le_trans h6 ?_
    repeat' split
    all_goals omega
  omega

/-- **C29** (round trip) For each of the 14 date patterns and every valid date, with a datatype without bounds: writing the date and reading the
result gives the date. -/
theorem C29_roundtrip (hb : s.base = .str "date".toList) {p : DatePattern} (hp : p ∈ datePatterns14) (hf : s.format = .str p.text)
    (hs : NoBounds s) (h : Datatype.construct ext other s = .ok dt) {y m d : Nat} (hv : ValidDate y m d) :
    dt.formatted ext (.dt { year := y, month := m, day := d }) = .ok (p.write y m d) ∧
    dt.read ext (p.write y m d) = .ok (.dt { year := y, month := m, day := d }) := by
  refine ⟨C29_formatted hb hp hf h hv, ?_⟩
  obtain ⟨hy, hm, hd⟩ := validDate_bounds hv
  have h2m := numeral2_parts (padded := p.padded) hm
  have h2d := numeral2_parts (padded := p.padded) hd
  have hyv : Dec.numeral (numeralN 4 y) = y := numeralN_value (by simpa using hy)
  unfold DatePattern.write
  rw [C29_read hb hp hf hs h ⟨⟨by rw [numeralN_length]; decide, by rw [numeralN_length]; decide, numeralN_digits _ _⟩, h2m.1, h2d.1⟩,
    hyv, h2m.2, h2d.2, if_pos hv]

theorem tzSuffix_prefix {v w t : Str} (h : tzSuffix v = some (w, t)) : ∃ r, v = w ++ r := by
  have hdrop : ∀ q : Str, ∃ e, q = e ++ dropNl q := by
    intro q
    unfold dropNl
    split
    · next r => exact ⟨['\n'], rfl⟩
    · exact ⟨[], rfl⟩
  obtain ⟨e, he⟩ := hdrop v.reverse
  unfold tzSuffix at h
  simp only at h
  generalize hq : dropNl v.reverse = q at h he
  have hv : v = q.reverse ++ e.reverse := by rw [← List.reverse_append, ← he, List.reverse_reverse]
  split at h
  · next r =>
    simp only [Option.some.injEq, Prod.mk.injEq] at h
    obtain ⟨rfl, _⟩ := h
    exact ⟨_, by rw [hv, List.reverse_cons, List.append_assoc]⟩
  · next m2 m1 h2 h1 sg r _ =>
    split at h
    · simp only [Option.some.injEq, Prod.mk.injEq] at h
      obtain ⟨rfl, _⟩ := h
      refine ⟨[sg, h1, h2, ':', m1, m2] ++ e.reverse, ?_⟩
      rw [hv]; simp
    · simp at h
  · simp at h

theorem strip_prefix {w : Str} (hw : ∀ c ∈ w.head?, Py.isSpace c = false) : ∃ r, w = Py.strip w ++ r := by
  have h1 : Py.lstrip w = w := by
    unfold Py.lstrip Py.lstripP
    cases w with
    | nil => rfl
    | cons c w => rw [List.dropWhile_cons_of_neg (by simp [hw c (by simp)])]
  unfold Py.strip
  rw [h1]
  unfold Py.rstrip Py.rstripP
  refine ⟨(w.reverse.takeWhile Py.isSpace).reverse, ?_⟩
  rw [← List.reverse_append, List.takeWhile_append_dropWhile, List.reverse_reverse]

theorem fill_head {p : DatePattern} {y m d : Str} (h : p.Parts y m d) (r : Str) :
    ∀ c ∈ (p.fill y m d ++ r).head?, Py.isSpace c = false := by
  have hlo : 1 ≤ (if p.padded then 2 else 1) := by split <;> decide
  have key : ∀ {lo hi : Nat} {q : Str}, Digits lo hi q → 1 ≤ lo → ∀ t, ∀ c ∈ (q ++ t).head?, Py.isSpace c = false := by
    intro lo hi q hq h1 t c hc
    cases q with
    | nil => have := hq.1; simp at this; omega
    | cons x q =>
      simp at hc
      subst hc
      exact digit_not_space (digits_isDig hq x (by simp))
  cases ho : p.order <;> simp only [DatePattern.fill, ho, List.append_assoc]
  · exact key h.1 (by decide) _
  · exact key h.2.2 hlo _
  · exact key h.2.1 hlo _

/-- **C29** (rejection) A text which is accepted begins (after whitespace) with a text of the form of the pattern; except for
`yyyy-MM-dd` and `yyyyMMdd` the value has that date. (What follows is ignored: `C29_trailing`, `C29_trailing_violated`.) -/
theorem C29_accepted (hb : s.base = .str "date".toList) {p : DatePattern} (hp : p ∈ datePatterns14) (hf : s.format = .str p.text)
    (h : Datatype.construct ext other s = .ok dt) {x : Str} {v : Val} (hr : dt.read ext x = .ok v) :
    ∃ y m d rest, p.Parts y m d ∧ Py.strip x = p.fill y m d ++ rest ∧
      (p.order ≠ .ymd → ValidDate (Dec.numeral y) (Dec.numeral m) (Dec.numeral d) ∧
        ∃ tz, v = .dt { year := Dec.numeral y, month := Dec.numeral m, day := Dec.numeral d, tz := tz }) := by
  have hB := Datatype.built_of_construct h
  have hbase := base_of hB (b := .date) (by rw [hb]; decide)
  have hdesc := date_descr hp hB hbase hf
  unfold Datatype.read Datatype.parse at hr
  rw [hdesc] at hr
  simp only [toPython, hbase, Base.kind] at hr
  cases hpy : dateToPython ext x ⟨some (dateRx p), none, some p.text⟩ with
  | error e => rw [hpy] at hr; simp [Except.map] at hr
  | ok t =>
    rw [hpy] at hr
    simp only [Except.map] at hr
    have hvt : v = .dt t := by
      unfold Datatype.validate at hr
      simp only [reduceCtorEq, if_false] at hr
      split at hr
      · split at hr
        · cases hbo : Datatype.boundsOk ext dt (.dt t) with
          | error e => rw [hbo] at hr; simp [Except.map] at hr
          | ok u => rw [hbo] at hr; simp [Except.map] at hr; exact hr.symm
        · simpa using hr.symm
      · simp at hr
    -- the part without timezone
    have core : ∀ w r, dateTimeToPython ext w (some (dateRx p)) none (some p.text) = .ok r →
        ∃ y m d rest, p.Parts y m d ∧ w = p.fill y m d ++ rest ∧
          (p.order ≠ .ymd → ValidDate (Dec.numeral y) (Dec.numeral m) (Dec.numeral d) ∧ r = ofParts y m d) := by
      intro w r hw
      unfold dateTimeToPython at hw
      split at hw
      · next hpre =>
        have hmt : (matchItems (dateRx p) w).isSome = true := by
          unfold preMatch at hpre
          cases hq : p.text with
          | nil => exact absurd hq (text_mem p hp).2
          | cons a b => rw [hq] at hpre; simpa using hpre
        obtain ⟨g, hg⟩ := Option.isSome_iff_exists.1 hmt
        obtain ⟨y, m, d, rest, hparts, hwf, _⟩ := match_date_inv hp hg
        by_cases ho : p.order = .ymd
        · exact ⟨y, m, d, rest, hparts, hwf, fun hn => absurd ho hn⟩
        · have hlo : 1 ≤ (if p.padded then 2 else 1) := by split <;> decide
          have hiso : isoparse ext w = .error .valueError := by
            rcases sep_cases p hp with rfl | ⟨c, hc, hsep, _⟩
            · exact absurd rfl ho
            · rw [hwf]
              cases ho' : p.order
              · exact absurd ho' ho
              · simp only [DatePattern.fill, ho', hsep, List.append_assoc, List.cons_append, List.nil_append]
                exact isoparse_dmy ext (Digits.weaken hparts.2.2 hlo) hc
              · simp only [DatePattern.fill, ho', hsep, List.append_assoc, List.cons_append, List.nil_append]
                exact isoparse_dmy ext (Digits.weaken hparts.2.1 hlo) hc
          rw [hiso] at hw
          simp only at hw
          have hms : ∃ g, matchItems (dateRx p) (Py.strip w) = some g := by
            cases hms : matchItems (dateRx p) (Py.strip w) with
            | some g => exact ⟨g, rfl⟩
            | none => unfold parseRx at hw; simp [hms] at hw
          obtain ⟨g', hg'⟩ := hms
          obtain ⟨y', m', d', rest', hparts', hwf', hg''⟩ := match_date_inv hp hg'
          rw [hg''] at hg'
          rw [parseRx_date ext hp hg'] at hw
          obtain ⟨sp, hsp⟩ := strip_prefix (w := w) (by rw [hwf]; exact fill_head hparts rest)
          refine ⟨y', m', d', rest' ++ sp, hparts', by rw [hsp, hwf', List.append_assoc], fun _ => ?_⟩
          unfold mkDT at hw
          split at hw
          · next hvd =>
            simp only [Except.ok.injEq] at hw
            exact ⟨validDT_iff.1 hvd, hw.symm⟩
          · simp at hw
      · simp at hw
    unfold dateToPython withTz at hpy
    split at hpy
    · obtain ⟨y, m, d, rest, h1, h2, h3⟩ := core _ _ hpy
      refine ⟨y, m, d, rest, h1, h2, fun ho => ⟨(h3 ho).1, none, ?_⟩⟩
      rw [hvt, (h3 ho).2]; rfl
    · next w' tz htz =>
      split at hpy
      · simp at hpy
      · next r hcore =>
        obtain ⟨y, m, d, rest, h1, h2, h3⟩ := core _ _ hcore
        obtain ⟨tail, htail⟩ := tzSuffix_prefix htz
        refine ⟨y, m, d, rest ++ tail, h1, by rw [htail, h2, List.append_assoc], fun ho => ⟨(h3 ho).1, ?_⟩⟩
        cases htzo : ext.tzOf tz with
        | error e => rw [htzo] at hpy; simp [Except.map] at hpy
        | ok z =>
          rw [htzo] at hpy
          simp only [Except.map, Except.ok.injEq] at hpy
          refine ⟨z, ?_⟩
          rw [hvt, ← hpy, (h3 ho).2]; rfl

/-- With a pattern other than `yyyy-MM-dd` and `yyyyMMdd`, whatever follows a valid date is ignored, unless it starts with a digit or
contains a timezone. -/
theorem C29_trailing (hb : s.base = .str "date".toList) {p : DatePattern} (hp : p ∈ datePatterns14) (ho : p.order ≠ .ymd)
    (hf : s.format = .str p.text) (hs : NoBounds s) (h : Datatype.construct ext other s = .ok dt) {y m d : Str} (hd : p.Parts y m d)
    (hv : ValidDate (Dec.numeral y) (Dec.numeral m) (Dec.numeral d)) {r : Str} (hr : ∀ c ∈ r.head?, isDig c = false)
    (hsp : ∀ c ∈ r, Py.isSpace c = false) (htz : tzSuffix (p.fill y m d ++ r) = none) :
    dt.read ext (p.fill y m d ++ r) = .ok (.dt { year := Dec.numeral y, month := Dec.numeral m, day := Dec.numeral d }) := by
  have hB := Datatype.built_of_construct h
  have hbase := base_of hB (b := .date) (by rw [hb]; decide)
  have hdesc := date_descr hp hB hbase hf
  have hstrip : Py.strip (p.fill y m d ++ r) = p.fill y m d ++ r := by
    apply Dec.strip_eq_self
    intro c hc
    rcases List.mem_append.1 hc with hc | hc
    · exact fill_not_space hp hd c hc
    · exact hsp c hc
  have hm := match_date_rest hp hd hr
  have hrx := parseRx_date ext hp (s := p.fill y m d ++ r) (by rw [hstrip]; exact hm)
  have hiso : isoparse ext (p.fill y m d ++ r) = .error .valueError := by
    have hlo : 1 ≤ (if p.padded then 2 else 1) := by split <;> decide
    rcases sep_cases p hp with rfl | ⟨c, hc, hsep, _⟩
    · exact absurd rfl ho
    · cases ho' : p.order
      · exact absurd ho' ho
      · simp only [DatePattern.fill, ho', hsep, List.append_assoc, List.cons_append, List.nil_append]
        exact isoparse_dmy ext (Digits.weaken hd.2.2 hlo) hc
      · simp only [DatePattern.fill, ho', hsep, List.append_assoc, List.cons_append, List.nil_append]
        exact isoparse_dmy ext (Digits.weaken hd.2.1 hlo) hc
  have hpre : preMatch (p.fill y m d ++ r) (some (dateRx p)) (some p.text) = true := by
    unfold preMatch
    cases hq : p.text with
    | nil => rfl
    | cons a b => simp [hm]
  unfold Datatype.read Datatype.parse
  rw [hdesc]
  simp only [toPython, hbase, Base.kind, dateToPython, withTz, hstrip, htz, dateTimeToPython, hpre, if_true, hiso, hrx]
  unfold mkDT ofParts
  rw [if_pos (validDT_iff.2 hv)]
  exact date_validate hB hs hbase _

end

/-- The datatype `date` with a pattern. -/
def dateSpec (p : DatePattern) : DatatypeSpec := { base := .str "date".toList, format := .str p.text }

/-- **C29 is violated**: with the format `dd.MM.yyyy` the text `10.12.2018xyz` is accepted. -/
theorem C29_trailing_violated (ext : Ext) (other : Base → Derived → J → Res Val) :
    ∃ p ∈ datePatterns14, p.text = "dd.MM.yyyy".toList ∧ ∃ dt, Datatype.construct ext other (dateSpec p) = .ok dt ∧
      (∀ y m d, p.Parts y m d → "10.12.2018xyz".toList ≠ p.fill y m d) ∧
      dt.read ext "10.12.2018xyz".toList = .ok (.dt { year := 2018, month := 12, day := 10 }) := by
  refine ⟨⟨.dmy, ['.'], true⟩, by decide, by decide, _, rfl, ?_, ?_⟩
  · intro y m d hp he
    have := fill_chars (p := ⟨.dmy, ['.'], true⟩) (by decide) hp 'x' (by rw [← he]; decide)
    simp [isDig] at this
  · exact C29_trailing (ext := ext) (other := other) (s := dateSpec ⟨.dmy, ['.'], true⟩) rfl (by decide) (by decide) rfl ⟨rfl, rfl, rfl, rfl, rfl, rfl⟩ rfl
      (y := "2018".toList) (m := "12".toList) (d := "10".toList) ⟨⟨by decide, by decide, by decide⟩, ⟨by decide, by decide, by decide⟩, ⟨by decide, by decide, by decide⟩⟩ (by decide)
      (r := "xyz".toList) (by decide) (by decide) (by decide)

/-! ## The hypotheses are satisfiable -/

example : datePatterns14.length = 14 := by decide
example : datePatterns14.map (fun p => String.ofList p.text) = ["yyyy-MM-dd", "yyyyMMdd", "dd-MM-yyyy", "d-M-yyyy", "MM-dd-yyyy", "M-d-yyyy", "dd/MM/yyyy",
    "d/M/yyyy", "MM/dd/yyyy", "M/d/yyyy", "dd.MM.yyyy", "d.M.yyyy", "MM.dd.yyyy", "M.d.yyyy"] := by decide +kernel
example : ValidDate 2024 2 29 ∧ ¬ ValidDate 2023 2 29 := by decide
example (ext : Ext) (other : Base → Derived → J → Res Val) :
    ∃ dt, Datatype.construct ext other (dateSpec ⟨.mdy, ['/'], false⟩) = .ok dt ∧
      dt.read ext "2/29/2024".toList = .ok (.dt { year := 2024, month := 2, day := 29 }) := by
  refine ⟨_, rfl, ?_⟩
  exact (C29_roundtrip (ext := ext) (other := other) (s := dateSpec ⟨.mdy, ['/'], false⟩) rfl (by decide) rfl ⟨rfl, rfl, rfl, rfl, rfl, rfl⟩ rfl
    (y := 2024) (m := 2) (d := 29) (by decide)).2

end Csvw.Props
