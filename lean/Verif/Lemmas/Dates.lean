import Verif.Model.DateFormat
import Verif.Lemmas.Decimal
import Verif.Spec.Dates
/-!
# Lemmas on dates
-/

namespace Csvw.DateFmt
open Py Spec

theorem isDig_eq (c : Char) : isDig c = c.isDigit := by
  rw [Bool.eq_iff_iff, Dec.isDigit_iff]
  simp only [isDig, Bool.and_eq_true, decide_eq_true_eq, Char.le_def, UInt32.le_iff_toNat_le]
  rfl

theorem take_append_len (a b : Str) : (a ++ b).take a.length = a := by simp

/-- Greedy matching of a field which is followed by something else than a digit, or which has its maximal length. -/
theorem matchField_ok {f : Field} {lo hi : Nat} {is : List RItem} {ds r : Str} {g : Groups} (h1 : lo ≤ ds.length) (h2 : ds.length ≤ hi)
    (hd : ∀ c ∈ ds, isDig c = true) (hr : ds.length = hi ∨ ∀ c ∈ r.head?, isDig c = false) (hg : matchItems is r = some g) :
    matchItems (.field f lo hi :: is) (ds ++ r) = some { g with fields := (f, ds) :: g.fields } := by
  have key : ∀ k, ds.length < lo + k → lo + k ≤ hi + 1 → matchField f lo k is (ds ++ r) = some { g with fields := (f, ds) :: g.fields } := by
    intro k
    induction k with
    | zero => intro h; omega
    | succ k ih =>
      intro hk hk'
      rw [matchField]
      by_cases hlt : ds.length < lo + k
      · have hne : ¬ (((ds ++ r).take (lo + k)).length = lo + k ∧ ((ds ++ r).take (lo + k)).all isDig = true) := by
          rintro ⟨ha, hb⟩
          rcases hr with hr | hr
          · omega
          · cases r with
            | nil => simp at ha; omega
            | cons c r =>
              have hc := hr c (by simp)
              have : c ∈ (ds ++ c :: r).take (lo + k) := by
                rw [List.take_append]
                refine List.mem_append.2 (.inr ?_)
                obtain ⟨j, hj⟩ : ∃ j, lo + k - ds.length = j + 1 := ⟨lo + k - ds.length - 1, by omega⟩
                rw [hj]; simp
              rw [List.all_eq_true.1 hb c this] at hc
              simp at hc
        rw [if_neg hne]
        exact ih hlt (by omega)
      · have he : lo + k = ds.length := by omega
        rw [he, take_append_len]
        rw [if_pos ⟨rfl, List.all_eq_true.2 hd⟩]
        simp [hg]
  rw [matchItems]
  exact key _ (by omega) (by omega)

theorem matchField_inv {f : Field} {lo hi : Nat} {is : List RItem} {s : Str} {g : Groups}
    (h : matchItems (.field f lo hi :: is) s = some g) :
    ∃ ds r g', s = ds ++ r ∧ lo ≤ ds.length ∧ ds.length ≤ hi ∧ (∀ c ∈ ds, isDig c = true) ∧ matchItems is r = some g' ∧
      g = { g' with fields := (f, ds) :: g'.fields } := by
  rw [matchItems] at h
  have key : ∀ k, lo + k ≤ hi + 1 ∨ k = 0 → matchField f lo k is s = some g → ∃ ds r g', s = ds ++ r ∧ lo ≤ ds.length ∧ ds.length ≤ hi ∧
      (∀ c ∈ ds, isDig c = true) ∧ matchItems is r = some g' ∧ g = { g' with fields := (f, ds) :: g'.fields } := by
    intro k
    induction k with
    | zero => intro _ h; simp [matchField] at h
    | succ k ih =>
      intro hk h
      rw [matchField] at h
      split at h
      · next hc =>
        split at h
        · next g' hg' =>
          simp only [Option.some.injEq] at h
          exact ⟨s.take (lo + k), s.drop (lo + k), g', (List.take_append_drop _ _).symm, by omega, by omega,
            List.all_eq_true.1 hc.2, hg', h.symm⟩
        · exact ih (by omega) h
      · exact ih (by omega) h
  exact key _ (by omega) h

theorem matchLit_inv {c : Char} {is : List RItem} {s : Str} {g : Groups} (h : matchItems (.lit c :: is) s = some g) :
    ∃ r, s = c :: r ∧ matchItems is r = some g := by
  cases s with
  | nil => simp [matchItems] at h
  | cons d s =>
    rw [matchItems] at h
    split at h
    · next he => subst he; exact ⟨s, rfl, h⟩
    · simp at h

theorem matchLit {c : Char} {is : List RItem} {r : Str} : matchItems (.lit c :: is) (c :: r) = matchItems is r := by
  rw [matchItems]; simp

theorem matchNil (s : Str) : matchItems [] s = some {} := by rw [matchItems]

/-! ## `int()` -/

theorem pyInt_ok_chars : ∀ (s : Str) (b : Bool), intOk b s = true → ∀ c ∈ s, isDig c = true ∨ c = '_'
  | [], _, _ => by simp
  | c :: cs, b, h => by
    unfold intOk at h
    intro d hd
    split at h
    · next hc =>
      rcases List.mem_cons.1 hd with rfl | hd
      · exact .inl hc
      · exact pyInt_ok_chars cs _ h d hd
    · split at h
      · next hc =>
        rw [Bool.and_eq_true] at h
        rcases List.mem_cons.1 hd with rfl | hd
        · exact .inr hc.1
        · exact pyInt_ok_chars cs _ h.2 d hd
      · simp at h

theorem pyInt_ok_digits : ∀ {s : Str}, (∀ c ∈ s, isDig c = true) → ∀ b, (s ≠ [] ∨ b = true) → intOk b s = true
  | [], _, b, hb => by simpa [intOk] using hb
  | c :: cs, h, b, _ => by
    unfold intOk
    rw [if_pos (h c (by simp))]
    exact pyInt_ok_digits (fun d hd => h d (by simp [hd])) true (.inr rfl)

theorem digit_not_space {c : Char} (h : isDig c = true) : isSpace c = false := by
  rw [isDig_eq] at h
  have := (Dec.isDigit_iff c).1 h
  exact Dec.isSpace_eq c (by omega) (by omega)

theorem digit_not_byteSpace {c : Char} (h : isDig c = true) : byteSpace c = false := by
  rw [isDig_eq] at h
  have := (Dec.isDigit_iff c).1 h
  have hn : ∀ d : Char, d.toNat < 48 → c ≠ d := by rintro d hd rfl; omega
  simp only [byteSpace, Bool.or_eq_false_iff, decide_eq_false_iff_not]
  exact ⟨⟨⟨⟨⟨hn _ (by decide), hn _ (by decide)⟩, hn _ (by decide)⟩, hn _ (by decide)⟩, by omega⟩, by omega⟩

theorem byteStrip_eq_self {s : Str} (h : ∀ c ∈ s, byteSpace c = false) : byteStrip s = s := by
  have h1 : ∀ l : Str, (∀ c ∈ l, byteSpace c = false) → l.dropWhile byteSpace = l := by
    intro l hl
    cases l with
    | nil => rfl
    | cons c l => rw [List.dropWhile_cons_of_neg (by simp [hl c (by simp)])]
  unfold byteStrip rstripP lstripP
  rw [h1 s h, h1 _ (by simpa using h), List.reverse_reverse]

theorem pyInt_digits {s : Str} (hne : s ≠ []) (h : ∀ c ∈ s, isDig c = true) : pyInt s = some (Dec.numeral s) := by
  unfold pyInt
  rw [byteStrip_eq_self (fun c hc => digit_not_byteSpace (h c hc))]
  have hp : dropPlus s = s := by
    unfold dropPlus
    split
    · have := h '+' (by simp); simp [isDig] at this
    · rfl
  simp only [hp]
  rw [if_pos ⟨hne, pyInt_ok_digits h _ (.inl hne)⟩]
  congr 1
  rw [List.filter_eq_self.2]
  intro c hc
  have := h c hc
  simp only [ne_eq, decide_not, Bool.not_eq_true', decide_eq_false_iff_not]
  rintro rfl
  simp [isDig] at this

theorem mem_strip_of {s : Str} {c : Char} (hs : byteSpace c = false) (h : c ∈ s) : c ∈ byteStrip s := by
  have hd : ∀ l : Str, c ∈ l → c ∈ l.dropWhile byteSpace := by
    intro l hl
    induction l with
    | nil => exact hl
    | cons x l ih =>
      rcases List.mem_cons.1 hl with rfl | hl
      · rw [List.dropWhile_cons_of_neg (by simp [hs])]; simp
      · by_cases hx : byteSpace x = true
        · rw [List.dropWhile_cons_of_pos hx]; exact ih hl
        · rw [List.dropWhile_cons_of_neg hx]; simp [hl]
  unfold byteStrip rstripP lstripP
  rw [List.mem_reverse]
  apply hd
  rw [List.mem_reverse]
  exact hd s h

/-- A character which cannot occur in an integer. -/
theorem pyInt_bad {s : Str} {c : Char} (h : c ∈ s) (h1 : isDig c = false) (h2 : c ≠ '_') (h3 : c ≠ '+') (h4 : byteSpace c = false) :
    pyInt s = none := by
  have hm := mem_strip_of h4 h
  unfold pyInt
  have hm' : c ∈ dropPlus (byteStrip s) := by
    unfold dropPlus
    split
    · next r hr => rw [hr] at hm; rcases List.mem_cons.1 hm with hm | hm
                   · exact absurd hm h3
                   · exact hm
    · exact hm
  simp only
  rw [if_neg]
  rintro ⟨_, hok⟩
  rcases pyInt_ok_chars _ _ hok c hm' with h | h
  · rw [h1] at h; simp at h
  · exact h2 h

theorem isoparse_none (ext : Ext) {s : Str} {c : Char} (h : c ∈ s.take 4) (h1 : isDig c = false) (h2 : c ≠ '_') (h3 : c ≠ '+')
    (h4 : byteSpace c = false) : isoparse ext s = .error .valueError := by
  unfold isoparse
  split
  · rfl
  · rw [pyInt_bad h h1 h2 h3 h4]

/-! ## Numerals -/

theorem numeralN_length (n k : Nat) : (numeralN n k).length = n := by
  induction n generalizing k with
  | zero => rfl
  | succ n ih => simp [numeralN, ih]

theorem numeralN_digits (n k : Nat) : ∀ c ∈ numeralN n k, c.isDigit = true := by
  induction n generalizing k with
  | zero => simp [numeralN]
  | succ n ih =>
    intro c hc
    rw [numeralN] at hc
    rcases List.mem_append.1 hc with hc | hc
    · exact ih _ c hc
    · rw [List.mem_singleton.1 hc]
      have : ∀ j, j < 10 → (Nat.digitChar j).isDigit = true := by decide
      exact this _ (Nat.mod_lt _ (by decide))

theorem numeralN_value {n k : Nat} (h : k < 10 ^ n) : Dec.numeral (numeralN n k) = k := by
  induction n generalizing k with
  | zero => simp at h; subst h; rfl
  | succ n ih =>
    rw [numeralN, Dec.numeral_append, ih (by rw [Nat.pow_succ] at h; omega)]
    have hm : k % 10 < 10 := Nat.mod_lt _ (by decide)
    have : Dec.numeral [Nat.digitChar (k % 10)] = k % 10 := by
      have : ∀ j, j < 10 → Dec.numeral [Nat.digitChar j] = j := by decide
      exact this _ hm
    rw [this]
    simp
    omega

theorem padNat_eq {n k : Nat} (hn : 0 < n) (h : k < 10 ^ n) : padNat n k = numeralN n k := by
  have hzero : ∀ n, numeralN n 0 = List.replicate n '0' := by
    intro n
    induction n with
    | zero => rfl
    | succ n ih => rw [numeralN, Nat.zero_div, ih, List.replicate_succ']; rfl
  induction n generalizing k with
  | zero => omega
  | succ n ih =>
    rw [numeralN]
    unfold padNat
    simp only [Dec.digits]
    rw [Nat.toDigits_eq_if (by decide)]
    by_cases hk : k < 10
    · rw [if_pos hk, Nat.div_eq_of_lt hk, hzero, Nat.mod_eq_of_lt hk]
      simp
    · rw [if_neg hk]
      have hpos : 0 < n := by
        rcases Nat.eq_zero_or_pos n with h0 | h0
        · subst h0; simp at h; omega
        · exact h0
      have := ih hpos (k := k / 10) (by rw [Nat.pow_succ] at h; omega)
      unfold padNat at this
      simp only [Dec.digits] at this
      rw [← this]
      simp

/-- The regular expression for a date pattern. -/
def dateRx (p : DatePattern) : List RItem :=
  let lo := if p.padded then 2 else 1
  let sep := p.sep.map RItem.lit
  match p.order with
  | .ymd => .field .year 4 4 :: sep ++ .field .month lo 2 :: sep ++ [.field .day lo 2]
  | .dmy => .field .day lo 2 :: sep ++ .field .month lo 2 :: sep ++ [.field .year 4 4]
  | .mdy => .field .month lo 2 :: sep ++ .field .day lo 2 :: sep ++ [.field .year 4 4]

theorem formatAndRegex_date : ∀ p ∈ datePatterns14, formatAndRegex p.text false = .ok ⟨some (dateRx p), none, some p.text⟩ := by
  decide +kernel

theorem hasYear_date : ∀ p ∈ datePatterns14, hasYear (dateRx p) = true := by decide +kernel

theorem text_mem : ∀ p ∈ datePatterns14, p.text ∈ datePatterns ∧ p.text ≠ [] := by decide +kernel

/-- The separator of a pattern: none only for `yyyyMMdd`. -/
theorem sep_cases : ∀ p ∈ datePatterns14, p = ⟨.ymd, [], true⟩ ∨
    ∃ c ∈ ['-', '/', '.'], p.sep = [c] ∧ (p.order = .ymd → c = '-' ∧ p.padded = true) := by
  decide +kernel

/-- The groups of a date. -/
def dateGroups (o : DateOrder) (y m d : Str) : Groups :=
  match o with
  | .ymd => ⟨[(.year, y), (.month, m), (.day, d)], none, none⟩
  | .dmy => ⟨[(.day, d), (.month, m), (.year, y)], none, none⟩
  | .mdy => ⟨[(.month, m), (.day, d), (.year, y)], none, none⟩

theorem digits_isDig {lo hi : Nat} {s : Str} (h : Digits lo hi s) : ∀ c ∈ s, isDig c = true := by
  intro c hc; rw [isDig_eq]; exact h.2.2 c hc

theorem match_date_cont {p : DatePattern} (hp : p ∈ datePatterns14) {y m d : Str} (h : p.Parts y m d) {r : Str}
    (hr : ∀ c ∈ r.head?, isDig c = false) {is : List RItem} {g : Groups} (hg : matchItems is r = some g) :
    matchItems (dateRx p ++ is) (p.fill y m d ++ r) = some { g with fields := (dateGroups p.order y m d).fields ++ g.fields } := by
  obtain ⟨hy, hm, hd⟩ := h
  rcases sep_cases p hp with rfl | ⟨c, hc, hs, _⟩
  · simp only [dateRx, DatePattern.fill, dateGroups, List.map_nil, List.append_nil, if_true, List.cons_append, List.nil_append] at *
    rw [List.append_assoc, List.append_assoc, matchField_ok hy.1 hy.2.1 (digits_isDig hy) (.inl (by have := hy.1; have := hy.2.1; omega))
      (matchField_ok hm.1 hm.2.1 (digits_isDig hm) (.inl (by have := hm.1; have := hm.2.1; omega))
      (by exact matchField_ok hd.1 hd.2.1 (digits_isDig hd) (.inr hr) hg))]
  · have hcd : isDig c = false := by
      simp only [List.mem_cons, List.not_mem_nil, or_false] at hc
      rcases hc with rfl | rfl | rfl <;> decide
    cases ho : p.order
    · simp only [dateRx, DatePattern.fill, dateGroups, hs, ho, List.map_cons, List.map_nil, List.cons_append, List.nil_append,
        List.append_assoc] at *
      rw [matchField_ok hy.1 hy.2.1 (digits_isDig hy) (.inr (by simp [hcd])) (by
        rw [matchLit]
        exact matchField_ok hm.1 hm.2.1 (digits_isDig hm) (.inr (by simp [hcd])) (by
          rw [matchLit]
          exact matchField_ok hd.1 hd.2.1 (digits_isDig hd) (.inr hr) hg))]
    · simp only [dateRx, DatePattern.fill, dateGroups, hs, ho, List.map_cons, List.map_nil, List.cons_append, List.nil_append,
        List.append_assoc] at *
      rw [matchField_ok hd.1 hd.2.1 (digits_isDig hd) (.inr (by simp [hcd])) (by
        rw [matchLit]
        exact matchField_ok hm.1 hm.2.1 (digits_isDig hm) (.inr (by simp [hcd])) (by
          rw [matchLit]
          exact matchField_ok hy.1 hy.2.1 (digits_isDig hy) (.inr hr) hg))]
    · simp only [dateRx, DatePattern.fill, dateGroups, hs, ho, List.map_cons, List.map_nil, List.cons_append, List.nil_append,
        List.append_assoc] at *
      rw [matchField_ok hm.1 hm.2.1 (digits_isDig hm) (.inr (by simp [hcd])) (by
        rw [matchLit]
        exact matchField_ok hd.1 hd.2.1 (digits_isDig hd) (.inr (by simp [hcd])) (by
          rw [matchLit]
          exact matchField_ok hy.1 hy.2.1 (digits_isDig hy) (.inr hr) hg))]

theorem match_date_rest {p : DatePattern} (hp : p ∈ datePatterns14) {y m d : Str} (h : p.Parts y m d) {r : Str}
    (hr : ∀ c ∈ r.head?, isDig c = false) : matchItems (dateRx p) (p.fill y m d ++ r) = some (dateGroups p.order y m d) := by
  have := match_date_cont hp h hr (matchNil r)
  rw [List.append_nil] at this
  rw [this]
  cases p.order <;> rfl

theorem match_date {p : DatePattern} (hp : p ∈ datePatterns14) {y m d : Str} (h : p.Parts y m d) :
    matchItems (dateRx p) (p.fill y m d) = some (dateGroups p.order y m d) := by
  have := match_date_rest hp h (r := []) (by simp)
  rwa [List.append_nil] at this

theorem digits_of {lo hi : Nat} {s : Str} (h1 : lo ≤ s.length) (h2 : s.length ≤ hi) (h3 : ∀ c ∈ s, isDig c = true) : Digits lo hi s :=
  ⟨h1, h2, fun c hc => by rw [← isDig_eq]; exact h3 c hc⟩

theorem match_date_inv {p : DatePattern} (hp : p ∈ datePatterns14) {s : Str} {g : Groups} (h : matchItems (dateRx p) s = some g) :
    ∃ y m d r, p.Parts y m d ∧ s = p.fill y m d ++ r ∧ g = dateGroups p.order y m d := by
  rcases sep_cases p hp with rfl | ⟨c, hc, hs, _⟩
  · simp only [dateRx, List.map_nil, List.append_nil, if_true, List.cons_append, List.nil_append] at h
    obtain ⟨y, r1, g1, rfl, a1, a2, a3, k1, rfl⟩ := matchField_inv h
    obtain ⟨m, r2, g2, rfl, b1, b2, b3, k2, rfl⟩ := matchField_inv k1
    obtain ⟨d, r3, g3, rfl, c1, c2, c3, k3, rfl⟩ := matchField_inv k2
    rw [matchNil] at k3
    cases k3
    exact ⟨y, m, d, r3, ⟨digits_of a1 a2 a3, digits_of b1 b2 b3, digits_of c1 c2 c3⟩, by simp [DatePattern.fill], rfl⟩
  · cases ho : p.order
    · simp only [dateRx, hs, ho, List.map_cons, List.map_nil, List.cons_append, List.nil_append] at h
      obtain ⟨y, r1, g1, rfl, a1, a2, a3, k1, rfl⟩ := matchField_inv h
      obtain ⟨r1, rfl, k2⟩ := matchLit_inv k1
      obtain ⟨m, r2, g2, rfl, b1, b2, b3, k3, rfl⟩ := matchField_inv k2
      obtain ⟨r2, rfl, k4⟩ := matchLit_inv k3
      obtain ⟨d, r3, g3, rfl, c1, c2, c3, k5, rfl⟩ := matchField_inv k4
      rw [matchNil] at k5
      cases k5
      exact ⟨y, m, d, r3, ⟨digits_of a1 a2 a3, digits_of b1 b2 b3, digits_of c1 c2 c3⟩, by simp [DatePattern.fill, ho, hs], rfl⟩
    · simp only [dateRx, hs, ho, List.map_cons, List.map_nil, List.cons_append, List.nil_append] at h
      obtain ⟨d, r1, g1, rfl, c1, c2, c3, k1, rfl⟩ := matchField_inv h
      obtain ⟨r1, rfl, k2⟩ := matchLit_inv k1
      obtain ⟨m, r2, g2, rfl, b1, b2, b3, k3, rfl⟩ := matchField_inv k2
      obtain ⟨r2, rfl, k4⟩ := matchLit_inv k3
      obtain ⟨y, r3, g3, rfl, a1, a2, a3, k5, rfl⟩ := matchField_inv k4
      rw [matchNil] at k5
      cases k5
      exact ⟨y, m, d, r3, ⟨digits_of a1 a2 a3, digits_of b1 b2 b3, digits_of c1 c2 c3⟩, by simp [DatePattern.fill, ho, hs], rfl⟩
    · simp only [dateRx, hs, ho, List.map_cons, List.map_nil, List.cons_append, List.nil_append] at h
      obtain ⟨m, r1, g1, rfl, b1, b2, b3, k1, rfl⟩ := matchField_inv h
      obtain ⟨r1, rfl, k2⟩ := matchLit_inv k1
      obtain ⟨d, r2, g2, rfl, c1, c2, c3, k3, rfl⟩ := matchField_inv k2
      obtain ⟨r2, rfl, k4⟩ := matchLit_inv k3
      obtain ⟨y, r3, g3, rfl, a1, a2, a3, k5, rfl⟩ := matchField_inv k4
      rw [matchNil] at k5
      cases k5
      exact ⟨y, m, d, r3, ⟨digits_of a1 a2 a3, digits_of b1 b2 b3, digits_of c1 c2 c3⟩, by simp [DatePattern.fill, ho, hs], rfl⟩

/-- A date made of numerals. -/
def ofParts (y m d : Str) : DateTime := { year := Dec.numeral y, month := Dec.numeral m, day := Dec.numeral d }

/-- The result of the regular expression, for any matching string. -/
theorem parseRx_date (ext : Ext) {p : DatePattern} (hp : p ∈ datePatterns14) {s y m d : Str}
    (h : matchItems (dateRx p) (strip s) = some (dateGroups p.order y m d)) :
    parseRx ext s (some (dateRx p)) none = mkDT (ofParts y m d) := by
  unfold parseRx
  simp only [h, hasYear_date p hp, if_true]
  cases ho : p.order <;>
  · simp only [dateGroups, fieldNat, List.find?, ofParts, microOf, Option.getD_none]
    simp
    cases mkDT _ <;> rfl

/-- A text of the form of the pattern consists of digits and separators. -/
theorem fill_chars {p : DatePattern} (hp : p ∈ datePatterns14) {y m d : Str} (h : p.Parts y m d) :
    ∀ c ∈ p.fill y m d, isDig c = true ∨ c = '-' ∨ c = '/' ∨ c = '.' := by
  have hsep : ∀ c ∈ p.sep, c = '-' ∨ c = '/' ∨ c = '.' := by
    rcases sep_cases p hp with rfl | ⟨c, hc, hs, _⟩
    · simp
    · rw [hs]; intro x hx; rw [List.mem_singleton.1 hx]; simpa using hc
  obtain ⟨hy, hm, hd⟩ := h
  intro c hc
  cases ho : p.order <;>
  · simp only [DatePattern.fill, ho, List.mem_append] at hc
    rcases hc with (((hc | hc) | hc) | hc) | hc
    all_goals first
      | exact .inr (hsep c hc)
      | exact .inl (digits_isDig hy c hc)
      | exact .inl (digits_isDig hm c hc)
      | exact .inl (digits_isDig hd c hc)

theorem fill_not_space {p : DatePattern} (hp : p ∈ datePatterns14) {y m d : Str} (h : p.Parts y m d) :
    ∀ c ∈ p.fill y m d, isSpace c = false := by
  intro c hc
  rcases fill_chars hp h c hc with h | rfl | rfl | rfl
  · exact digit_not_space h
  · decide
  · decide
  · decide

theorem fill_no_tz {p : DatePattern} (hp : p ∈ datePatterns14) {y m d : Str} (h : p.Parts y m d) : tzSuffix (p.fill y m d) = none := by
  have hr : ∀ c ∈ (p.fill y m d).reverse, isDig c = true ∨ c = '-' ∨ c = '/' ∨ c = '.' := by
    intro c hc; exact fill_chars hp h c (List.mem_reverse.1 hc)
  have hn : ∀ c, isDig c = false → c ≠ '-' → c ≠ '/' → c ≠ '.' → c ∉ (p.fill y m d).reverse := by
    intro c h0 h1 h2 h3 hm
    rcases hr c hm with h | h | h | h
    · rw [h0] at h; simp at h
    · exact h1 h
    · exact h2 h
    · exact h3 h
  have n1 := hn '\n' (by decide) (by decide) (by decide) (by decide)
  have n2 := hn 'Z' (by decide) (by decide) (by decide) (by decide)
  have n3 := hn ':' (by decide) (by decide) (by decide) (by decide)
  unfold tzSuffix
  revert n1 n2 n3
  generalize (p.fill y m d).reverse = r
  intro n1 n2 n3
  cases r with
  | nil => rfl
  | cons c t =>
    have c1 : c ≠ '\n' := by rintro rfl; exact n1 (by simp)
    have c2 : c ≠ 'Z' := by rintro rfl; exact n2 (by simp)
    have hr : dropNl (c :: t) = c :: t := by
      unfold dropNl
      split
      · next heq => simp only [List.cons.injEq] at heq; exact absurd heq.1 c1
      · rfl
    simp only [hr]
    split
    · next heq => simp only [List.cons.injEq] at heq; exact absurd heq.1 c2
    · next heq => rw [heq] at n3; exact absurd (by simp) n3
    · rfl

theorem list4 {α : Type} {l : List α} (h : l.length = 4) : ∃ a b c d, l = [a, b, c, d] := by
  match l, h with
  | [a, b, c, d], _ => exact ⟨a, b, c, d, rfl⟩

theorem list2 {α : Type} {l : List α} (h : l.length = 2) : ∃ a b, l = [a, b] := by
  match l, h with
  | [a, b], _ => exact ⟨a, b, rfl⟩

theorem digit_ascii {c : Char} (h : c.isDigit = true) : c.toNat < 128 := by
  have := (Dec.isDigit_iff c).1 h; omega

theorem digit_ne {c d : Char} (h : c.isDigit = true) (hd : d.isDigit = false) : c ≠ d := by
  rintro rfl; rw [h] at hd; simp at hd

theorem isoparse_ymd (ext : Ext) {p : DatePattern} (hp : p = ⟨.ymd, [], true⟩ ∨ p = ⟨.ymd, ['-'], true⟩) {y m d : Str} (h : p.Parts y m d) :
    isoparse ext (p.fill y m d) = mkDT (ofParts y m d) := by
  have hpad : p.padded = true := by rcases hp with rfl | rfl <;> rfl
  unfold DatePattern.Parts at h
  rw [hpad] at h
  obtain ⟨⟨y1, y2, y3⟩, ⟨m1, m2, m3⟩, ⟨d1, d2, d3⟩⟩ := h
  simp only [if_true] at m1 d1
  obtain ⟨a, b, c, e, rfl⟩ := list4 (l := y) (by omega)
  obtain ⟨f, g, rfl⟩ := list2 (l := m) (by omega)
  obtain ⟨i, j, rfl⟩ := list2 (l := d) (by omega)
  have ey := pyInt_digits (s := [a, b, c, e]) (by simp) (fun x hx => by rw [isDig_eq]; exact y3 x hx)
  have em := pyInt_digits (s := [f, g]) (by simp) (fun x hx => by rw [isDig_eq]; exact m3 x hx)
  have ed := pyInt_digits (s := [i, j]) (by simp) (fun x hx => by rw [isDig_eq]; exact d3 x hx)
  simp only [List.mem_cons, List.not_mem_nil, or_false, forall_eq_or_imp, forall_eq] at y3 m3 d3
  obtain ⟨ya, yb, yc, ye⟩ := y3
  obtain ⟨mf, mg⟩ := m3
  obtain ⟨di, dj⟩ := d3
  have hf : f ≠ '-' := digit_ne mf (by decide)
  rcases hp with rfl | rfl
  · simp [DatePattern.fill, isoparse, isoCommon, ey, em, ed, digit_ascii, ya, yb, yc, ye, mf, mg, di, dj, hf, ofParts]
  · simp [DatePattern.fill, isoparse, isoCommon, ey, em, ed, digit_ascii, ya, yb, yc, ye, mf, mg, di, dj, hf, ofParts]

/-- In the other orders the separator is among the first three characters. -/
theorem isoparse_dmy (ext : Ext) {a r : Str} {c : Char} (ha : Digits 1 2 a) (hc : c ∈ ['-', '/', '.']) :
    isoparse ext (a ++ c :: r) = .error .valueError := by
  have hm : c ∈ (a ++ c :: r).take 4 := by
    rw [List.take_append]
    obtain ⟨j, hj⟩ : ∃ j, 4 - a.length = j + 1 := ⟨3 - a.length, by have := ha.2.1; omega⟩
    rw [hj]; simp
  simp only [List.mem_cons, List.not_mem_nil, or_false] at hc
  rcases hc with rfl | rfl | rfl
  · exact isoparse_none ext hm (by decide) (by decide) (by decide) (by decide)
  · exact isoparse_none ext hm (by decide) (by decide) (by decide) (by decide)
  · exact isoparse_none ext hm (by decide) (by decide) (by decide) (by decide)

theorem Digits.weaken {lo lo' hi : Nat} {s : Str} (h : Digits lo hi s) (hl : lo' ≤ lo) : Digits lo' hi s :=
  ⟨Nat.le_trans hl h.1, h.2⟩

end Csvw.DateFmt
