import Verif.Props.C26_C27
import Verif.Props.C62
import Verif.Spec.Order
/-!
# C26: bounds of decimals and of date-times
-/

namespace Csvw.Props
open Datatypes Spec DateFmt

/-! ## The order of decimals -/

theorem dec_lt_true {a b : Dec} : Dec.lt a b = .ok true ↔ DecLt a b := by
  constructor
  · intro h
    cases a <;> cases b <;> simp [Dec.lt] at h
    · exact .fin h
    · rename_i b; cases b <;> simp at h; exact .fin_posInf
    · rename_i b _ _ _; cases b <;> simp at h; exact .negInf_fin
    · rename_i b b'; cases b <;> cases b' <;> simp at h; exact .neg_pos
  · intro h
    cases h with
    | fin h => simp [Dec.lt, h]
    | negInf_fin => rfl
    | fin_posInf => rfl
    | neg_pos => rfl

theorem dec_lt_false {a b : Dec} : Dec.lt a b = .ok false ↔ DecLe b a := by
  constructor
  · intro h
    cases a <;> cases b <;> simp [Dec.lt] at h
    · exact .fin (Rat.not_lt.1 h)
    · rename_i b; cases b <;> simp at h; exact .negInf_fin
    · rename_i b _ _ _; cases b <;> simp at h; exact .fin_posInf
    · rename_i b b'
      cases b <;> cases b' <;> simp at h
      · exact .inf
      · exact .neg_pos
      · exact .inf
  · intro h
    cases h with
    | fin h => simp [Dec.lt, Rat.not_lt.2 h]
    | negInf_fin => rfl
    | fin_posInf => rfl
    | inf => rename_i b; cases b <;> rfl
    | neg_pos => rfl

/-- The decimal lies within the bounds. -/
structure DecWithinAll (dt : Datatype) (v : Dec) : Prop where
  minimum : ∀ m, dt.minimum = some (.dec m) → DecLe m v
  minInclusive : ∀ m, dt.minInclusive = some (.dec m) → DecLe m v
  minExclusive : ∀ m, dt.minExclusive = some (.dec m) → DecLt m v
  maximum : ∀ m, dt.maximum = some (.dec m) → DecLe v m
  maxInclusive : ∀ m, dt.maxInclusive = some (.dec m) → DecLe v m
  maxExclusive : ∀ m, dt.maxExclusive = some (.dec m) → DecLt v m

section
variable {ext : Ext} {other : Base → Derived → J → Res Val} {s : DatatypeSpec} {dt : Datatype}

/-- The value of a bound given as string is one which the datatype can read. -/
theorem bound_read {d : Derived} {j : J} (hj : j = .null ∨ ∃ x, j = .str x) {o : Option Val}
    (h : Datatype.parseBound ext other dt.base d j = .ok o) : ∀ v ∈ o, ∃ x, toPython ext dt.base d x = .ok v := by
  rcases hj with rfl | ⟨x, rfl⟩
  · simp only [Datatype.parseBound, Except.ok.injEq] at h
    subst h
    simp
  · simp only [Datatype.parseBound, Datatype.parseJ] at h
    cases hp : toPython ext dt.base d x with
    | error e => rw [hp] at h; simp [Except.map] at h
    | ok v =>
      rw [hp] at h
      simp only [Except.map, Except.ok.injEq] at h
      subst h
      intro w hw
      simp only [Option.mem_def, Option.some.injEq] at hw
      subst hw
      exact ⟨x, hp⟩

/-- **C26** (decimals) For the datatype `decimal` with bounds given as strings: `read(x)` returns `v` if and only if `v` is the value parsed from
`x` and lies within the bounds, in the order of numbers with infinities; a NaN is not within any bound. -/
theorem C26_decimal_all (hb : s.base = .str "decimal".toList) (hsb : StrBounds s) (h : Datatype.construct ext other s = .ok dt) (x : Str) (v : Dec) :
    dt.read ext x = .ok (.dec v) ↔ dt.parse ext x = .ok (.dec v) ∧ DecWithinAll dt v := by
  have hB := Datatype.built_of_construct h
  have hbase := base_of hB (b := .decimal) (by rw [hb]; decide)
  rw [C26_read_iff h (by rw [hbase]; decide)]
  have hdec : ∀ {d : Derived} {x : Str} {v : Val}, toPython ext dt.base d x = .ok v → ∃ a, v = .dec a := by
    intro d x v hv
    rw [hbase] at hv
    simp only [toPython, Base.kind] at hv
    split at hv
    · cases hv
    · next f _ =>
      cases hd : decToPython f x with
      | error e => rw [hd] at hv; simp [Except.map] at hv
      | ok a => rw [hd] at hv; exact ⟨a, by simpa [Except.map] using hv.symm⟩
  obtain ⟨d, _, _, h1, h2, h3, h4, h5, h6⟩ := hB.descr
  have key : ∀ {j : J} (_ : j = .null ∨ ∃ x, j = .str x) {o : Option Val}, Datatype.parseBound ext other dt.base d j = .ok o →
      ∀ w ∈ o, ∃ a, w = .dec a := by
    intro j hj o ho w hw
    obtain ⟨x, hx⟩ := bound_read hj ho w hw
    exact hdec hx
  have h1 := key (hsb _ (by simp)) h1
  have h2 := key (hsb _ (by simp)) h2
  have h3 := key (hsb _ (by simp)) h3
  have h4 := key (hsb _ (by simp)) h4
  have h5 := key (hsb _ (by simp)) h5
  have h6 := key (hsb _ (by simp)) h6
  have ge : ∀ {o : Option Val}, (∀ w ∈ o, ∃ a, w = .dec a) → ((∀ m ∈ o, Val.lt ext (.dec v) m = .ok false) ↔ ∀ m, o = some (.dec m) → DecLe m v) := by
    intro o ho
    constructor
    · intro h m hm; exact dec_lt_false.1 (h _ hm)
    · intro h m hm; obtain ⟨a, rfl⟩ := ho m hm; exact dec_lt_false.2 (h a hm)
  have le : ∀ {o : Option Val}, (∀ w ∈ o, ∃ a, w = .dec a) → ((∀ m ∈ o, Val.lt ext m (.dec v) = .ok false) ↔ ∀ m, o = some (.dec m) → DecLe v m) := by
    intro o ho
    constructor
    · intro h m hm; exact dec_lt_false.1 (h _ hm)
    · intro h m hm; obtain ⟨a, rfl⟩ := ho m hm; exact dec_lt_false.2 (h a hm)
  have flip : ∀ a b : Dec, Dec.le a b = .ok false ↔ Dec.lt b a = .ok true := by
    intro a b
    unfold Dec.le
    cases Dec.lt b a with
    | error e => simp [Except.map]
    | ok r => cases r <;> simp [Except.map]
  have gt : ∀ {o : Option Val}, (∀ w ∈ o, ∃ a, w = .dec a) → ((∀ m ∈ o, Val.le ext (.dec v) m = .ok false) ↔ ∀ m, o = some (.dec m) → DecLt m v) := by
    intro o ho
    constructor
    · intro h m hm; exact dec_lt_true.1 ((flip _ _).1 (h _ hm))
    · intro h m hm; obtain ⟨a, rfl⟩ := ho m hm; exact (flip _ _).2 (dec_lt_true.2 (h a hm))
  have lt : ∀ {o : Option Val}, (∀ w ∈ o, ∃ a, w = .dec a) → ((∀ m ∈ o, Val.le ext m (.dec v) = .ok false) ↔ ∀ m, o = some (.dec m) → DecLt v m) := by
    intro o ho
    constructor
    · intro h m hm; exact dec_lt_true.1 ((flip _ _).1 (h _ hm))
    · intro h m hm; obtain ⟨a, rfl⟩ := ho m hm; exact (flip _ _).2 (dec_lt_true.2 (h a hm))
  have : WithinBounds ext dt (.dec v) ↔ DecWithinAll dt v := by
    constructor
    · rintro ⟨a1, a2, a3, a4, a5, a6⟩
      exact ⟨(ge h1).1 a1, (ge h3).1 a2, (gt h5).1 a3, (le h2).1 a4, (le h4).1 a5, (lt h6).1 a6⟩
    · rintro ⟨a1, a2, a3, a4, a5, a6⟩
      exact ⟨(ge h1).2 a1, (ge h3).2 a2, (gt h5).2 a3, (le h2).2 a4, (le h4).2 a5, (lt h6).2 a6⟩
  rw [this]

end

/-! ## The order of date-times -/

theorem years_sum (p : Nat) : ((List.range p).map fun i => yearLength (i + 1)).sum + p / 100 = p * 365 + p / 4 + p / 400 := by
  induction p with
  | zero => rfl
  | succ p ih =>
    rw [List.range_succ, List.map_append, List.sum_append]
    simp only [List.map_cons, List.map_nil, List.sum_cons, List.sum_nil, Nat.add_zero]
    have : yearLength (p + 1) = if (4 ∣ (p + 1) ∧ ¬ 100 ∣ (p + 1)) ∨ 400 ∣ (p + 1) then 366 else 365 := rfl
    rw [this]
    split <;> omega

theorem leap_iff (y : Nat) : (y % 4 = 0 ∧ (y % 100 ≠ 0 ∨ y % 400 = 0)) ↔ LeapYear y := by
  unfold LeapYear; omega

theorem months_sum {y m : Nat} (h1 : 1 ≤ m) (h2 : m ≤ 12) :
    DateTime.daysBeforeMonth y m = ((List.range (m - 1)).map fun j => monthLength y (j + 1)).sum := by
  unfold DateTime.daysBeforeMonth
  simp only [leap_iff]
  have : m = 1 ∨ m = 2 ∨ m = 3 ∨ m = 4 ∨ m = 5 ∨ m = 6 ∨ m = 7 ∨ m = 8 ∨ m = 9 ∨ m = 10 ∨ m = 11 ∨ m = 12 := by omega
  by_cases hl : LeapYear y
  · rcases this with rfl | rfl | rfl | rfl | rfl | rfl | rfl | rfl | rfl | rfl | rfl | rfl <;> simp [monthLength, hl, List.range_succ]
  · rcases this with rfl | rfl | rfl | rfl | rfl | rfl | rfl | rfl | rfl | rfl | rfl | rfl <;> simp [monthLength, hl, List.range_succ]

theorem ordinal_eq {d : DateTime} (hv : ValidDateTime d) : d.ordinal = dayNumber d.year d.month d.day := by
  have hy := years_sum (d.year - 1)
  have hm := months_sum (y := d.year) hv.1.2.2.1 hv.1.2.2.2.1
  unfold DateTime.ordinal dayNumber DateTime.daysBeforeYear
  rw [hm]
  omega

theorem instant_eq {d : DateTime} (hv : ValidDateTime d) : d.instant = moment d := by
  unfold DateTime.instant moment
  rw [ordinal_eq hv]
  omega

theorem years_mono {p q : Nat} (h : p ≤ q) :
    ((List.range p).map fun i => yearLength (i + 1)).sum ≤ ((List.range q).map fun i => yearLength (i + 1)).sum := by
  obtain ⟨k, rfl⟩ := Nat.le.dest h
  rw [List.range_add, List.map_append, List.sum_append]
  omega

theorem months_mono {y p q : Nat} (h : p ≤ q) :
    ((List.range p).map fun j => monthLength y (j + 1)).sum ≤ ((List.range q).map fun j => monthLength y (j + 1)).sum := by
  obtain ⟨k, rfl⟩ := Nat.le.dest h
  rw [List.range_add, List.map_append, List.sum_append]
  omega

theorem validDate_le {y m d : Nat} (h : ValidDate y m d) : d ≤ monthLength y m := h.2.2.2.2.2

/-- The days of a date are among the days of the months up to its own. -/
theorem day_in_month {y m d : Nat} (h : ValidDate y m d) :
    ((List.range (m - 1)).map fun j => monthLength y (j + 1)).sum + d ≤ ((List.range m).map fun j => monthLength y (j + 1)).sum := by
  obtain ⟨k, rfl⟩ : ∃ k, m = k + 1 := ⟨m - 1, by have := h.2.2.1; omega⟩
  rw [List.range_succ, List.map_append, List.sum_append]
  have := validDate_le h
  simp only [Nat.add_sub_cancel, List.map_cons, List.map_nil, List.sum_cons, List.sum_nil]
  omega

theorem year_sum (y : Nat) : ((List.range 12).map fun j => monthLength y (j + 1)).sum = yearLength y := by
  unfold yearLength
  by_cases hl : LeapYear y
  · rw [if_pos hl]; simp [monthLength, hl, List.range_succ]
  · rw [if_neg hl]; simp [monthLength, hl, List.range_succ]

theorem dayNumber_year {y m d y' m' d' : Nat} (h : ValidDate y m d) (h' : ValidDate y' m' d') (hy : y < y') :
    dayNumber y m d < dayNumber y' m' d' := by
  have h1 := day_in_month h
  have h2 := months_mono (y := y) h.2.2.2.1
  rw [year_sum] at h2
  have h3 := years_mono (show y ≤ y' - 1 by omega)
  obtain ⟨k, rfl⟩ : ∃ k, y = k + 1 := ⟨y - 1, by have := h.1; omega⟩
  rw [List.range_succ, List.map_append, List.sum_append] at h3
  simp only [List.map_cons, List.map_nil, List.sum_cons, List.sum_nil] at h3
  have := h'.2.2.2.2.1
  unfold dayNumber
  simp only [Nat.add_sub_cancel] at h1 h2 h3 ⊢
  omega

theorem dayNumber_month {y m d m' d' : Nat} (h : ValidDate y m d) (h' : ValidDate y m' d') (hm : m < m') :
    dayNumber y m d < dayNumber y m' d' := by
  have h1 := day_in_month h
  have h2 := months_mono (y := y) (show m ≤ m' - 1 by omega)
  have := h'.2.2.2.2.1
  unfold dayNumber
  omega

theorem lexLt_iff {a b : DateTime} : DateTime.lexLt a.key b.key = true ↔
    a.year < b.year ∨ (a.year = b.year ∧ (a.month < b.month ∨ (a.month = b.month ∧ (a.day < b.day ∨ (a.day = b.day ∧
      (a.hour < b.hour ∨ (a.hour = b.hour ∧ (a.minute < b.minute ∨ (a.minute = b.minute ∧ (a.second < b.second ∨
      (a.second = b.second ∧ a.micro < b.micro))))))))))) := by
  simp [DateTime.key, DateTime.lexLt]

/-- For date-times without timezone, the order by fields is the order in time. -/
theorem lexLt_moment {a b : DateTime} (ha : ValidDateTime a) (hb : ValidDateTime b) (ta : a.tz = none) (tb : b.tz = none) :
    DateTime.lexLt a.key b.key = decide (moment a < moment b) := by
  rw [Bool.eq_iff_iff, lexLt_iff, decide_eq_true_iff]
  obtain ⟨da, ha1, ha2, ha3, ha4⟩ := ha
  obtain ⟨db, hb1, hb2, hb3, hb4⟩ := hb
  unfold moment
  rw [ta, tb]
  simp only [Option.getD_none]
  rcases Nat.lt_trichotomy a.year b.year with hy | hy | hy
  · have := dayNumber_year da db hy; omega
  · rcases Nat.lt_trichotomy a.month b.month with hm | hm | hm
    · have := dayNumber_month da (hy ▸ db) hm
      rw [← hy] ; omega
    · have : dayNumber a.year a.month a.day + b.day = dayNumber b.year b.month b.day + a.day := by
        rw [hy, hm]; unfold dayNumber; omega
      omega
    · have := dayNumber_month (hy ▸ db) da hm
      rw [← hy]; omega
  · have := dayNumber_year db da hy; omega

theorem dt_lt {a b : DateTime} (ha : ValidDateTime a) (hb : ValidDateTime b) (r : Bool) :
    DateTime.lt a b = .ok r ↔ SameKind a b ∧ r = decide (moment a < moment b) := by
  unfold DateTime.lt SameKind
  cases ta : a.tz with
  | none =>
    cases tb : b.tz with
    | none => simp [lexLt_moment ha hb ta tb, eq_comm]
    | some u => simp
  | some t =>
    cases tb : b.tz with
    | none => simp
    | some u => simp [instant_eq ha, instant_eq hb, eq_comm]

/-! ## Parsed values are valid -/

theorem mkDT_ok {d r : DateTime} (h : mkDT d = .ok r) : r = d ∧ ValidDateTime r := by
  rw [mkDT_valid] at h
  split at h
  · next hv => cases h; exact ⟨rfl, hv⟩
  · cases h

theorem nextDay_valid {d r : DateTime} (hv : ValidDateTime d) (h : nextDay d = .ok r) : ValidDateTime r := by
  obtain ⟨⟨h1, h2, h3, h4, h5, h6⟩, ht⟩ := hv
  have hd : daysIn d.year d.month = monthLength d.year d.month := by
    unfold daysIn monthLength
    simp only [leap_iff]
  have hml : ∀ y m, 1 ≤ monthLength y m := by intro y m; unfold monthLength; (repeat' split) <;> omega
  unfold nextDay at h
  rw [hd] at h
  split at h
  · next hlt => cases h; exact ⟨⟨h1, h2, h3, h4, Nat.succ_le_succ (Nat.zero_le _), hlt⟩, ht⟩
  · split at h
    · cases h; exact ⟨⟨h1, h2, by simp, by simp; omega, by simp, hml _ _⟩, ht⟩
    · split at h
      · cases h; exact ⟨⟨by simp, by simp; omega, by simp, by simp, by simp, hml _ _⟩, ht⟩
      · cases h

theorem mkDTZ_ok {y mo d : Nat} {h m s us : Int} {tz : Option Int} {r : DateTime} (hr : mkDTZ y mo d h m s us tz = .ok r) : ValidDateTime r := by
  unfold mkDTZ at hr
  split at hr
  · cases hr
  · exact (mkDT_ok hr).2

theorem isoparse_valid (ext : Ext) {v : Str} {r : DateTime} (h : isoparse ext v = .ok r) : ValidDateTime r := by
  unfold isoparse at h
  split at h
  · cases h
  · split at h
    · cases h
    · split at h
      · cases h
      · split at h
        · exact (mkDT_ok h).2
        · split at h
          · cases h
          · split at h
            · split at h
              · cases h
              · next hm => exact nextDay_valid (mkDT_ok hm).2 h
            · exact mkDTZ_ok h

theorem valid_tz {d : DateTime} (h : ValidDateTime d) (t : Option Int) : ValidDateTime { d with tz := t } := h

theorem parseRx_valid (ext : Ext) {v : Str} {rx : Option (List RItem)} {mk : Option Str} {r : DateTime}
    (h : parseRx ext v rx mk = .ok r) : ValidDateTime r := by
  unfold parseRx at h
  simp only at h
  split at h
  · cases h
  · split at h
    · cases h
    · split at h
      · cases h
      · split at h
        · split at h
          · cases h
          · next hm =>
            split at h
            · next R hR =>
              cases ht : ext.tzOf (Py.strip v) with
              | error e => rw [ht] at h; simp [Except.map] at h
              | ok t => rw [ht] at h; simp only [Except.map, Except.ok.injEq] at h; rw [← h]; exact valid_tz (mkDT_ok hm).2 t
            · cases h; exact (mkDT_ok hm).2
        · cases h

theorem dtp_valid (ext : Ext) {v : Str} {rx : Option (List RItem)} {mk pat : Option Str} {r : DateTime}
    (h : dateTimeToPython ext v rx mk pat = .ok r) : ValidDateTime r := by
  unfold dateTimeToPython at h
  split at h
  · split at h
    · exact parseRx_valid ext h
    · exact isoparse_valid ext h
  · cases h

theorem withTz_valid (ext : Ext) {v : Str} {f : Str → Res DateTime} (hf : ∀ v r, f v = .ok r → ValidDateTime r) {r : DateTime}
    (h : withTz ext v f = .ok r) : ValidDateTime r := by
  unfold withTz at h
  split at h
  · exact hf _ _ h
  · next v' tz _ =>
    cases hr : f v' with
    | error e => rw [hr] at h; simp at h
    | ok r' =>
      rw [hr] at h
      simp only at h
      cases ht : ext.tzOf tz with
      | error e => rw [ht] at h; simp [Except.map] at h
      | ok t => rw [ht] at h; simp only [Except.map, Except.ok.injEq] at h; rw [← h]; exact valid_tz (hf _ _ hr) t

section
variable {ext : Ext} {other : Base → Derived → J → Res Val} {s : DatatypeSpec} {dt : Datatype}

/-- The names of the datatypes of dates and times. -/
def dateTypes : List String := ["dateTime", "datetime", "dateTimeStamp", "date", "time"]

/-- `d` is not before / after / … the bound: comparisons of a date-time with timezone and one without are impossible. -/
structure DtWithin (dt : Datatype) (d : DateTime) : Prop where
  minimum : ∀ m, dt.minimum = some (.dt m) → SameKind d m ∧ moment m ≤ moment d
  minInclusive : ∀ m, dt.minInclusive = some (.dt m) → SameKind d m ∧ moment m ≤ moment d
  minExclusive : ∀ m, dt.minExclusive = some (.dt m) → SameKind d m ∧ moment m < moment d
  maximum : ∀ m, dt.maximum = some (.dt m) → SameKind d m ∧ moment d ≤ moment m
  maxInclusive : ∀ m, dt.maxInclusive = some (.dt m) → SameKind d m ∧ moment d ≤ moment m
  maxExclusive : ∀ m, dt.maxExclusive = some (.dt m) → SameKind d m ∧ moment d < moment m

theorem toPython_dt (hdu : ∀ v d, ext.duParse v = .ok d → ValidDateTime d) {b : Base} (hk : b.kind = .dateTime ∨ b.kind = .date ∨ b.kind = .time)
    {d : Derived} {x : Str} {v : Val} (h : toPython ext b d x = .ok v) : ∃ a, v = .dt a ∧ ValidDateTime a := by
  have fin : ∀ {R : Res DateTime}, (∀ a, R = .ok a → ValidDateTime a) → R.map Val.dt = .ok v → ∃ a, v = .dt a ∧ ValidDateTime a := by
    intro R hR hm
    cases R with
    | error e => simp [Except.map] at hm
    | ok a => exact ⟨a, by simpa [Except.map] using hm.symm, hR a rfl⟩
  rcases hk with hk | hk | hk
  · simp only [toPython, hk] at h
    split at h
    · exact fin (fun a ha => dtp_valid ext ha) h
    · cases h
  · simp only [toPython, hk] at h
    split at h
    · exact fin (fun a ha => withTz_valid ext (fun v r hr => dtp_valid ext hr) ha) h
    · cases h
  · simp only [toPython, hk] at h
    split at h
    · refine fin (fun a ha => ?_) h
      unfold timeToPython at ha
      split at ha
      · exact hdu _ _ ha
      · split at ha
        · cases ha
        · exact withTz_valid ext (fun v r hr => parseRx_valid ext hr) ha
    · cases h

/-- **C26** (dates and times) For the date and time datatypes with bounds given as strings: `read(x)` returns `d` if and only if `d` is the
date-time parsed from `x` and lies within the bounds in the order of time (timezones taken into account); a date-time cannot be compared to a
bound if only one of them has a timezone. -/
theorem C26_datetime_iff (hdu : ∀ v d, ext.duParse v = .ok d → ValidDateTime d) {t : String} (ht : t ∈ dateTypes) (hb : s.base = .str t.toList)
    (hsb : StrBounds s) (h : Datatype.construct ext other s = .ok dt) (x : Str) (d : DateTime) :
    dt.read ext x = .ok (.dt d) ↔ dt.parse ext x = .ok (.dt d) ∧ DtWithin dt d := by
  have hB := Datatype.built_of_construct h
  have hk : dt.base.kind = .dateTime ∨ dt.base.kind = .date ∨ dt.base.kind = .time := by
    simp only [dateTypes, List.mem_cons, List.not_mem_nil, or_false] at ht
    rcases ht with rfl | rfl | rfl | rfl | rfl
    · rw [base_of hB (b := .dateTime) (by rw [hb]; decide +kernel)]; exact .inl rfl
    · rw [base_of hB (b := .datetime) (by rw [hb]; decide +kernel)]; exact .inl rfl
    · rw [base_of hB (b := .dateTimeStamp) (by rw [hb]; decide +kernel)]; exact .inl rfl
    · rw [base_of hB (b := .date) (by rw [hb]; decide +kernel)]; exact .inr (.inl rfl)
    · rw [base_of hB (b := .time) (by rw [hb]; decide +kernel)]; exact .inr (.inr rfl)
  rw [C26_read_iff h (by rcases hk with h | h | h <;> simp [Base.minmax, h])]
  refine and_congr_right fun hp => ?_
  have hd : ValidDateTime d := by
    unfold Datatype.parse at hp
    split at hp
    · cases hp
    · obtain ⟨a, ha, hv⟩ := toPython_dt hdu hk hp
      cases ha; exact hv
  obtain ⟨D, _, _, h1, h2, h3, h4, h5, h6⟩ := hB.descr
  have key : ∀ {j : J} (_ : j = .null ∨ ∃ x, j = .str x) {o : Option Val}, Datatype.parseBound ext other dt.base D j = .ok o →
      ∀ w ∈ o, ∃ a, w = .dt a ∧ ValidDateTime a := by
    intro j hj o ho w hw
    obtain ⟨x, hx⟩ := bound_read hj ho w hw
    exact toPython_dt hdu hk hx
  have h1 := key (hsb _ (by simp)) h1
  have h2 := key (hsb _ (by simp)) h2
  have h3 := key (hsb _ (by simp)) h3
  have h4 := key (hsb _ (by simp)) h4
  have h5 := key (hsb _ (by simp)) h5
  have h6 := key (hsb _ (by simp)) h6
  have fl : ∀ {r : Res Bool}, r.map (!·) = .ok false ↔ r = .ok true := by
    intro r
    cases r with
    | error e => simp [Except.map]
    | ok b => cases b <;> simp [Except.map]
  have ge : ∀ {o : Option Val}, (∀ w ∈ o, ∃ a, w = .dt a ∧ ValidDateTime a) →
      ((∀ m ∈ o, Val.lt ext (.dt d) m = .ok false) ↔ ∀ m, o = some (.dt m) → SameKind d m ∧ moment m ≤ moment d) := by
    intro o ho
    have q : ∀ a, ValidDateTime a → (DateTime.lt d a = .ok false ↔ SameKind d a ∧ moment a ≤ moment d) := by
      intro a ha; rw [dt_lt hd ha]; simp [eq_comm, Int.not_lt]
    constructor
    · intro h m hm
      obtain ⟨a, ha, hva⟩ := ho _ hm
      cases ha
      exact (q m hva).1 (h _ hm)
    · intro h m hm; obtain ⟨a, rfl, hva⟩ := ho m hm; exact (q a hva).2 (h a hm)
  have le : ∀ {o : Option Val}, (∀ w ∈ o, ∃ a, w = .dt a ∧ ValidDateTime a) →
      ((∀ m ∈ o, Val.lt ext m (.dt d) = .ok false) ↔ ∀ m, o = some (.dt m) → SameKind d m ∧ moment d ≤ moment m) := by
    intro o ho
    have q : ∀ a, ValidDateTime a → (DateTime.lt a d = .ok false ↔ SameKind d a ∧ moment d ≤ moment a) := by
      intro a ha; rw [dt_lt ha hd]; simp [eq_comm, Int.not_lt, SameKind]
    constructor
    · intro h m hm
      obtain ⟨a, ha, hva⟩ := ho _ hm
      cases ha
      exact (q m hva).1 (h _ hm)
    · intro h m hm; obtain ⟨a, rfl, hva⟩ := ho m hm; exact (q a hva).2 (h a hm)
  have gt : ∀ {o : Option Val}, (∀ w ∈ o, ∃ a, w = .dt a ∧ ValidDateTime a) →
      ((∀ m ∈ o, Val.le ext (.dt d) m = .ok false) ↔ ∀ m, o = some (.dt m) → SameKind d m ∧ moment m < moment d) := by
    intro o ho
    have q : ∀ a, ValidDateTime a → (Val.le ext (.dt d) (.dt a) = .ok false ↔ SameKind d a ∧ moment a < moment d) := by
      intro a ha
      show (DateTime.lt a d).map (!·) = .ok false ↔ _
      rw [fl, dt_lt ha hd]; simp [eq_comm, SameKind]
    constructor
    · intro h m hm
      obtain ⟨a, ha, hva⟩ := ho _ hm
      cases ha
      exact (q m hva).1 (h _ hm)
    · intro h m hm; obtain ⟨a, rfl, hva⟩ := ho m hm; exact (q a hva).2 (h a hm)
  have lt : ∀ {o : Option Val}, (∀ w ∈ o, ∃ a, w = .dt a ∧ ValidDateTime a) →
      ((∀ m ∈ o, Val.le ext m (.dt d) = .ok false) ↔ ∀ m, o = some (.dt m) → SameKind d m ∧ moment d < moment m) := by
    intro o ho
    have q : ∀ a, ValidDateTime a → (Val.le ext (.dt a) (.dt d) = .ok false ↔ SameKind d a ∧ moment d < moment a) := by
      intro a ha
      show (DateTime.lt d a).map (!·) = .ok false ↔ _
      rw [fl, dt_lt hd ha]; simp [eq_comm]
    constructor
    · intro h m hm
      obtain ⟨a, ha, hva⟩ := ho _ hm
      cases ha
      exact (q m hva).1 (h _ hm)
    · intro h m hm; obtain ⟨a, rfl, hva⟩ := ho m hm; exact (q a hva).2 (h a hm)
  constructor
  · rintro ⟨a1, a2, a3, a4, a5, a6⟩
    exact ⟨(ge h1).1 a1, (ge h3).1 a2, (gt h5).1 a3, (le h2).1 a4, (le h4).1 a5, (lt h6).1 a6⟩
  · rintro ⟨a1, a2, a3, a4, a5, a6⟩
    exact ⟨(ge h1).2 a1, (ge h3).2 a2, (gt h5).2 a3, (le h2).2 a4, (le h4).2 a5, (lt h6).2 a6⟩

end

/-- The hypotheses can be met: a bound with a timezone. -/
theorem C26_datetime_example (ext : Ext) (other : Base → Derived → J → Res Val) :
    let s : DatatypeSpec := { base := .str "dateTime".toList, minInclusive := .str "2020-01-01T00:00:00+01:00".toList }
    StrBounds s ∧ ∃ dt, Datatype.construct ext other s = .ok dt ∧
      dt.minInclusive = some (.dt ⟨2020, 1, 1, 0, 0, 0, 0, some 60⟩) ∧
      DtWithin dt ⟨2019, 12, 31, 23, 0, 0, 0, some 0⟩ ∧ ¬ DtWithin dt ⟨2019, 12, 31, 22, 59, 59, 999999, some 0⟩ ∧
      ¬ DtWithin dt ⟨2021, 1, 1, 0, 0, 0, 0, none⟩ := by
  intro s
  refine ⟨by intro j hj; simp only [s, List.mem_cons, List.not_mem_nil, or_false] at hj; rcases hj with rfl | rfl | rfl | rfl | rfl | rfl <;> simp,
    { base := .dateTime, format := .null, minInclusive := some (.dt ⟨2020, 1, 1, 0, 0, 0, 0, some 60⟩) }, rfl, rfl, ?_, ?_, ?_⟩
  · refine ⟨by simp, ?_, by simp, by simp, by simp, by simp⟩
    intro m hm
    simp only [Option.some.injEq, Val.dt.injEq] at hm
    subst hm
    exact ⟨rfl, by decide +kernel⟩
  · rintro ⟨_, h, _⟩
    have := (h _ rfl).2
    revert this; decide +kernel
  · rintro ⟨_, h, _⟩
    have := (h _ rfl).1
    revert this; unfold SameKind; decide

end Csvw.Props
