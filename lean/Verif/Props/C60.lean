import Verif.Lemmas.DateTimes2
import Verif.Props.C29
/-!
# C60–C62: formats of dates and times, reading and writing date-times

`Spec.IsFormat` describes the formats, `F.fill x` is the text of a date-time in the format `F`, `F.Parts x` says that its pieces are
digits of the right number, and `F.valueOf today x tz` is the date-time which the text denotes (`Spec.Dates`, `Spec.DateValues`).
-/

namespace Csvw.Props
open Datatypes Spec DateFmt

/-! ## C60: which formats are accepted -/

section
variable (ext : Ext) (other : Base → Derived → J → Res Val)

/-- A datatype given by name and format only. -/
theorem construct_dt {b : Base} {name : Str} (hn : Datatype.convBase (.str name) = .ok b) (hk : b.kind = .dateTime ∨ b.kind = .date ∨ b.kind = .time)
    (fmt : J) : Datatype.construct ext other { base := .str name, format := fmt } =
      (derived ext b fmt).map fun _ => { base := b, format := fmt } := by
  unfold Datatype.construct
  simp only [hn, bind, Except.bind]
  cases hd : derived ext b fmt with
  | error e => rfl
  | ok d =>
    have hbad : Datatype.badPattern b fmt = .ok false := by
      rcases hk with h | h | h <;> simp [Datatype.badPattern, h]
    simp [Datatype.parseBound, Datatype.finish, Datatype.lengthsBad, Datatype.kindBad, Datatype.truthy, Datatype.intervalBad,
      Datatype.both, Datatype.orRes, hbad, Except.map, show Datatype.idOf [] = none from rfl]

/-- **C60** A format of `dateTime` (or its alias `datetime`) is accepted exactly if it is a date pattern, or a separator with a date pattern
before and a time pattern with fractions of seconds after it (all optional), followed by an optional timezone marker; all others raise
`ValueError`. -/
theorem C60_datetime_formats {b : String} (hb : b = "dateTime" ∨ b = "datetime") (f : Str) :
    ((∃ dt, Datatype.construct ext other { base := .str b.toList, format := .str f } = .ok dt) ↔ ∃ F mk, IsFormat false f F mk) ∧
    (∀ e, Datatype.construct ext other { base := .str b.toList, format := .str f } = .error e → e = .valueError) := by
  obtain ⟨B, hB, hd⟩ : ∃ B, Datatype.construct ext other { base := .str b.toList, format := .str f } =
      (derived ext B (.str f)).map (fun _ => { base := B, format := .str f }) ∧ derived ext B (.str f) = (formatAndRegex f false).map .dt := by
    rcases hb with rfl | rfl
    · exact ⟨.dateTime, construct_dt ext other (by decide +kernel) (.inl rfl) _, rfl⟩
    · exact ⟨.datetime, construct_dt ext other (by decide +kernel) (.inl rfl) _, rfl⟩
  rw [hB, hd]
  cases hf : formatAndRegex f false with
  | error e =>
    refine ⟨⟨by rintro ⟨dt, h⟩; simp [Except.map] at h, ?_⟩, ?_⟩
    · rintro ⟨F, mk, hI⟩; rw [far_ok hI] at hf; simp at hf
    · intro e' he; simp [Except.map] at he; rw [← he]; exact far_err hf
  | ok D =>
    obtain ⟨F, mk, hI, _⟩ := far_inv hf
    exact ⟨⟨fun _ => ⟨F, mk, hI⟩, fun _ => ⟨_, rfl⟩⟩, by intro e he; simp [Except.map] at he⟩

/-- **C60** The format of a `dateTimeStamp` needs in addition a timezone marker. -/
theorem C60_stamp_formats (f : Str) (hf0 : f ≠ []) :
    ((∃ dt, Datatype.construct ext other { base := .str "dateTimeStamp".toList, format := .str f } = .ok dt) ↔
      ∃ F mk, IsFormat false f F (some mk)) ∧
    (∀ e, Datatype.construct ext other { base := .str "dateTimeStamp".toList, format := .str f } = .error e → e = .valueError) := by
  have hd : derived ext .dateTimeStamp (.str f) = (match formatAndRegex f false with
      | .error e => .error e
      | .ok d => if d.tzMarker.getD [] = [] then .error .valueError else .ok (.dt d)) := by
    simp [derived, Base.kind, orFmt, J.truthy, hf0, dtFormat]
    rfl
  rw [construct_dt ext other (b := .dateTimeStamp) (by decide +kernel) (.inl rfl), hd]
  cases hf : formatAndRegex f false with
  | error e =>
    refine ⟨⟨by rintro ⟨dt, h⟩; simp [Except.map] at h, ?_⟩, ?_⟩
    · rintro ⟨F, mk, hI⟩; rw [far_ok hI] at hf; simp at hf
    · intro e' he; simp [Except.map] at he; rw [← he]; exact far_err hf
  | ok D =>
    obtain ⟨F, mk, hI, rfl⟩ := far_inv hf
    cases mk with
    | none =>
      refine ⟨⟨by rintro ⟨dt, h⟩; simp [Except.map] at h, ?_⟩, ?_⟩
      · rintro ⟨F', mk', hI'⟩
        rw [far_ok hI'] at hf; simp at hf
      · intro e he; simp [Except.map] at he; exact he.symm
    | some m =>
      have hm : m ≠ [] := by
        cases hI with
        | marked _ hm _ _ =>
          obtain ⟨b, x, n, _, _, h1, _, rfl⟩ := hm
          obtain ⟨k, rfl⟩ : ∃ k, n = k + 1 := ⟨n - 1, by omega⟩
          simp [List.replicate_succ]
      refine ⟨⟨fun _ => ⟨F, m, hI⟩, fun _ => ?_⟩, ?_⟩
      · simp [hm, Except.map]
      · intro e he; simp [hm, Except.map] at he

/-- **C60** A format of `time` is accepted exactly if it is a time pattern with optional fractions of seconds (or a format with separator),
followed by an optional timezone marker. -/
theorem C60_time_formats (f : Str) (hf0 : f ≠ []) :
    ((∃ dt, Datatype.construct ext other { base := .str "time".toList, format := .str f } = .ok dt) ↔ ∃ F mk, IsFormat true f F mk) ∧
    (∀ e, Datatype.construct ext other { base := .str "time".toList, format := .str f } = .error e → e = .valueError) := by
  have hd : derived ext .time (.str f) = (formatAndRegex f true).map .dt := by
    simp [derived, Base.kind, orFmt, J.truthy, hf0, dtFormat]
  rw [construct_dt ext other (b := .time) (by decide +kernel) (.inr (.inr rfl)), hd]
  cases hf : formatAndRegex f true with
  | error e =>
    refine ⟨⟨by rintro ⟨dt, h⟩; simp [Except.map] at h, ?_⟩, ?_⟩
    · rintro ⟨F, mk, hI⟩; rw [far_ok hI] at hf; simp at hf
    · intro e' he; simp [Except.map] at he; rw [← he]; exact far_err hf
  | ok D =>
    obtain ⟨F, mk, hI, _⟩ := far_inv hf
    exact ⟨⟨fun _ => ⟨F, mk, hI⟩, fun _ => ⟨_, rfl⟩⟩, by intro e he; simp [Except.map] at he⟩

/-- **C60** For `date` every format is accepted; one which is not a format of date-times counts as `yyyy-MM-dd`, both for reading and for
writing. -/
theorem C60_date_fallback (f : Str) :
    ∃ dt dt', Datatype.construct ext other { base := .str "date".toList, format := .str f } = .ok dt ∧
      Datatype.construct ext other { base := .str "date".toList, format := .str "yyyy-MM-dd".toList } = .ok dt' ∧
      ((¬ ∃ F mk, IsFormat false f F mk) → (∀ x, dt.read ext x = dt'.read ext x) ∧ (∀ v, dt.formatted ext v = dt'.formatted ext v)) := by
  have hdef : ∀ g : Str, derived ext .date (.str g) = (match formatAndRegex (if g = [] then "yyyy-MM-dd".toList else g) false with
      | .ok d => .ok (.dt d)
      | .error .valueError => (formatAndRegex "yyyy-MM-dd".toList false).map .dt
      | .error e => .error e) := by
    intro g
    cases g with
    | nil => rfl
    | cons c g => rfl
  have h0 : derived ext .date (.str "yyyy-MM-dd".toList) = (formatAndRegex "yyyy-MM-dd".toList false).map .dt := by
    rw [hdef, if_neg (by decide)]
    obtain ⟨D, hD⟩ : ∃ D, formatAndRegex "yyyy-MM-dd".toList false = .ok D := ⟨_, rfl⟩
    rw [hD]; rfl
  have hy : ∃ d, (formatAndRegex "yyyy-MM-dd".toList false).map Derived.dt = .ok d := ⟨_, rfl⟩
  rw [construct_dt ext other (b := .date) (by decide +kernel) (.inr (.inl rfl)),
    construct_dt ext other (b := .date) (by decide +kernel) (.inr (.inl rfl)), h0]
  obtain ⟨d0, hd0⟩ := hy
  rw [hd0]
  cases hf : derived ext .date (.str f) with
  | error e =>
    exfalso
    rw [hdef, hd0] at hf
    split at hf
    · simp at hf
    · simp at hf
    · next e' hne he => exact hne (far_err he)
  | ok d =>
    refine ⟨_, _, rfl, rfl, ?_⟩
    intro hn
    have hdd : d = d0 := by
      rw [hdef, hd0] at hf
      by_cases hfe : f = []
      · rw [if_pos hfe] at hf
        obtain ⟨D, hD⟩ : ∃ D, formatAndRegex "yyyy-MM-dd".toList false = .ok D := ⟨_, rfl⟩
        rw [hD] at hf hd0
        simp only [Except.map, Except.ok.injEq] at hf hd0
        rw [← hf, ← hd0]
      · rw [if_neg hfe] at hf
        split at hf
        · next D hD =>
          obtain ⟨F, mk, hI, _⟩ := far_inv hD
          exact absurd ⟨F, mk, hI⟩ hn
        · simpa using hf.symm
        · simp at hf
    subst hdd
    have hdesc : Datatype.descr ext { base := .date, format := .str f } = .ok d := hf
    have hdesc' : Datatype.descr ext { base := .date, format := .str "yyyy-MM-dd".toList } = .ok d := by
      unfold Datatype.descr; rw [h0, hd0]
    constructor
    · intro x
      unfold Datatype.read Datatype.parse
      rw [hdesc, hdesc']
      rfl
    · intro v
      unfold Datatype.formatted
      rw [hdesc, hdesc']

/-- The hypotheses are met: the formats of the CSVW recommendation are formats; `yyyy-MM-ddThh:mm`, a mixed or too long timezone marker and fractions
without `S` are not accepted. -/
theorem C60_example :
    (∃ dt, Datatype.construct ext other { base := .str "dateTime".toList, format := .str "dd.MM.yyyy HH:mm:ss.SSS XX".toList } = .ok dt) ∧
    IsFormat false "dd.MM.yyyy HH:mm:ss.SSS XX".toList ⟨some ⟨.dmy, ".".toList, true⟩, some ' ', some ⟨true, true⟩, 3⟩ (some " XX".toList) ∧
    Datatype.construct ext other { base := .str "dateTime".toList, format := .str "yyyy-MM-ddThh:mm".toList } = .error .valueError ∧
    Datatype.construct ext other { base := .str "dateTime".toList, format := .str "yyyy-MM-ddTHH:mmxX".toList } = .error .valueError ∧
    Datatype.construct ext other { base := .str "dateTime".toList, format := .str "yyyy-MM-ddTHH:mmxxxx".toList } = .error .valueError ∧
    Datatype.construct ext other { base := .str "time".toList, format := .str "HH:mm:ss.".toList } = .error .valueError := by
  have hI : IsFormat false "dd.MM.yyyy HH:mm:ss.SSS XX".toList ⟨some ⟨.dmy, ".".toList, true⟩, some ' ', some ⟨true, true⟩, 3⟩ (some " XX".toList) :=
    IsFormat.marked (F := ⟨some ⟨.dmy, ".".toList, true⟩, some ' ', some ⟨true, true⟩, 3⟩) (m := " XX".toList) (nl := [])
      ⟨by decide, .inl rfl⟩ ⟨[' '], 'X', 2, .inr rfl, .inr rfl, by decide, by decide, rfl⟩ (by decide) (.inl rfl)
  exact ⟨(C60_datetime_formats ext other (.inl rfl) _).1.2 ⟨_, _, hI⟩, hI, rfl, rfl, rfl, rfl⟩

end

end Csvw.Props
