import Verif.Lemmas.CsvRun
/-! # Cells read by `csv.reader` respect the field limit -/

namespace Csvw.CsvLib

structure Bounded (p : Parser) : Prop where
  field : p.field.length ≤ fieldLimit
  fields : ∀ f ∈ p.fields, f.length ≤ fieldLimit

theorem bounded_init : Bounded .init := ⟨by simp [Parser.init], by simp [Parser.init]⟩

theorem bounded_addChar {p p' : Parser} {st : St} {c : Char} (h : Bounded p) (e : addChar p st c = .ok p') :
    Bounded p' := by
  unfold addChar at e
  split at e
  · simp at e
  · next hl =>
    simp only [Except.ok.injEq] at e
    subst e
    exact ⟨by simp; omega, h.fields⟩

theorem bounded_saveField {p : Parser} {st : St} (h : Bounded p) : Bounded (saveField p st) := by
  refine ⟨by simp [saveField], ?_⟩
  intro f hf
  simp only [saveField, List.mem_append, List.mem_singleton] at hf
  rcases hf with hf | rfl
  · exact h.fields f hf
  · exact h.field

theorem bounded_st {p : Parser} {st : St} (h : Bounded p) : Bounded { p with st := st } := ⟨h.field, h.fields⟩

theorem bounded_stepStartField {d : Fmt} {p p' : Parser} {t : Option Char} (h : Bounded p)
    (e : stepStartField d p t = .ok p') : Bounded p' := by
  unfold stepStartField at e
  repeat' split at e
  all_goals first
    | exact bounded_addChar h e
    | (simp only [Except.ok.injEq] at e; subst e; first | exact bounded_saveField h | exact bounded_st h)

theorem bounded_stepInField {d : Fmt} {p p' : Parser} {st : St} {t : Option Char} (h : Bounded p)
    (e : stepInField d p st t = .ok p') : Bounded p' := by
  unfold stepInField at e
  repeat' split at e
  all_goals first
    | exact bounded_addChar h e
    | (simp only [Except.ok.injEq] at e; subst e; first | exact bounded_saveField h | exact bounded_st h)

theorem bounded_step {d : Fmt} {p p' : Parser} {t : Option Char} (h : Bounded p)
    (e : step d p t = .ok p') : Bounded p' := by
  unfold step at e
  repeat' split at e
  all_goals first
    | exact bounded_addChar h e
    | exact bounded_stepStartField h e
    | exact bounded_stepInField h e
    | (simp only [Except.ok.injEq] at e; subst e; first | exact h | exact bounded_saveField h | exact bounded_st h)
    | (simp at e; done)

theorem bounded_stepToks {d : Fmt} {ts : List (Option Char)} {p p' : Parser} (h : Bounded p)
    (e : stepToks d p ts = .ok p') : Bounded p' := by
  induction ts generalizing p with
  | nil => simp only [stepToks, Except.ok.injEq] at e; subst e; exact h
  | cons t ts ih =>
    simp only [stepToks] at e
    split at e
    · simp at e
    · next hs => exact ih (bounded_step h hs) e

theorem bounded_nextRecord {d : Fmt} {lines : List Str} {p : Parser} {row : List Str} {rest : List Str} (h : Bounded p)
    (e : nextRecord d p lines = .ok (some (row, rest))) : ∀ f ∈ row, f.length ≤ fieldLimit := by
  induction lines generalizing p with
  | nil =>
    simp only [nextRecord] at e
    split at e
    · split at e
      · simp at e
      · simp only [Except.ok.injEq, Option.some.injEq, Prod.mk.injEq] at e
        obtain ⟨rfl, _⟩ := e
        exact (bounded_saveField (st := .startRecord) h).fields
    · simp at e
  | cons line ls ih =>
    simp only [nextRecord] at e
    split at e
    · simp at e
    · next hs =>
      have hb := bounded_stepToks h hs
      split at e
      · simp only [Except.ok.injEq, Option.some.injEq, Prod.mk.injEq] at e
        obtain ⟨rfl, _⟩ := e
        exact hb.fields
      · exact ih hb e

/-- Every cell read is within the limit. -/
theorem readRows_limit (d : Fmt) (lines : List Str) : ∀ r ∈ (readRows d lines).1, ∀ f ∈ r, f.length ≤ fieldLimit := by
  unfold readRows
  generalize lines.length + 1 = n
  induction n generalizing lines with
  | zero => simp [readRowsFuel]
  | succ n ih =>
    simp only [readRowsFuel]
    split
    · simp
    · simp
    · next row rest he =>
      intro r hr
      simp only [List.mem_cons] at hr
      rcases hr with rfl | hr
      · exact bounded_nextRecord bounded_init he
      · exact ih rest r hr

end Csvw.CsvLib
