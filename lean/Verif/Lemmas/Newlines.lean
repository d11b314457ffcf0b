import Verif.Lemmas.CsvRun
import Verif.Model.Newlines
/-! # `csv.reader` over text with translated newlines -/

namespace Csvw.CsvLib

open Csvw.Dsv (translateNewlines)

theorem translate_cons {c : Char} (h : c ≠ '\r') (s : Str) : translateNewlines (c :: s) = c :: translateNewlines s := by
  rw [translateNewlines]
  · rintro r h1; exact absurd h1 h
  · intro h1; exact absurd h1 h

theorem translate_crnl (s : Str) : translateNewlines ('\r' :: '\n' :: s) = '\n' :: translateNewlines s := by
  rw [translateNewlines]

theorem translate_cr {s : Str} (h : s.head? ≠ some '\n') : translateNewlines ('\r' :: s) = '\n' :: translateNewlines s := by
  rw [translateNewlines]
  rintro r rfl
  exact h rfl

/-- Appending a character. -/
theorem translate_snoc (s : Str) {c : Char} (h : c ≠ '\r') (h2 : c = '\n' → s.getLast? ≠ some '\r') :
    translateNewlines (s ++ [c]) = translateNewlines s ++ [c] := by
  fun_induction translateNewlines s with
  | case1 => exact translate_cons h []
  | case2 r ih =>
    rw [List.cons_append, List.cons_append, translate_crnl, ih]
    · rfl
    · intro hc hl
      cases r with
      | nil => cases hl
      | cons a r => exact h2 hc (by simpa using hl)
  | case3 r hr ih =>
    cases r with
    | nil =>
      rw [show (['\r'] ++ [c] : Str) = ['\r', c] from rfl, translate_cr, translate_cons h]
      · rfl
      · intro hc
        injection hc with hc
        exact h2 hc rfl
    | cons a r =>
      rw [List.cons_append, translate_cr, ih]
      · rfl
      · intro hc hl
        exact h2 hc (by simpa using hl)
      · intro hc
        injection hc with hc
        exact hr r (by rw [hc])
  | case4 a r h1 h3 ih =>
    have ha : a ≠ '\r' := fun ha => h3 ha
    rw [List.cons_append, translate_cons ha, ih]
    · rfl
    · intro hc hl
      cases r with
      | nil => cases hl
      | cons b r => exact h2 hc (by simpa using hl)

/-- Appending a carriage return. -/
theorem translate_snoc_cr (s : Str) : translateNewlines (s ++ ['\r']) = translateNewlines s ++ ['\n'] := by
  fun_induction translateNewlines s with
  | case1 => rfl
  | case2 r ih => rw [List.cons_append, List.cons_append, translate_crnl, ih]; rfl
  | case3 r hr ih =>
    rw [List.cons_append, translate_cr, ih]
    · rfl
    · intro hc
      cases r with
      | nil => injection hc with hc; exact absurd hc (by decide)
      | cons a r => injection hc with hc; exact hr r (by rw [hc])
  | case4 a r h1 h3 ih => rw [List.cons_append, translate_cons h3, ih]; rfl

theorem translate_snoc_crnl (s : Str) : translateNewlines (s ++ ['\r'] ++ ['\n']) = translateNewlines s ++ ['\n'] := by
  fun_induction translateNewlines s with
  | case1 => rfl
  | case2 r ih => rw [List.cons_append, List.cons_append, List.cons_append, List.cons_append, translate_crnl, ih]; rfl
  | case3 r hr ih =>
    rw [List.cons_append, List.cons_append, translate_cr, ih]
    · rfl
    · intro hc
      cases r with
      | nil => injection hc with hc; exact absurd hc (by decide)
      | cons a r => injection hc with hc; exact hr r (by rw [hc])
  | case4 a r h1 h3 ih => rw [List.cons_append, List.cons_append, translate_cons h3, ih]; rfl

theorem translate_length (s : Str) : (translateNewlines s).length ≤ s.length := by
  fun_induction translateNewlines s with
  | case1 => exact Nat.le_refl _
  | case2 r ih => simp only [List.length_cons]; omega
  | case3 r hr ih => simp only [List.length_cons]; omega
  | case4 a r h1 h3 ih => simp only [List.length_cons]; omega

theorem translate_none {s : Str} (h : '\r' ∉ s) : translateNewlines s = s := by
  induction s with
  | nil => rfl
  | cons c s ih =>
    rw [List.mem_cons, not_or] at h
    rw [translate_cons (fun h1 => h.1 h1.symm), ih h.2]

theorem cr_notMem_translate (s : Str) : '\r' ∉ translateNewlines s := by
  fun_induction translateNewlines s with
  | case1 => exact List.not_mem_nil
  | case2 r ih => intro h; rcases List.mem_cons.1 h with h | h; exact absurd h (by decide); exact ih h
  | case3 r hr ih => intro h; rcases List.mem_cons.1 h with h | h; exact absurd h (by decide); exact ih h
  | case4 a r h1 h3 ih => intro h; rcases List.mem_cons.1 h with h | h; exact h3 h.symm; exact ih h

/-- The state with translated newlines. -/
def Parser.tr (p : Parser) : Parser := ⟨p.st, translateNewlines p.field, p.fields.map translateNewlines⟩

/-- The dialects: no escape character, and neither the delimiter nor the quote character is a newline. -/
structure PlainNl (d : Fmt) : Prop where
  escape : d.escapechar = none
  delim : isNl d.delimiter = false
  quote : ∀ q, d.quotechar = some q → isNl q = false

/-- The reachable states before reading `t`. -/
structure NlInv (p : Parser) (t : Str) : Prop where
  st : p.st ≠ .escapedChar ∧ p.st ≠ .escapeInQuoted ∧ p.st ≠ .afterEscapedCrnl
  empty : p.st = .startRecord ∨ p.st = .startField ∨ p.st = .eatCrnl → p.field = []
  quoted : p.st = .inQuoted → t.head? = some '\n' → p.field.getLast? ≠ some '\r'

theorem addChar_ok_iff {p p' : Parser} {st : St} {c : Char} (h : addChar p st c = .ok p') :
    p.field.length < fieldLimit ∧ p' = { p with st := st, field := p.field ++ [c] } := by
  unfold addChar at h
  split at h
  · cases h
  · exact ⟨by omega, by injection h with h; exact h.symm⟩

theorem addChar_of_lt {p : Parser} {st : St} {c : Char} (h : p.field.length < fieldLimit) :
    addChar p st c = .ok { p with st := st, field := p.field ++ [c] } := by
  unfold addChar
  rw [if_neg (by omega)]

theorem addChar_tr {p p' : Parser} {st : St} {c : Char} (h : addChar p st c = .ok p') (hc : c ≠ '\r')
    (h2 : c = '\n' → p.field.getLast? ≠ some '\r') : addChar p.tr st c = .ok p'.tr := by
  obtain ⟨h1, rfl⟩ := addChar_ok_iff h
  rw [addChar_of_lt (Nat.lt_of_le_of_lt (translate_length _) h1)]
  unfold Parser.tr
  simp only [translate_snoc _ hc h2]

theorem saveField_tr (p : Parser) (st : St) : saveField p.tr st = (saveField p st).tr := by
  unfold saveField Parser.tr
  simp only [List.map_append, List.map_cons, List.map_nil]
  rfl

theorem isNl_ne {c : Char} (h : isNl c = false) : c ≠ '\r' ∧ c ≠ '\n' := by
  constructor <;> rintro rfl <;> exact absurd h (by decide)

/-- One character, not a carriage return. -/
theorem step_tr {d : Fmt} (hd : PlainNl d) {p p' : Parser} {c : Char} {t : Str} (hi : NlInv p (c :: t)) (hc : c ≠ '\r')
    (h : step d p (some c) = .ok p') : step d p.tr (some c) = .ok p'.tr ∧ NlInv p' t := by
  have hplain : ∀ {st : St}, c ≠ '\n' → st ≠ .escapedChar ∧ st ≠ .escapeInQuoted ∧ st ≠ .afterEscapedCrnl → st = .inField ∨ st = .inQuoted →
      addChar p st c = .ok p' → addChar p.tr st c = .ok p'.tr ∧ NlInv p' t := by
    intro st hn hs hs2 h
    refine ⟨addChar_tr h hc fun h' => absurd h' hn, ?_⟩
    obtain ⟨_, rfl⟩ := addChar_ok_iff h
    refine ⟨hs, ?_, ?_⟩
    · rintro (h | h | h) <;> rcases hs2 with h2 | h2 <;> rw [h2] at h <;> cases h
    · intro _ _
      simp only [List.getLast?_append, List.getLast?_singleton, Option.some_or]
      intro h'; injection h' with h'; exact hc h'
  have hsave : ∀ {st : St}, st = .startField ∨ st = .eatCrnl → NlInv (saveField p st) t := by
    intro st hs
    refine ⟨?_, fun _ => rfl, ?_⟩
    · rcases hs with rfl | rfl <;> exact ⟨by simp [saveField], by simp [saveField], by simp [saveField]⟩
    · intro h; rcases hs with rfl | rfl <;> cases h
  have hstart : ∀ {q : Parser}, q = p → (p.st = .startRecord ∨ p.st = .startField) → stepStartField d p (some c) = .ok p' →
      stepStartField d p.tr (some c) = .ok p'.tr ∧ NlInv p' t := by
    intro q _ hst h
    have he : p.field = [] := hi.empty (by rcases hst with h | h <;> simp [h])
    unfold stepStartField at h ⊢
    dsimp only at h ⊢
    by_cases h1 : isNl c = true
    · rw [if_pos h1] at h ⊢
      injection h with h; subst h
      exact ⟨by rw [saveField_tr], hsave (.inr rfl)⟩
    rw [if_neg h1] at h ⊢
    have hn : c ≠ '\n' := (isNl_ne (by simpa using h1)).2
    by_cases h2 : (some c == d.quotechar && d.quoting != .none) = true
    · rw [if_pos h2] at h ⊢
      injection h with h; subst h
      refine ⟨rfl, ⟨by simp, by simp, ?_⟩⟩
      intro _ _
      simp [he]
    rw [if_neg h2] at h ⊢
    have h3 : (some c == d.escapechar) = false := by rw [hd.escape]; rfl
    rw [h3, if_neg (by simp)] at h ⊢
    by_cases h4 : (c == ' ' && d.skipinitialspace) = true
    · rw [if_pos h4] at h ⊢
      injection h with h; subst h
      exact ⟨rfl, ⟨by simp, fun _ => he, by simp⟩⟩
    rw [if_neg h4] at h ⊢
    by_cases h5 : (c == d.delimiter) = true
    · rw [if_pos h5] at h ⊢
      injection h with h; subst h
      exact ⟨by rw [saveField_tr], hsave (.inl rfl)⟩
    rw [if_neg h5] at h ⊢
    exact hplain hn (by simp) (.inl rfl) h
  unfold step at h ⊢
  show (match p.st with | .startRecord => _ | .startField => _ | .escapedChar => _ | .afterEscapedCrnl => _ | .inField => _ | .inQuoted => _ | .escapeInQuoted => _ | .quoteInQuoted => _ | .eatCrnl => _) = _ ∧ _
  cases hst : p.st with
  | escapedChar => exact absurd hst hi.st.1
  | escapeInQuoted => exact absurd hst hi.st.2.1
  | afterEscapedCrnl => exact absurd hst hi.st.2.2
  | startRecord =>
    rw [hst] at h
    dsimp only at h ⊢
    by_cases h1 : isNl c = true
    · rw [if_pos h1] at h ⊢
      injection h with h; subst h
      exact ⟨rfl, ⟨by simp, fun _ => hi.empty (.inl hst), by simp⟩⟩
    · rw [if_neg h1] at h ⊢
      exact hstart rfl (.inl hst) h
  | startField =>
    rw [hst] at h
    exact hstart rfl (.inr hst) h
  | inField =>
    rw [hst] at h
    dsimp only at h ⊢
    unfold stepInField at h ⊢
    dsimp only at h ⊢
    by_cases h1 : isNl c = true
    · rw [if_pos h1] at h ⊢
      injection h with h; subst h
      exact ⟨by rw [saveField_tr], hsave (.inr rfl)⟩
    rw [if_neg h1] at h ⊢
    have h3 : (some c == d.escapechar) = false := by rw [hd.escape]; rfl
    rw [h3, if_neg (by simp)] at h ⊢
    by_cases h5 : (c == d.delimiter) = true
    · rw [if_pos h5] at h ⊢
      injection h with h; subst h
      exact ⟨by rw [saveField_tr], hsave (.inl rfl)⟩
    rw [if_neg h5] at h ⊢
    exact hplain (isNl_ne (by simpa using h1)).2 (by simp) (.inl rfl) h
  | inQuoted =>
    rw [hst] at h
    dsimp only at h ⊢
    have h3 : (some c == d.escapechar) = false := by rw [hd.escape]; rfl
    rw [h3, if_neg (by simp)] at h ⊢
    by_cases h2 : (some c == d.quotechar && d.quoting != .none) = true
    · rw [if_pos h2] at h ⊢
      injection h with h; subst h
      refine ⟨rfl, ⟨?_, ?_, ?_⟩⟩
      · cases d.doublequote <;> simp
      · cases d.doublequote <;> simp
      · cases d.doublequote <;> simp
    rw [if_neg h2] at h ⊢
    refine ⟨addChar_tr h hc fun hn => hi.quoted hst (by rw [hn]; rfl), ?_⟩
    obtain ⟨_, rfl⟩ := addChar_ok_iff h
    refine ⟨by simp, by simp, fun _ _ => ?_⟩
    simp only [List.getLast?_append, List.getLast?_singleton, Option.some_or]
    intro h'; injection h' with h'; exact hc h'
  | quoteInQuoted =>
    rw [hst] at h
    dsimp only at h ⊢
    by_cases h2 : (d.quoting != .none && some c == d.quotechar) = true
    · rw [if_pos h2] at h ⊢
      have hq : some c = d.quotechar := by
        rw [Bool.and_eq_true] at h2; exact eq_of_beq h2.2
      exact hplain (isNl_ne (hd.quote c hq.symm)).2 (by simp) (.inr rfl) h
    rw [if_neg h2] at h ⊢
    by_cases h5 : (c == d.delimiter) = true
    · rw [if_pos h5] at h ⊢
      injection h with h; subst h
      exact ⟨by rw [saveField_tr], hsave (.inl rfl)⟩
    rw [if_neg h5] at h ⊢
    by_cases h1 : isNl c = true
    · rw [if_pos h1] at h ⊢
      injection h with h; subst h
      exact ⟨by rw [saveField_tr], hsave (.inr rfl)⟩
    rw [if_neg h1] at h ⊢
    by_cases h6 : (!d.strict) = true
    · rw [if_pos h6] at h ⊢
      exact hplain (isNl_ne (by simpa using h1)).2 (by simp) (.inl rfl) h
    · rw [if_neg h6] at h; cases h
  | eatCrnl =>
    rw [hst] at h
    dsimp only at h ⊢
    by_cases h1 : isNl c = true
    · rw [if_pos h1] at h ⊢
      injection h with h; subst h
      exact ⟨rfl, hi.st, fun _ => hi.empty (.inr (.inr hst)), fun h => by rw [hst] at h; cases h⟩
    · rw [if_neg h1] at h; cases h

/-- A carriage return, and a line feed after it if there is one, is a newline. -/
theorem step_cr_tr {d : Fmt} (hd : PlainNl d) {p p' : Parser} {c : Char} {t : Str} (hi : NlInv p (c :: t)) (hc : c = '\r')
    (h : step d p (some c) = .ok p') :
    step d p.tr (some '\n') = .ok p'.tr ∧ (t.head? ≠ some '\n' → NlInv p' t) ∧
    ∀ p'', step d p' (some '\n') = .ok p'' → step d p.tr (some '\n') = .ok p''.tr ∧ ∀ t', NlInv p'' t' := by
  have hnl : isNl c = true := by rw [hc]; decide
  have hnn : isNl '\n' = true := by decide
  have hqn : ∀ {e : Char}, isNl e = true → (some e == d.quotechar) = false := by
    intro e he
    rw [beq_eq_false_iff_ne]
    intro h'
    rw [hd.quote e h'.symm] at he; cases he
  have hdn : ∀ {e : Char}, isNl e = true → (e == d.delimiter) = false := by
    intro e he
    rw [beq_eq_false_iff_ne]
    intro h'
    rw [h', hd.delim] at he; cases he
  have hen : ∀ e : Char, (some e == d.escapechar) = false := by intro e; rw [hd.escape]; rfl
  have heat : ∀ {q : Parser}, q.st = .eatCrnl → q.field = [] → (∀ t', NlInv q t') ∧ step d q (some '\n') = .ok q := by
    intro q hq hf
    refine ⟨fun t' => ⟨by simp [hq], fun _ => hf, by simp [hq]⟩, ?_⟩
    unfold step
    rw [hq]
    simp only [hnn, if_true]
  have hfin : ∀ {q : Parser}, q.st = .eatCrnl → q.field = [] → step d p.tr (some '\n') = .ok q.tr → p' = q →
      step d p.tr (some '\n') = .ok p'.tr ∧ (t.head? ≠ some '\n' → NlInv p' t) ∧
      ∀ p'', step d p' (some '\n') = .ok p'' → step d p.tr (some '\n') = .ok p''.tr ∧ ∀ t', NlInv p'' t' := by
    intro q hq hf h1 h2
    subst h2
    refine ⟨h1, fun _ => (heat hq hf).1 _, ?_⟩
    intro p'' hp
    rw [(heat hq hf).2] at hp
    injection hp with hp; subst hp
    exact ⟨h1, (heat hq hf).1⟩
  have htr : p.tr.st = p.st := rfl
  cases hst : p.st with
  | escapedChar => exact absurd hst hi.st.1
  | escapeInQuoted => exact absurd hst hi.st.2.1
  | afterEscapedCrnl => exact absurd hst hi.st.2.2
  | startRecord =>
    have he : p.field = [] := hi.empty (.inl hst)
    refine hfin (q := { p with st := .eatCrnl }) rfl he ?_ ?_
    · unfold step; rw [htr, hst]; simp only [hnn, if_true]; rfl
    · unfold step at h; rw [hst] at h; simp only [hnl, if_true] at h; injection h with h; exact h.symm
  | startField =>
    refine hfin (q := saveField p .eatCrnl) rfl rfl ?_ ?_
    · unfold step; rw [htr, hst]; simp only [stepStartField, hnn, if_true]; rw [saveField_tr]
    · unfold step at h; rw [hst] at h; simp only [stepStartField, hnl, if_true] at h; injection h with h; exact h.symm
  | inField =>
    refine hfin (q := saveField p .eatCrnl) rfl rfl ?_ ?_
    · unfold step; rw [htr, hst]; simp only [stepInField, hnn, if_true]; rw [saveField_tr]
    · unfold step at h; rw [hst] at h; simp only [stepInField, hnl, if_true] at h; injection h with h; exact h.symm
  | eatCrnl =>
    have he : p.field = [] := hi.empty (.inr (.inr hst))
    refine hfin (q := p) hst he ?_ ?_
    · unfold step; rw [htr, hst]; simp only [hnn, if_true]
    · unfold step at h; rw [hst] at h; simp only [hnl, if_true] at h; injection h with h; exact h.symm
  | quoteInQuoted =>
    refine hfin (q := saveField p .eatCrnl) rfl rfl ?_ ?_
    · unfold step; rw [htr, hst]
      simp only [hqn hnn, hdn hnn, hnn, Bool.and_false, Bool.false_eq_true, if_false, if_true]; rw [saveField_tr]
    · unfold step at h; rw [hst] at h
      simp only [hqn hnl, hdn hnl, hnl, Bool.and_false, Bool.false_eq_true, if_false, if_true] at h
      injection h with h; exact h.symm
  | inQuoted =>
    have hs : ∀ {q : Parser} {e : Char}, q.st = .inQuoted → isNl e = true → step d q (some e) = addChar q .inQuoted e := by
      intro q e hq he
      unfold step; rw [hq]
      simp only [hen, hqn he, Bool.false_and, Bool.false_eq_true, if_false]
    rw [hs hst hnl] at h
    obtain ⟨hl, rfl⟩ := addChar_ok_iff h
    have hstep : step d p.tr (some '\n') = .ok ⟨.inQuoted, translateNewlines p.field ++ ['\n'], p.fields.map translateNewlines⟩ := by
      rw [hs (htr.trans hst) hnn, addChar_of_lt (Nat.lt_of_le_of_lt (translate_length _) hl)]
      rfl
    refine ⟨?_, ?_, ?_⟩
    · rw [hstep]; subst hc; unfold Parser.tr; simp only [translate_snoc_cr]
    · intro ht
      exact ⟨by simp, by simp, fun _ h' => absurd h' ht⟩
    · intro p'' hp
      rw [hs rfl hnn] at hp
      obtain ⟨_, rfl⟩ := addChar_ok_iff hp
      refine ⟨?_, fun t' => ⟨by simp, by simp, fun _ _ => ?_⟩⟩
      · rw [hstep]; subst hc; unfold Parser.tr; simp only [translate_snoc_crnl]
      · simp

/-- The end of a line. -/
theorem step_eol_tr {d : Fmt} {p p' : Parser} {t : Str} (hi : NlInv p t) (h : step d p none = .ok p') :
    step d p.tr none = .ok p'.tr ∧ NlInv p' t := by
  have htr : p.tr.st = p.st := rfl
  have hsave : NlInv (saveField p .startRecord) t := ⟨by simp [saveField], fun _ => rfl, by simp [saveField]⟩
  unfold step at h ⊢
  rw [htr]
  cases hst : p.st with
  | escapedChar => exact absurd hst hi.st.1
  | escapeInQuoted => exact absurd hst hi.st.2.1
  | afterEscapedCrnl => exact absurd hst hi.st.2.2
  | startRecord => rw [hst] at h; injection h with h; subst h; exact ⟨rfl, hi⟩
  | inQuoted => rw [hst] at h; injection h with h; subst h; exact ⟨rfl, hi⟩
  | startField => rw [hst] at h; injection h with h; subst h; exact ⟨by simp only [stepStartField]; rw [saveField_tr], hsave⟩
  | inField => rw [hst] at h; injection h with h; subst h; exact ⟨by simp only [stepInField]; rw [saveField_tr], hsave⟩
  | quoteInQuoted => rw [hst] at h; injection h with h; subst h; exact ⟨by simp only; rw [saveField_tr], hsave⟩
  | eatCrnl =>
    rw [hst] at h; injection h with h; subst h
    exact ⟨rfl, by simp, fun _ => hi.empty (.inr (.inr hst)), by simp⟩

theorem endInput_tr {d : Fmt} {p : Parser} {rows : List (List Str)} (h : endInput d p = (rows, none)) :
    endInput d p.tr = (rows.map (·.map translateNewlines), none) := by
  have he : p.tr.field.isEmpty = p.field.isEmpty := by
    unfold Parser.tr
    cases hf : p.field with
    | nil => rfl
    | cons c s =>
      unfold translateNewlines
      split
      · next h => cases h
      · rfl
      · rfl
      · rfl
  have hs : p.tr.st = p.st := rfl
  unfold endInput at h ⊢
  rw [he, hs]
  split
  · next h1 =>
    rw [if_pos h1] at h
    split
    · next h2 => rw [if_pos h2] at h; injection h with _ h; cases h
    · next h2 =>
      rw [if_neg h2] at h
      injection h with h _; subst h
      simp [Parser.tr]
  · next h1 =>
    rw [if_neg h1] at h
    injection h with h _; subst h; rfl

theorem nlInv_init (t : Str) : NlInv .init t := ⟨by simp [Parser.init], fun _ => rfl, by simp [Parser.init]⟩

/-- If the reader finds no error in the text, then it reads the same rows, with newlines translated, from the text with newlines translated. -/
theorem run_tr {d : Fmt} (hd : PlainNl d) : ∀ (n : Nat) {t : Str} {p : Parser} {ml : Bool} {rows : List (List Str)}, t.length ≤ n → NlInv p t →
    run d p ml t = (rows, none) → run d p.tr ml (translateNewlines t) = (rows.map (·.map translateNewlines), none) := by
  have heol : ∀ {p : Parser} {t : Str} {ml' : Bool} {rows : List (List Str)}, NlInv p t →
      (∀ {q : Parser} {rows : List (List Str)}, NlInv q t → run d q false t = (rows, none) →
        run d q.tr false (translateNewlines t) = (rows.map (·.map translateNewlines), none)) →
      (match step d p none with
        | .error e => (([] : List (List Str)), some e)
        | .ok p'' =>
          if p''.st = .startRecord then
            let r := run d .init false t
            (p''.fields :: r.1, r.2)
          else run d p'' false t) = (rows, none) →
      (match step d p.tr none with
        | .error e => (([] : List (List Str)), some e)
        | .ok p'' =>
          if p''.st = .startRecord then
            let r := run d .init false (translateNewlines t)
            (p''.fields :: r.1, r.2)
          else run d p'' false (translateNewlines t)) = (rows.map (·.map translateNewlines), none) := by
    intro p t ml' rows hi ih h
    cases h1 : step d p none with
    | error e => rw [h1] at h; injection h with _ h; cases h
    | ok q =>
      obtain ⟨k1, k2⟩ := step_eol_tr hi h1
      rw [h1] at h
      rw [k1]
      dsimp only at h ⊢
      have hs : q.tr.st = q.st := rfl
      rw [hs]
      by_cases hst : q.st = .startRecord
      · rw [if_pos hst] at h ⊢
        injection h with h2 h3
        have := ih (rows := (run d .init false t).1) (nlInv_init t) (by rw [← h3])
        rw [show Parser.init.tr = Parser.init from rfl] at this
        rw [this, ← h2]
        rfl
      · rw [if_neg hst] at h ⊢
        exact ih k2 h
  have hend : ∀ {p : Parser} {ml : Bool} {rows : List (List Str)}, NlInv p [] → run d p ml [] = (rows, none) →
      run d p.tr ml [] = (rows.map (·.map translateNewlines), none) := by
    intro p ml rows hi h
    unfold run at h ⊢
    cases ml with
    | false => exact endInput_tr h
    | true =>
      simp only [if_true] at h ⊢
      cases h1 : step d p none with
      | error e => rw [h1] at h; injection h with _ h; cases h
      | ok q =>
        obtain ⟨k1, k2⟩ := step_eol_tr hi h1
        rw [h1] at h
        rw [k1]
        dsimp only at h ⊢
        have hs : q.tr.st = q.st := rfl
        rw [hs]
        by_cases hst : q.st = .startRecord
        · rw [if_pos hst] at h ⊢
          injection h with h2 h3
          have := endInput_tr (rows := (endInput d .init).1) (by rw [← h3])
          rw [show Parser.init.tr = Parser.init from rfl] at this
          rw [this, ← h2]
          rfl
        · rw [if_neg hst] at h ⊢
          exact endInput_tr h
  intro n
  induction n with
  | zero =>
    intro t p ml rows hn hi h
    cases t with
    | nil => exact hend hi h
    | cons c t => exact absurd hn (by simp)
  | succ n ih =>
    intro t p ml rows hn hi h
    cases t with
    | nil => exact hend hi h
    | cons c t =>
      have hlen : t.length ≤ n := by simp only [List.length_cons] at hn; omega
      unfold run at h
      cases h1 : step d p (some c) with
      | error e => rw [h1] at h; injection h with _ h; cases h
      | ok q =>
        rw [h1] at h
        dsimp only at h
        by_cases hc : c = '\r'
        · obtain ⟨k1, k2, k3⟩ := step_cr_tr hd hi hc h1
          by_cases ht : t.head? = some '\n'
          · rw [if_pos ⟨hc, ht⟩] at h
            cases t with
            | nil => cases ht
            | cons c2 t2 =>
              injection ht with ht; subst ht; subst hc
              rw [translate_crnl]
              unfold run at h ⊢
              cases h2 : step d q (some '\n') with
              | error e => rw [h2] at h; injection h with _ h; cases h
              | ok q2 =>
                obtain ⟨m1, m2⟩ := k3 q2 h2
                rw [h2] at h
                rw [m1]
                dsimp only at h ⊢
                rw [if_neg (fun h' => absurd h'.1 (by decide)), if_pos (by decide)] at h ⊢
                exact heol (ml' := ml) (m2 t2) (fun {q rows} h3 h4 => ih (by simp only [List.length_cons] at hlen; omega) h3 h4) h
          · rw [if_neg (fun h' => ht h'.2), if_pos (by rw [hc]; decide)] at h
            subst hc
            rw [translate_cr ht]
            unfold run
            rw [k1]
            dsimp only
            rw [if_neg (fun h' => absurd h'.1 (by decide)), if_pos (by decide)]
            exact heol (ml' := ml) (k2 ht) (fun {q rows} h3 h4 => ih hlen h3 h4) h
        · obtain ⟨k1, k2⟩ := step_tr hd hi hc h1
          rw [if_neg (fun h' => hc h'.1)] at h
          rw [translate_cons hc]
          unfold run
          rw [k1]
          dsimp only
          rw [if_neg (fun h' => hc h'.1)]
          by_cases hn2 : isNl c = true
          · rw [if_pos hn2] at h ⊢
            exact heol (ml' := ml) k2 (fun {q rows} h3 h4 => ih hlen h3 h4) h
          · rw [if_neg hn2] at h ⊢
            exact ih hlen k2 h

/-- The rows of a text with translated newlines. -/
theorem readRows_translate {d : Fmt} (hd : PlainNl d) {t : Str} {rows : List (List Str)} (h : readRows d (splitLines t) = (rows, none)) :
    readRows d (splitLines (translateNewlines t)) = (rows.map (·.map translateNewlines), none) := by
  rw [readRows_splitLines] at h ⊢
  exact run_tr hd t.length (Nat.le_refl _) (nlInv_init t) h

end Csvw.CsvLib
