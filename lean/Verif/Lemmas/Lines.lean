import Verif.Lemmas.Newlines
import Verif.Spec.Lines
import Verif.Spec.Dsv
/-! # `csv.reader` over lines without line ends -/

namespace Csvw.CsvLib
open Spec

theorem isNl_iff {c : Char} : isNl c = true ↔ c = '\n' ∨ c = '\r' := by
  unfold isNl; rw [Bool.or_eq_true, beq_iff_eq, beq_iff_eq]

theorem oneLine_cons {c : Char} {s : Str} : OneLine (c :: s) ↔ isNl c = false ∧ OneLine s := by
  unfold OneLine
  rw [List.mem_cons, List.mem_cons, not_or, not_or, ← Bool.not_eq_true, isNl_iff, not_or]
  constructor
  · rintro ⟨⟨h1, h2⟩, h3, h4⟩; exact ⟨⟨fun e => h1 e.symm, fun e => h3 e.symm⟩, h2, h4⟩
  · rintro ⟨⟨h1, h3⟩, h2, h4⟩; exact ⟨⟨fun e => h1 e.symm, h2⟩, fun e => h3 e.symm, h4⟩

theorem splitLinesGo_body {l : Str} (h : OneLine l) (acc rest : Str) : splitLinesGo acc (l ++ rest) = splitLinesGo (l.reverse ++ acc) rest := by
  induction l generalizing acc with
  | nil => rfl
  | cons c l ih =>
    obtain ⟨h1, h2⟩ := oneLine_cons.1 h
    have hc := isNl_ne h1
    rw [List.cons_append, splitLinesGo, if_neg (by simp [h1]), ih h2, List.reverse_cons, List.append_assoc]
    · rfl
    · intro cs h3; exact absurd h3 hc.1

/-- The lines found by a text stream. -/
theorem splitLines_of {text : Str} {ls ks : List Str} (h : LinesOf text ls ks) : splitLines text = ks := by
  unfold splitLines
  induction h with
  | nil => rfl
  | @last l h1 h2 =>
    have := splitLinesGo_body h2 [] []
    rw [List.append_nil, List.append_nil] at this
    rw [this, splitLinesGo, if_neg (by simpa using h1), List.reverse_reverse]
  | @lf l text ls ks h1 h2 ih =>
    rw [splitLinesGo_body h1, splitLinesGo, if_pos (by decide), ih]
    · simp
    · rintro cs h; exact absurd h (by decide)
  | @crlf l text ls ks h1 h2 ih =>
    rw [splitLinesGo_body h1, splitLinesGo, ih]
    simp
  | @cr l text ls ks h1 h3 h2 ih =>
    rw [splitLinesGo_body h1, splitLinesGo, if_pos (by decide), ih]
    · simp
    · rintro cs _ rfl; exact h3 rfl

/-- Every text has lines. -/
theorem lines_exist (text : Str) : ∃ ls ks, LinesOf text ls ks := by
  induction text with
  | nil => exact ⟨_, _, .nil⟩
  | cons c text ih =>
    obtain ⟨ls, ks, ih⟩ := ih
    by_cases hn : c = '\n'
    · subst hn; exact ⟨_, _, .lf (l := []) (by decide) ih⟩
    by_cases hr : c = '\r'
    · subst hr
      by_cases hh : text.head? = some '\n'
      · have hno : ∀ {l e t : Str}, l ++ e = text → OneLine l → l = [] := by
          intro l e t h1 h2
          cases l with
          | nil => rfl
          | cons a l =>
            subst h1
            injection hh with hh
            exact absurd (List.mem_cons_self ..) (hh ▸ h2.1)
        cases ih with
        | nil => cases hh
        | last h1 h2 =>
          cases text with
          | nil => cases hh
          | cons a l => injection hh with hh; exact absurd (List.mem_cons_self ..) (hh ▸ h2.1)
        | lf h1 h2 =>
          have := hno (t := []) rfl h1
          subst this
          exact ⟨_, _, .crlf (l := []) (by decide) h2⟩
        | crlf h1 h2 =>
          have := hno (t := []) rfl h1
          subst this
          exact absurd hh (by simp)
        | cr h1 h3 h2 =>
          have := hno (t := []) rfl h1
          subst this
          exact absurd hh (by simp)
      · exact ⟨_, _, .cr (l := []) (by decide) hh ih⟩
    · have hc : isNl c = false := by rw [← Bool.not_eq_true, isNl_iff]; rintro (h | h); exact hn h; exact hr h
      cases ih with
      | nil => exact ⟨_, _, .last (by simp) (oneLine_cons.2 ⟨hc, by decide⟩)⟩
      | last h1 h2 => exact ⟨_, _, .last (by simp) (oneLine_cons.2 ⟨hc, h2⟩)⟩
      | lf h1 h2 => exact ⟨_, _, .lf (oneLine_cons.2 ⟨hc, h1⟩) h2⟩
      | crlf h1 h2 => exact ⟨_, _, .crlf (oneLine_cons.2 ⟨hc, h1⟩) h2⟩
      | cr h1 h3 h2 => exact ⟨_, _, .cr (oneLine_cons.2 ⟨hc, h1⟩) h3 h2⟩

/-- What ends a line. -/
def IsEnd (e : Str) : Prop := e = [] ∨ e = ['\n'] ∨ e = ['\r', '\n'] ∨ e = ['\r']

/-- A line without and with its end. -/
def Chomped (l k : Str) : Prop := OneLine l ∧ ∃ e, IsEnd e ∧ k = l ++ e

theorem chomped_of {text : Str} {ls ks : List Str} (h : LinesOf text ls ks) : All2 Chomped ls ks := by
  induction h with
  | nil => exact .nil
  | last h1 h2 => exact .cons ⟨h2, [], .inl rfl, by simp⟩ .nil
  | lf h1 _ ih => exact .cons ⟨h1, _, .inr (.inl rfl), rfl⟩ ih
  | crlf h1 _ ih => exact .cons ⟨h1, _, .inr (.inr (.inl rfl)), rfl⟩ ih
  | cr h1 _ _ ih => exact .cons ⟨h1, _, .inr (.inr (.inr rfl)), rfl⟩ ih

/-- The state without line breaks in the cells. -/
def Parser.rm (p : Parser) : Parser := ⟨p.st, withoutBreaks p.field, p.fields.map withoutBreaks⟩

theorem rm_append (s t : Str) : withoutBreaks (s ++ t) = withoutBreaks s ++ withoutBreaks t := List.filter_append ..

theorem rm_plain {c : Char} (h : isNl c = false) : withoutBreaks [c] = [c] := by
  have := isNl_ne h
  simp [withoutBreaks, this.1, this.2]

theorem rm_nl {c : Char} (h : isNl c = true) : withoutBreaks [c] = [] := by
  rcases isNl_iff.1 h with rfl | rfl <;> rfl

theorem rm_oneLine {s : Str} (h : OneLine s) : withoutBreaks s = s := by
  refine List.filter_eq_self.2 fun c hc => ?_
  rw [Bool.and_eq_true, decide_eq_true_eq, decide_eq_true_eq]
  exact ⟨fun e => h.1 (e ▸ hc), fun e => h.2 (e ▸ hc)⟩

theorem rm_length (s : Str) : (withoutBreaks s).length ≤ s.length := List.length_filter_le ..

theorem addChar_rm {p p' : Parser} {st : St} {c : Char} (h : addChar p st c = .ok p') (hc : isNl c = false) : addChar p.rm st c = .ok p'.rm := by
  obtain ⟨h1, rfl⟩ := addChar_ok_iff h
  rw [addChar_of_lt (Nat.lt_of_le_of_lt (rm_length _) h1)]
  unfold Parser.rm
  simp only [rm_append, rm_plain hc]

theorem saveField_rm (p : Parser) (st : St) : saveField p.rm st = (saveField p st).rm := by
  unfold saveField Parser.rm
  simp only [List.map_append, List.map_cons, List.map_nil]
  rfl

/-- The states inside a line. -/
def Inside (st : St) : Prop := st = .startRecord ∨ st = .startField ∨ st = .inField ∨ st = .inQuoted ∨ st = .quoteInQuoted

/-- One character which is no line break. -/
theorem step_rm {d : Fmt} (hd : PlainNl d) {p p' : Parser} {c : Char} (hi : Inside p.st) (hc : isNl c = false)
    (h : step d p (some c) = .ok p') : step d p.rm (some c) = .ok p'.rm ∧ Inside p'.st := by
  have hadd : ∀ {st : St}, Inside st → addChar p st c = .ok p' → addChar p.rm st c = .ok p'.rm ∧ Inside p'.st := by
    intro st hs h
    refine ⟨addChar_rm h hc, ?_⟩
    obtain ⟨_, rfl⟩ := addChar_ok_iff h
    exact hs
  have hesc : (some c == d.escapechar) = false := by rw [hd.escape]; rfl
  have hstart : stepStartField d p (some c) = .ok p' → stepStartField d p.rm (some c) = .ok p'.rm ∧ Inside p'.st := by
    intro h
    unfold stepStartField at h ⊢
    simp only [hc, hesc, Bool.false_eq_true, if_false] at h ⊢
    split at h
    · next h1 => rw [if_pos h1]; cases h; exact ⟨rfl, by simp [Inside]⟩
    · next h1 =>
      rw [if_neg h1]
      split at h
      · next h2 => rw [if_pos h2]; cases h; exact ⟨rfl, by simp [Inside]⟩
      · next h2 =>
        rw [if_neg h2]
        split at h
        · next h3 => rw [if_pos h3]; cases h; exact ⟨by rw [saveField_rm], by simp [Inside, saveField]⟩
        · next h3 => rw [if_neg h3]; exact hadd (by simp [Inside]) h
  obtain ⟨st, f, fs⟩ := p
  unfold step at h ⊢
  rcases hi with hi | hi | hi | hi | hi <;> dsimp only at hi <;> subst hi
  · simp only [hc, Parser.rm] at h ⊢
    exact hstart h
  · simp only [Parser.rm] at h ⊢
    exact hstart h
  · simp only [stepInField, hc, hesc, Parser.rm, Bool.false_eq_true, if_false] at h ⊢
    split at h
    · next h1 => rw [if_pos h1]; cases h; exact ⟨congrArg Except.ok (saveField_rm ⟨_, f, fs⟩ _), by simp [Inside, saveField]⟩
    · next h1 => rw [if_neg h1]; exact hadd (by simp [Inside]) h
  · simp only [hesc, Parser.rm, Bool.false_eq_true, if_false] at h ⊢
    split at h
    · next h1 =>
      rw [if_pos h1]; cases h
      refine ⟨rfl, ?_⟩
      dsimp only
      split <;> simp [Inside]
    · next h1 => rw [if_neg h1]; exact hadd (by simp [Inside]) h
  · simp only [hc, Parser.rm, Bool.false_eq_true, if_false] at h ⊢
    split at h
    · next h1 => rw [if_pos h1]; exact hadd (by simp [Inside]) h
    · next h1 =>
      rw [if_neg h1]
      split at h
      · next h2 => rw [if_pos h2]; cases h; exact ⟨congrArg Except.ok (saveField_rm ⟨_, f, fs⟩ _), by simp [Inside, saveField]⟩
      · next h2 =>
        rw [if_neg h2]
        split at h
        · next h3 => rw [if_pos h3]; exact hadd (by simp [Inside]) h
        · cases h

theorem body_rm {d : Fmt} (hd : PlainNl d) {l : Str} (hl : OneLine l) {p p' : Parser} (hi : Inside p.st) (h : stepToks d p (l.map some) = .ok p') :
    stepToks d p.rm (l.map some) = .ok p'.rm ∧ Inside p'.st := by
  induction l generalizing p with
  | nil => cases h; exact ⟨rfl, hi⟩
  | cons c l ih =>
    obtain ⟨h1, h2⟩ := oneLine_cons.1 hl
    rw [List.map_cons, stepToks] at h ⊢
    cases hs : step d p (some c) with
    | error e => rw [hs] at h; cases h
    | ok q =>
      rw [hs] at h
      obtain ⟨h3, h4⟩ := step_rm hd hi h1 hs
      rw [h3]
      exact ih h2 h4 h

theorem addNl_ok {p p' : Parser} {st : St} {c : Char} (h : addChar p st c = .ok p') (hc : isNl c = true) :
    p'.rm = { p.rm with st := st } ∧ p'.st = st := by
  obtain ⟨_, rfl⟩ := addChar_ok_iff h
  refine ⟨?_, rfl⟩
  unfold Parser.rm
  simp only [rm_append, rm_nl hc, List.append_nil]

/-- A line break inside quotes. -/
theorem quoted_nl {d : Fmt} (hd : PlainNl d) {p p' : Parser} {c : Char} (hc : isNl c = true) (hp : p.st = .inQuoted)
    (h : step d p (some c) = .ok p') : p'.rm = p.rm ∧ p'.st = .inQuoted := by
  unfold step at h
  rw [hp] at h
  dsimp only at h
  have h1 : (some c == d.escapechar) = false := by rw [hd.escape]; rfl
  have h2 : (some c == d.quotechar && d.quoting != .none) = false := by
    rw [Bool.and_eq_false_iff]
    left
    rw [beq_eq_false_iff_ne]
    intro e
    have := hd.quote c e.symm
    rw [hc] at this; cases this
  rw [h1, h2, if_neg (by simp), if_neg (by simp)] at h
  obtain ⟨h3, h4⟩ := addNl_ok h hc
  refine ⟨?_, h4⟩
  rw [h3]
  obtain ⟨st, f, fs⟩ := p
  dsimp only at hp
  subst hp
  rfl

/-- The state after the end of a line outside quotes. -/
def Parser.ended (p : Parser) : Parser := if p.st = .startRecord then p else saveField p .startRecord

theorem eol_ended {d : Fmt} {p : Parser} (hi : Inside p.st) (hq : p.st ≠ .inQuoted) : step d p none = .ok p.ended := by
  obtain ⟨st, f, fs⟩ := p
  rcases hi with hi | hi | hi | hi | hi <;> dsimp only at hi <;> subst hi
  · rfl
  · rfl
  · rfl
  · exact absurd rfl hq
  · rfl

theorem nl_ended {d : Fmt} (hd : PlainNl d) {p : Parser} {c : Char} (hc : isNl c = true) (hi : Inside p.st) (hq : p.st ≠ .inQuoted) :
    step d p (some c) = .ok { p.ended with st := .eatCrnl } := by
  have h2 : (some c == d.quotechar) = false := by
    rw [beq_eq_false_iff_ne]
    intro e
    have := hd.quote c e.symm
    rw [hc] at this; cases this
  have h3 : (c == d.delimiter) = false := by
    rw [beq_eq_false_iff_ne]
    rintro rfl
    have := hd.delim
    rw [hc] at this; cases this
  obtain ⟨st, f, fs⟩ := p
  rcases hi with hi | hi | hi | hi | hi <;> dsimp only at hi <;> subst hi
  · simp only [step, hc, if_true]; rfl
  · simp only [step, stepStartField, hc, if_true]; rfl
  · simp only [step, stepInField, hc, if_true]; rfl
  · exact absurd rfl hq
  · simp only [step, hc, h2, h3, Bool.and_false, Bool.false_eq_true, if_false, if_true]; rfl

theorem ended_rm (p : Parser) : p.rm.ended = p.ended.rm := by
  unfold Parser.ended
  show (if p.st = .startRecord then _ else _) = _
  split
  · rfl
  · exact saveField_rm p _

/-- The end of a line. -/
theorem end_rm {d : Fmt} (hd : PlainNl d) {e : Str} (he : IsEnd e) {p p' : Parser} (hi : Inside p.st)
    (h : stepToks d p (e.map some ++ [none]) = .ok p') :
    step d p.rm none = .ok p'.rm ∧ (p'.st = .startRecord ∨ p'.st = .inQuoted) := by
  by_cases hq : p.st = .inQuoted
  · have key : ∀ {e : Str} {p : Parser}, (∀ c ∈ e, isNl c = true) → p.st = .inQuoted → stepToks d p (e.map some ++ [none]) = .ok p' →
        p'.rm = p.rm ∧ p'.st = .inQuoted := by
      intro e
      induction e with
      | nil =>
        intro p _ hp h
        rw [List.map_nil, List.nil_append, stepToks, step, hp] at h
        cases h
        exact ⟨rfl, hp⟩
      | cons c e ih =>
        intro p hc hp h
        rw [List.map_cons, List.cons_append, stepToks] at h
        cases hs : step d p (some c) with
        | error x => rw [hs] at h; cases h
        | ok q =>
          rw [hs] at h
          obtain ⟨h1, h2⟩ := quoted_nl hd (hc c (List.mem_cons_self ..)) hp hs
          obtain ⟨h3, h4⟩ := ih (fun a ha => hc a (List.mem_cons_of_mem _ ha)) h2 h
          exact ⟨h3.trans h1, h4⟩
    obtain ⟨h1, h2⟩ := key (by rcases he with rfl | rfl | rfl | rfl <;> simp [isNl]) hq h
    refine ⟨?_, .inr h2⟩
    rw [h1]
    have : p.rm.st = .inQuoted := hq
    rw [step, this]
  · have hend : p'= { p.ended with st := .startRecord } := by
      rcases he with rfl | rfl | rfl | rfl
      · rw [List.map_nil, List.nil_append, stepToks, eol_ended hi hq] at h
        cases h
        unfold Parser.ended
        split
        · next h1 => rw [← h1]
        · rfl
      · rw [List.map_cons, List.map_nil, List.cons_append, List.nil_append, stepToks, nl_ended hd (by rfl) hi hq] at h
        cases h; rfl
      · rw [List.map_cons, List.map_cons, List.map_nil, List.cons_append, List.cons_append, List.nil_append, stepToks, nl_ended hd (by rfl) hi hq] at h
        cases h; rfl
      · rw [List.map_cons, List.map_nil, List.cons_append, List.nil_append, stepToks, nl_ended hd (by rfl) hi hq] at h
        cases h; rfl
    have hst : p.ended.st = .startRecord := by
      unfold Parser.ended
      split
      · assumption
      · rfl
    have : p' = p.ended := by rw [hend, ← hst]
    subst this
    refine ⟨?_, .inl hst⟩
    rw [eol_ended (p := p.rm) hi hq, ended_rm]

theorem line_rm {d : Fmt} (hd : PlainNl d) {l k : Str} (hl : Chomped l k) {p p' : Parser} (hi : Inside p.st)
    (h : stepToks d p (lineToks k) = .ok p') :
    stepToks d p.rm (lineToks l) = .ok p'.rm ∧ (p'.st = .startRecord ∨ p'.st = .inQuoted) := by
  obtain ⟨h1, e, he, rfl⟩ := hl
  unfold lineToks at h ⊢
  rw [List.map_append, List.append_assoc, stepToks_append] at h
  rw [stepToks_append]
  cases hs : stepToks d p (l.map some) with
  | error x => rw [hs] at h; cases h
  | ok q =>
    rw [hs] at h
    obtain ⟨h2, h3⟩ := body_rm hd h1 hi hs
    obtain ⟨h4, h5⟩ := end_rm hd he h3 h
    rw [h2]
    refine ⟨?_, h5⟩
    show stepToks d q.rm [none] = _
    rw [stepToks, h4]
    rfl

/-- The record read from lines without line ends, given the record read from the whole lines. -/
def RecordRm (d : Fmt) (q : Parser) (ls : List Str) : Option (List Str × List Str) → Prop
  | none => nextRecord d q ls = .ok none
  | some (row, rest) => ∃ rest', All2 Chomped rest' rest ∧ nextRecord d q ls = .ok (some (row.map withoutBreaks, rest'))

/-- A record. -/
theorem record_rm {d : Fmt} (hd : PlainNl d) {ls ks : List Str} (hl : All2 Chomped ls ks) {p : Parser} (hp : p = .init ∨ p.st = .inQuoted)
    {r : Option (List Str × List Str)} (h : nextRecord d p ks = .ok r) :
    RecordRm d p.rm ls r := by
  induction hl generalizing p with
  | nil =>
    unfold nextRecord at h
    rcases hp with rfl | hp
    · cases h; rfl
    · have hp' : p.rm.st = .inQuoted := hp
      rw [hp] at h
      simp only [beq_self_eq_true, Bool.or_true, if_true] at h
      split at h
      · cases h
      · next h1 =>
        cases h
        refine ⟨[], .nil, ?_⟩
        unfold nextRecord
        rw [hp']
        simp only [beq_self_eq_true, Bool.or_true, if_true]
        rw [if_neg h1]
        unfold Parser.rm
        simp
  | @cons l k ls ks h1 h2 ih =>
    unfold nextRecord at h
    have hi : Inside p.st := by
      rcases hp with rfl | hp
      · simp [Inside, Parser.init]
      · simp [Inside, hp]
    cases hs : stepToks d p (lineToks k) with
    | error e => rw [hs] at h; cases h
    | ok p' =>
      rw [hs] at h
      dsimp only at h
      obtain ⟨h3, h4⟩ := line_rm hd h1 hi hs
      have hst : p'.rm.st = p'.st := rfl
      split at h
      · next h5 =>
        cases h
        refine ⟨ls, h2, ?_⟩
        unfold nextRecord
        rw [h3]
        dsimp only
        rw [hst, if_pos h5]
        rfl
      · next h5 =>
        have hn : nextRecord d p.rm (l :: ls) = nextRecord d p'.rm ls := by
          conv => lhs; unfold nextRecord
          rw [h3]
          dsimp only
          rw [hst, if_neg h5]
        have := ih (.inr (h4.resolve_left h5)) h
        cases r with
        | none => exact hn.trans this
        | some q =>
          obtain ⟨rest', a, b⟩ := this
          exact ⟨rest', a, hn.trans b⟩

theorem readRowsFuel_rm {d : Fmt} (hd : PlainNl d) (n : Nat) {ls ks : List Str} (hl : All2 Chomped ls ks) {rows : List (List Str)}
    (h : readRowsFuel d n ks = (rows, none)) : readRowsFuel d n ls = (rows.map (·.map withoutBreaks), none) := by
  induction n generalizing ls ks rows with
  | zero => cases h; rfl
  | succ n ih =>
    rw [readRowsFuel] at h ⊢
    cases hr : nextRecord d .init ks with
    | error e => rw [hr] at h; cases h
    | ok r =>
      rw [hr] at h
      have := record_rm hd hl (.inl rfl) hr
      cases r with
      | none =>
        cases h
        rw [show nextRecord d .init ls = .ok none from this]
        rfl
      | some q =>
        obtain ⟨row, rest⟩ := q
        dsimp only at h
        obtain ⟨rest', h1, h2⟩ := this
        rw [show nextRecord d .init ls = _ from h2]
        cases hq : readRowsFuel d n rest with
        | mk rs e =>
          rw [hq] at h
          dsimp only at h
          injection h with h3 h4
          subst h3 h4
          dsimp only
          rw [ih h1 hq]
          rfl

theorem All2.length_eq {α β : Type} {R : α → β → Prop} {as : List α} {bs : List β} (h : All2 R as bs) : as.length = bs.length := by
  induction h with
  | nil => rfl
  | cons _ _ ih => rw [List.length_cons, List.length_cons, ih]

/-- Lines without line ends give the cells of the text, without line breaks. -/
theorem readRows_rm {d : Fmt} (hd : PlainNl d) {text : Str} {ls ks : List Str} (hl : LinesOf text ls ks) {rows : List (List Str)}
    (h : readRows d (splitLines text) = (rows, none)) : readRows d ls = (rows.map (·.map withoutBreaks), none) := by
  rw [splitLines_of hl] at h
  unfold readRows at h ⊢
  rw [All2.length_eq (chomped_of hl)]
  exact readRowsFuel_rm hd _ (chomped_of hl) h

end Csvw.CsvLib
