import Verif.Model.Terminators
import Verif.Lemmas.Coarse
import Verif.Lemmas.CsvRoundtrip
/-!
# Reading back written rows from lines which end only with the line terminator
-/

namespace Csvw.CsvLib
open Csvw Dsv

variable {d : Fmt} {p p' : Parser}

theorem step_nl_field (h : step d p (some c) = .ok p') (hs : p'.st = .afterEscapedCrnl) (hc : isNl c = true) : p'.field ≠ [] := by
  have hadd : ∀ {st : St}, addChar p st c = .ok p' → p'.field ≠ [] := by
    intro st h
    obtain ⟨_, rfl⟩ := addChar_ok_iff h
    simp
  have hin : ∀ {st : St}, stepInField d p st (some c) = .ok p' → p'.field ≠ [] := by
    intro st h
    unfold stepInField at h
    simp only [hc, if_true, Except.ok.injEq] at h
    rw [← h] at hs; cases hs
  have hst : stepStartField d p (some c) = .ok p' → p'.field ≠ [] := by
    intro h
    unfold stepStartField at h
    simp only [hc, if_true, Except.ok.injEq] at h
    rw [← h] at hs; cases hs
  unfold step at h
  split at h
  · simp only [hc, if_true, Except.ok.injEq] at h; rw [← h] at hs; cases hs
  · exact hst h
  · simp only [hc, if_true] at h; exact hadd h
  · exact hin h
  · exact hin h
  · dsimp only at h
    split at h
    · cases h; cases hs
    · split at h
      · cases h
        dsimp only at hs
        split at hs <;> cases hs
      · exact hadd h
  · exact hadd h
  · dsimp only at h
    split at h
    · exact hadd h
    · split at h
      · cases h; cases hs
      · simp only [hc, if_true, Except.ok.injEq] at h; rw [← h] at hs; cases hs
  · next h1 => simp only [hc, if_true, Except.ok.injEq] at h; rw [← h, h1] at hs; cases hs

/-- The end of a line after a line break. -/
theorem nl_none (hd : NoNl d) {c : Char} (hc : isNl c = true) (h : step d p (some c) = .ok p') :
    (∃ p'', step d p' none = .ok p'' ∧ p''.st = .startRecord) ∨
      (step d p' none = .ok p' ∧ p'.st ≠ .startRecord ∧ (p'.field ≠ [] ∨ p'.st = .inQuoted)) := by
  rcases nl_state hd hc h with h1 | h1 | h1
  · left
    exact ⟨{ p' with st := .startRecord }, by unfold step; rw [h1], rfl⟩
  · right
    exact ⟨by unfold step; rw [h1], by rw [h1]; simp, .inr h1⟩
  · right
    exact ⟨by unfold step; rw [h1], by rw [h1]; simp, .inl (step_nl_field h h1 hc)⟩

theorem endInput_ne (h : p.field ≠ [] ∨ p.st = .inQuoted) : endInput d p ≠ ([], none) := by
  unfold endInput
  rw [if_pos (by
    rcases h with h | h
    · cases hf : p.field <;> simp_all
    · simp [h])]
  split <;> simp

/-- Text which ends with a line break has a row, or an error. -/
theorem run_ne (hd : NoNl d) {e : Char} (he : isNl e = true) (text : Str) (p : Parser) (ml : Bool) : run d p ml (text ++ [e]) ≠ ([], none) := by
  induction text generalizing p ml with
  | nil =>
    rw [List.nil_append, run]
    cases hs : step d p (some e) with
    | error _ => simp
    | ok p' =>
      dsimp only
      rw [if_neg (by simp), if_pos he]
      rcases nl_none hd he hs with ⟨p'', h1, h2⟩ | ⟨h1, h2, h3⟩
      · rw [h1]; simp [h2]
      · rw [h1]
        simp only [h2, if_false]
        rw [run, if_neg (by simp)]
        exact endInput_ne h3
  | cons c cs ih =>
    rw [List.cons_append, run]
    cases hs : step d p (some c) with
    | error e => simp
    | ok p' =>
      dsimp only
      split
      · exact ih p' true
      · split
        · cases step d p' none with
          | error e => simp
          | ok p'' =>
            dsimp only
            split
            · simp
            · exact ih p'' false
        · exact ih p' true

/-- One more line gives at most one row. -/
theorem run_line {e : Char} (he : isNl e = true) (p : Parser) (ml : Bool) : (run d p ml [e]).1.length ≤ 1 := by
  have hei : ∀ p, (endInput d p).1.length ≤ 1 := by
    intro p
    unfold endInput
    split
    · split <;> simp
    · simp
  rw [run]
  split
  · simp
  · rw [if_neg (by simp), if_pos he]
    split
    · simp
    · split
      · rw [run, if_neg (by simp)]
        simp [endInput, Parser.init]
      · rw [run, if_neg (by simp)]
        exact hei _

/-- If a text which ends with `\n` is one row, whatever follows, then its lines which end only with `lt` are this row. -/
theorem segment (hd : NoNl d) {lt : Str} (hlt : lt = ['\n'] ∨ lt = ['\r', '\n']) (row : List Str) (b : Str) (p0 p : Parser) (acc : Str)
    (h : stepToks d p0 (acc.reverse.map some) = .ok p)
    (hr : ∀ rest, run d p (!acc.isEmpty) (b ++ '\n' :: rest) = (row :: (run d .init false rest).1, (run d .init false rest).2)) (R : List Str) :
    readFrom d p0 (linesAtGo lt acc (b ++ ['\n']) ++ R) = (row :: (readFrom d .init R).1, (readFrom d .init R).2) := by
  have hend : ∀ p', step d p (some '\n') = .ok p' → b = [] →
      ∃ p'', step d p' none = .ok p'' ∧ p''.st = .startRecord ∧ p''.fields = row := by
    rintro p' hs rfl
    have h0 := hr []
    have h1 := hr ['\n']
    rw [List.nil_append, run, hs] at h0 h1
    dsimp only at h0 h1
    rw [if_neg (by rintro ⟨h, -⟩; cases h), if_pos (by decide)] at h0 h1
    rcases nl_none hd (by decide) hs with ⟨p'', g1, g2⟩ | ⟨g1, g2, g3⟩
    · rw [g1] at h0
      simp only [g2, if_true] at h0
      exact ⟨p'', g1, g2, (List.cons.inj (Prod.mk.inj h0).1).1⟩
    · exfalso
      rw [g1] at h1
      simp only [g2, if_false] at h1
      have h2 := run_line (d := d) (e := '\n') (by decide) p' false
      rw [h1] at h2
      have h3 : (run d .init false ['\n']).1 = [[]] := by
        rw [run]
        simp [step, Parser.init, isNl, run, endInput]
      rw [h3] at h2
      simp at h2
  induction b generalizing p0 p acc with
  | nil =>
    cases hs : step d p (some '\n') with
    | error e =>
      have := hr []
      simp [run, hs] at this
    | ok p' =>
      obtain ⟨p'', g1, g2, g3⟩ := hend p' hs rfl
      have e : linesAtGo lt acc ([] ++ ['\n']) = [('\n' :: acc).reverse] := by
        rw [List.nil_append, linesAtGo]
        split
        · rfl
        · rfl
      rw [e, List.singleton_append, readFrom_cons, List.reverse_cons, stepToks_line h]
      simp only [lineToks, List.map_cons, List.map_nil, List.cons_append, List.nil_append, stepToks, hs, g1, g2, if_true, g3]
  | cons c b ih =>
    have hr' := hr
    cases hs : step d p (some c) with
    | error e =>
      have := hr []
      simp [run, hs] at this
    | ok p' =>
      have h' : stepToks d p0 ((c :: acc).reverse.map some) = .ok p' := by
        rw [List.reverse_cons, List.map_append, stepToks_append, h]
        simp [stepToks, hs]
      have hnext : ∀ (p0 q : Parser) (acc : Str), stepToks d p0 (acc.reverse.map some) = .ok q →
          (∃ ml, ∀ rest, run d q ml (b ++ '\n' :: rest) = (row :: (run d .init false rest).1, (run d .init false rest).2)) →
          readFrom d p0 (linesAtGo lt acc (b ++ ['\n']) ++ R) = (row :: (readFrom d .init R).1, (readFrom d .init R).2) := by
        rintro p0 q acc h ⟨ml, g⟩
        have g' : ∀ rest, run d q (!acc.isEmpty) (b ++ '\n' :: rest) = (row :: (run d .init false rest).1, (run d .init false rest).2) := by
          intro rest
          rw [run_ml d q _ ml (by simp)]
          exact g rest
        refine ih p0 q acc h g' ?_
        rintro q' hq rfl
        have h0 := g []
        have h1 := g ['\n']
        rw [List.nil_append, run, hq] at h0 h1
        dsimp only at h0 h1
        rw [if_neg (by rintro ⟨h, -⟩; cases h), if_pos (by decide)] at h0 h1
        rcases nl_none hd (by decide) hq with ⟨p'', g1, g2⟩ | ⟨g1, g2, g3⟩
        · rw [g1] at h0
          simp only [g2, if_true] at h0
          exact ⟨p'', g1, g2, (List.cons.inj (Prod.mk.inj h0).1).1⟩
        · exfalso
          rw [g1] at h1
          simp only [g2, if_false] at h1
          have h2 := run_line (d := d) (e := '\n') (by decide) q' false
          rw [h1] at h2
          have h3 : (run d .init false ['\n']).1 = [[]] := by
            rw [run]
            simp [step, Parser.init, isNl, run, endInput]
          rw [h3] at h2
          simp at h2
      simp only [List.cons_append] at hr
      by_cases hcr : c = '\r' ∧ (b ++ ['\n']).head? = some '\n'
      · have hcr' : ∀ rest, (b ++ '\n' :: rest).head? = some '\n' := by
          intro rest
          cases b with
          | nil => rfl
          | cons a b => exact hcr.2
        have e : linesAtGo lt acc (c :: b ++ ['\n']) = linesAtGo lt (c :: acc) (b ++ ['\n']) := by
          rw [List.cons_append, linesAtGo, if_neg]
          rw [hcr.1]
          rcases hlt with rfl | rfl <;> simp [List.isPrefixOf]
        rw [e]
        refine hnext p0 p' (c :: acc) h' ⟨true, fun rest => ?_⟩
        have := hr rest
        rw [run, hs] at this
        dsimp only at this
        rw [if_pos ⟨hcr.1, hcr' rest⟩] at this
        exact this
      · have hcr' : ∀ rest, ¬ (c = '\r' ∧ (b ++ '\n' :: rest).head? = some '\n') := by
          intro rest
          cases b with
          | nil => exact hcr
          | cons a b => exact hcr
        by_cases hn : isNl c = true
        · have hrun : ∀ rest, (match step d p' none with
              | .error e => ([], some e)
              | .ok p'' => if p''.st = .startRecord then
                  (p''.fields :: (run d .init false (b ++ '\n' :: rest)).1, (run d .init false (b ++ '\n' :: rest)).2)
                else run d p'' false (b ++ '\n' :: rest)) = (row :: (run d .init false rest).1, (run d .init false rest).2) := by
            intro rest
            have := hr rest
            rw [run, hs] at this
            dsimp only at this
            rw [if_neg (hcr' rest), if_pos hn] at this
            exact this
          rcases nl_none hd hn hs with ⟨p'', g1, g2⟩ | ⟨g1, g2, g3⟩
          · exfalso
            have := hrun []
            rw [g1] at this
            simp only [g2, if_true] at this
            obtain ⟨e1, e2⟩ := Prod.mk.inj this
            refine run_ne hd (e := '\n') (by decide) b .init false (Prod.ext ?_ e2)
            have e3 := (List.cons.inj e1).2
            rw [e3]
            simp [run, endInput, Parser.init]
          · have hq : ∀ rest, run d p' false (b ++ '\n' :: rest) = (row :: (run d .init false rest).1, (run d .init false rest).2) := by
              intro rest
              have := hrun rest
              rw [g1] at this
              simp only [g2, if_false] at this
              exact this
            rw [List.cons_append, linesAtGo]
            split
            · rw [List.cons_append, readFrom_cons, List.reverse_cons, stepToks_line h]
              simp only [lineToks, List.map_cons, List.map_nil, List.cons_append, List.nil_append, stepToks, hs, g1, g2, if_false]
              exact hnext p' p' [] rfl ⟨false, hq⟩
            · exact hnext p0 p' (c :: acc) h' ⟨false, hq⟩
        · have e : linesAtGo lt acc (c :: b ++ ['\n']) = linesAtGo lt (c :: acc) (b ++ ['\n']) := by
            rw [List.cons_append, linesAtGo, if_neg]
            intro hp
            have hc : c = '\n' := by
              rcases hlt with rfl | rfl <;> simp [List.isPrefixOf] at hp
              · exact hp.symm
              · exact hp.1.symm
            exact hn (by rw [hc]; decide)
          rw [e]
          refine hnext p0 p' (c :: acc) h' ⟨true, fun rest => ?_⟩
          have := hr rest
          rw [run, hs] at this
          dsimp only at this
          rw [if_neg (hcr' rest), if_neg hn] at this
          exact this

/-- If a text which ends with `\r` is one row, whatever follows (but not `\n`), then its lines which end only with `\r` are this row. -/
theorem segmentCr (hd : NoNl d) (row : List Str) (b : Str) (p0 p : Parser) (acc : Str)
    (h : stepToks d p0 (acc.reverse.map some) = .ok p)
    (hr : ∀ rest, rest.head? ≠ some '\n' → run d p (!acc.isEmpty) (b ++ '\r' :: rest) = (row :: (run d .init false rest).1, (run d .init false rest).2)) (R : List Str) :
    readFrom d p0 (linesAtGo ['\r'] acc (b ++ ['\r']) ++ R) = (row :: (readFrom d .init R).1, (readFrom d .init R).2) := by
  have hend : ∀ p', step d p (some '\r') = .ok p' → b = [] →
      ∃ p'', step d p' none = .ok p'' ∧ p''.st = .startRecord ∧ p''.fields = row := by
    rintro p' hs rfl
    have h0 := hr [] (by simp)
    have h1 := hr ['\r'] (by simp)
    rw [List.nil_append, run, hs] at h0 h1
    dsimp only at h0 h1
    rw [if_neg (by simp), if_pos (by decide)] at h0 h1
    rcases nl_none hd (by decide) hs with ⟨p'', g1, g2⟩ | ⟨g1, g2, g3⟩
    · rw [g1] at h0
      simp only [g2, if_true] at h0
      exact ⟨p'', g1, g2, (List.cons.inj (Prod.mk.inj h0).1).1⟩
    · exfalso
      rw [g1] at h1
      simp only [g2, if_false] at h1
      have h2 := run_line (d := d) (e := '\r') (by decide) p' false
      rw [h1] at h2
      have h3 : (run d .init false ['\r']).1 = [[]] := by
        rw [run]
        simp [step, Parser.init, isNl, run, endInput]
      rw [h3] at h2
      simp at h2
  induction b generalizing p0 p acc with
  | nil =>
    cases hs : step d p (some '\r') with
    | error e =>
      have := hr [] (by simp)
      simp [run, hs] at this
    | ok p' =>
      obtain ⟨p'', g1, g2, g3⟩ := hend p' hs rfl
      have e : linesAtGo ['\r'] acc ([] ++ ['\r']) = [('\r' :: acc).reverse] := by
        rw [List.nil_append, linesAtGo]
        split
        · rfl
        · rfl
      rw [e, List.singleton_append, readFrom_cons, List.reverse_cons, stepToks_line h]
      simp only [lineToks, List.map_cons, List.map_nil, List.cons_append, List.nil_append, stepToks, hs, g1, g2, if_true, g3]
  | cons c b ih =>
    have hr' := hr
    cases hs : step d p (some c) with
    | error e =>
      have := hr [] (by simp)
      simp [run, hs] at this
    | ok p' =>
      have h' : stepToks d p0 ((c :: acc).reverse.map some) = .ok p' := by
        rw [List.reverse_cons, List.map_append, stepToks_append, h]
        simp [stepToks, hs]
      have hnext : ∀ (p0 q : Parser) (acc : Str), stepToks d p0 (acc.reverse.map some) = .ok q →
          (∃ ml, ∀ rest, rest.head? ≠ some '\n' → run d q ml (b ++ '\r' :: rest) = (row :: (run d .init false rest).1, (run d .init false rest).2)) →
          readFrom d p0 (linesAtGo ['\r'] acc (b ++ ['\r']) ++ R) = (row :: (readFrom d .init R).1, (readFrom d .init R).2) := by
        rintro p0 q acc h ⟨ml, g⟩
        have g' : ∀ rest, rest.head? ≠ some '\n' → run d q (!acc.isEmpty) (b ++ '\r' :: rest) = (row :: (run d .init false rest).1, (run d .init false rest).2) := by
          intro rest hrest
          rw [run_ml d q _ ml (by simp)]
          exact g rest hrest
        refine ih p0 q acc h g' ?_
        rintro q' hq rfl
        have h0 := g [] (by simp)
        have h1 := g ['\r'] (by simp)
        rw [List.nil_append, run, hq] at h0 h1
        dsimp only at h0 h1
        rw [if_neg (by simp), if_pos (by decide)] at h0 h1
        rcases nl_none hd (by decide) hq with ⟨p'', g1, g2⟩ | ⟨g1, g2, g3⟩
        · rw [g1] at h0
          simp only [g2, if_true] at h0
          exact ⟨p'', g1, g2, (List.cons.inj (Prod.mk.inj h0).1).1⟩
        · exfalso
          rw [g1] at h1
          simp only [g2, if_false] at h1
          have h2 := run_line (d := d) (e := '\r') (by decide) q' false
          rw [h1] at h2
          have h3 : (run d .init false ['\r']).1 = [[]] := by
            rw [run]
            simp [step, Parser.init, isNl, run, endInput]
          rw [h3] at h2
          simp at h2
      simp only [List.cons_append] at hr
      by_cases hcr : c = '\r' ∧ (b ++ ['\r']).head? = some '\n'
      · have hcr' : ∀ rest, (b ++ '\r' :: rest).head? = some '\n' := by
          intro rest
          cases b with
          | nil => exact absurd hcr.2 (by simp)
          | cons a b => exact hcr.2
        have hq : ∀ rest, rest.head? ≠ some '\n' → run d p' true (b ++ '\r' :: rest) = (row :: (run d .init false rest).1, (run d .init false rest).2) := by
          intro rest hrest
          have := hr rest hrest
          rw [run, hs] at this
          dsimp only at this
          rw [if_pos ⟨hcr.1, hcr' rest⟩] at this
          exact this
        have hn : isNl c = true := by rw [hcr.1]; decide
        by_cases heat : p'.st = .eatCrnl
        · exfalso
          cases b with
          | nil => exact absurd hcr.2 (by simp)
          | cons a b =>
            have ha : a = '\n' := by simpa using hcr.2
            subst ha
            have := hq [] (by simp)
            rw [List.cons_append] at this
            conv at this => lhs; rw [run, step_eat heat (by decide)]
            dsimp only at this
            rw [if_neg (by rintro ⟨h, -⟩; cases h), if_pos (by decide)] at this
            have hs2 : step d p' none = .ok { p' with st := .startRecord } := by unfold step; rw [heat]
            rw [hs2] at this
            simp only [if_true] at this
            obtain ⟨e1, e2⟩ := Prod.mk.inj this
            refine run_ne hd (e := '\r') (by decide) b .init false (Prod.ext ?_ e2)
            have e3 := (List.cons.inj e1).2
            rw [e3]
            simp [run, endInput, Parser.init]
        · rcases nl_none hd hn hs with ⟨p'', g1, g2⟩ | ⟨g1, g2, g3⟩
          · exfalso
            rcases nl_state hd hn hs with h1 | h1 | h1
            · exact heat h1
            · have : step d p' none = .ok p' := by unfold step; rw [h1]
              rw [this] at g1; cases g1; rw [h1] at g2; cases g2
            · have : step d p' none = .ok p' := by unfold step; rw [h1]
              rw [this] at g1; cases g1; rw [h1] at g2; cases g2
          · rw [List.cons_append, linesAtGo]
            split
            · rw [List.cons_append, readFrom_cons, List.reverse_cons, stepToks_line h]
              simp only [lineToks, List.map_cons, List.map_nil, List.cons_append, List.nil_append, stepToks, hs, g1, g2, if_false]
              exact hnext p' p' [] rfl ⟨true, hq⟩
            · exact hnext p0 p' (c :: acc) h' ⟨true, hq⟩
      · have hcr' : ∀ rest, ¬ (c = '\r' ∧ (b ++ '\r' :: rest).head? = some '\n') := by
          intro rest
          cases b with
          | nil => exact hcr
          | cons a b => exact hcr
        by_cases hn : isNl c = true
        · have hrun : ∀ rest, rest.head? ≠ some '\n' → (match step d p' none with
              | .error e => ([], some e)
              | .ok p'' => if p''.st = .startRecord then
                  (p''.fields :: (run d .init false (b ++ '\r' :: rest)).1, (run d .init false (b ++ '\r' :: rest)).2)
                else run d p'' false (b ++ '\r' :: rest)) = (row :: (run d .init false rest).1, (run d .init false rest).2) := by
            intro rest hrest
            have := hr rest hrest
            rw [run, hs] at this
            dsimp only at this
            rw [if_neg (hcr' rest), if_pos hn] at this
            exact this
          rcases nl_none hd hn hs with ⟨p'', g1, g2⟩ | ⟨g1, g2, g3⟩
          · exfalso
            have := hrun [] (by simp)
            rw [g1] at this
            simp only [g2, if_true] at this
            obtain ⟨e1, e2⟩ := Prod.mk.inj this
            refine run_ne hd (e := '\r') (by decide) b .init false (Prod.ext ?_ e2)
            have e3 := (List.cons.inj e1).2
            rw [e3]
            simp [run, endInput, Parser.init]
          · have hq : ∀ rest, rest.head? ≠ some '\n' → run d p' false (b ++ '\r' :: rest) = (row :: (run d .init false rest).1, (run d .init false rest).2) := by
              intro rest hrest
              have := hrun rest hrest
              rw [g1] at this
              simp only [g2, if_false] at this
              exact this
            rw [List.cons_append, linesAtGo]
            split
            · rw [List.cons_append, readFrom_cons, List.reverse_cons, stepToks_line h]
              simp only [lineToks, List.map_cons, List.map_nil, List.cons_append, List.nil_append, stepToks, hs, g1, g2, if_false]
              exact hnext p' p' [] rfl ⟨false, hq⟩
            · exact hnext p0 p' (c :: acc) h' ⟨false, hq⟩
        · have e : linesAtGo ['\r'] acc (c :: b ++ ['\r']) = linesAtGo ['\r'] (c :: acc) (b ++ ['\r']) := by
            rw [List.cons_append, linesAtGo, if_neg]
            intro hp
            have hc : c = '\r' := by
              simp [List.isPrefixOf] at hp
              exact hp.symm
            exact hn (by rw [hc]; decide)
          rw [e]
          refine hnext p0 p' (c :: acc) h' ⟨true, fun rest hrest => ?_⟩
          have := hr rest hrest
          rw [run, hs] at this
          dsimp only at this
          rw [if_neg (hcr' rest), if_neg hn] at this
          exact this

theorem linesAt_append {lt : Str} (hlt : lt = ['\n'] ∨ lt = ['\r', '\n']) (b rest acc : Str) :
    linesAtGo lt acc (b ++ (lt ++ rest)) = linesAtGo lt acc (b ++ lt) ++ linesAtGo lt [] rest := by
  induction b generalizing acc with
  | nil => rcases hlt with rfl | rfl <;> simp [linesAtGo, List.isPrefixOf]
  | cons c b ih =>
    rw [List.cons_append, List.cons_append, linesAtGo, linesAtGo]
    split
    · rw [ih []]; rfl
    · rw [ih (c :: acc)]

/-- **Round trip** with lines which end only with `lt`, the line terminator or its end. -/
theorem roundtrip_at {v : CsvVer} (w : WF v d) (hd : NoNl d) {lt : Str} (hlt : lt = ['\n'] ∨ lt = ['\r', '\n']) (hl : lt <:+ d.lineterminator)
    {dbl : Bool} (hdbl : DblOk v d dbl) {rows : List (List Str)} {t : Str} (h : writeRows v d (rows.map (·.map (·.flatMap (pre d dbl)))) = .ok t)
    (hok : ∀ row ∈ rows, ∀ s ∈ row, CellOk d s) : readRows d (linesAtGo lt [] t) = (rows, none) := by
  rw [readRows_eq_readFrom]
  induction rows generalizing t with
  | nil =>
    simp [writeRows] at h; subst h
    rw [linesAtGo]
    simp [readFrom_nil, endInput, Parser.init]
  | cons row rows ih =>
    simp only [List.map_cons, writeRows] at h
    cases h1 : writeRow v d (row.map (·.flatMap (pre d dbl))) with
    | error e => rw [h1] at h; simp at h
    | ok a =>
      rw [h1] at h
      simp only at h
      cases h2 : writeRows v d (rows.map (·.map (·.flatMap (pre d dbl)))) with
      | error e => rw [h2] at h; simp at h
      | ok t2 =>
        rw [h2] at h
        simp only [Except.ok.injEq] at h
        subst h
        have hrow := fun rest => run_row w hdbl h1 (hok row List.mem_cons_self) (rest := rest)
          (by
            intro h
            rw [h] at hl
            obtain ⟨s, hl⟩ := hl
            have := congrArg List.getLast? hl
            rcases hlt with rfl | rfl <;> simp at this)
        have hb : ∃ b, a = b ++ lt := by
          have hb : ∃ b, a = b ++ d.lineterminator := by
            unfold writeRow at h1
            split at h1
            · cases h1
            · dsimp only at h1
              split at h1
              · split at h1
                · cases h1
                · cases h1; exact ⟨_, rfl⟩
                · cases h1; exact ⟨[], rfl⟩
              · cases h1; exact ⟨_, rfl⟩
          obtain ⟨b, rfl⟩ := hb
          obtain ⟨s, hs⟩ := hl
          exact ⟨b ++ s, by rw [← hs, List.append_assoc]⟩
        have hb2 : ∃ b, a = b ++ ['\n'] := by
          obtain ⟨b, rfl⟩ := hb
          rcases hlt with e | e
          · exact ⟨b, by rw [e]⟩
          · exact ⟨b ++ ['\r'], by rw [e]; simp⟩
        have e1 : linesAtGo lt [] (a ++ t2) = linesAtGo lt [] a ++ linesAtGo lt [] t2 := by
          obtain ⟨b, rfl⟩ := hb
          rw [List.append_assoc]
          exact linesAt_append hlt b t2 []
        rw [e1]
        obtain ⟨b, rfl⟩ := hb2
        rw [segment hd hlt row b .init .init [] rfl (by
          intro rest
          have := hrow rest
          rw [List.append_assoc] at this
          exact this)]
        rw [ih h2 fun r hr => hok r (List.mem_cons_of_mem _ hr)]


theorem linesAtCr_append (b rest acc : Str) :
    linesAtGo ['\r'] acc (b ++ (['\r'] ++ rest)) = linesAtGo ['\r'] acc (b ++ ['\r']) ++ linesAtGo ['\r'] [] rest := by
  obtain ⟨lt, hlt⟩ : ∃ lt, lt = ['\r'] := ⟨_, rfl⟩
  rw [← hlt]
  induction b generalizing acc with
  | nil => subst hlt; simp [linesAtGo, List.isPrefixOf]
  | cons c b ih =>
    rw [List.cons_append, List.cons_append, linesAtGo, linesAtGo]
    split
    · rw [ih []]; rfl
    · rw [ih (c :: acc)]

/-- **Round trip** with lines which end only with `\r`, the line terminator. -/
theorem roundtrip_atCr {v : CsvVer} (w : WF v d) (hd : NoNl d) (hl : d.lineterminator = ['\r'])
    {dbl : Bool} (hdbl : DblOk v d dbl) {rows : List (List Str)} {t : Str} (h : writeRows v d (rows.map (·.map (·.flatMap (pre d dbl)))) = .ok t)
    (hok : ∀ row ∈ rows, ∀ s ∈ row, CellOk d s) : readRows d (linesAtGo ['\r'] [] t) = (rows, none) := by
  suffices h : readRows d (linesAtGo ['\r'] [] t) = (rows, none) ∧ t.head? ≠ some '\n' from h.1
  rw [readRows_eq_readFrom]
  induction rows generalizing t with
  | nil =>
    simp [writeRows] at h; subst h
    rw [linesAtGo]
    simp [readFrom_nil, endInput, Parser.init]
  | cons row rows ih =>
    simp only [List.map_cons, writeRows] at h
    cases h1 : writeRow v d (row.map (·.flatMap (pre d dbl))) with
    | error e => rw [h1] at h; simp at h
    | ok a =>
      rw [h1] at h
      simp only at h
      cases h2 : writeRows v d (rows.map (·.map (·.flatMap (pre d dbl)))) with
      | error e => rw [h2] at h; simp at h
      | ok t2 =>
        rw [h2] at h
        simp only [Except.ok.injEq] at h
        subst h
        have hb : ∃ b, a = b ++ ['\r'] := by
          have hb : ∃ b, a = b ++ d.lineterminator := by
            unfold writeRow at h1
            split at h1
            · cases h1
            · dsimp only at h1
              split at h1
              · split at h1
                · cases h1
                · cases h1; exact ⟨_, rfl⟩
                · cases h1; exact ⟨[], rfl⟩
              · cases h1; exact ⟨_, rfl⟩
          obtain ⟨b, rfl⟩ := hb
          exact ⟨b, by rw [hl]⟩
        have e1 : linesAtGo ['\r'] [] (a ++ t2) = linesAtGo ['\r'] [] a ++ linesAtGo ['\r'] [] t2 := by
          obtain ⟨b, rfl⟩ := hb
          rw [List.append_assoc]
          exact linesAtCr_append b t2 []
        have ih' := ih h2 fun r hr => hok r (List.mem_cons_of_mem _ hr)
        obtain ⟨g1, g2⟩ := row_head w hdbl h1 hl
        have hrow := fun rest hrest => run_row w hdbl h1 (hok row List.mem_cons_self) (rest := rest) fun _ => hrest
        refine ⟨?_, ?_⟩
        · rw [e1]
          obtain ⟨b, rfl⟩ := hb
          rw [segmentCr hd row b .init .init [] rfl (by
            intro rest hrest
            have := hrow rest hrest
            rw [List.append_assoc] at this
            exact this)]
          rw [ih'.1]
        · cases a with
          | nil => exact absurd rfl g2
          | cons c cs => simpa using g1

end Csvw.CsvLib
