import Verif.Props.C97b
import Verif.Props.C10_C13
/-!
# C97, continued: `rewrite` with `lineterminator`
-/

namespace Csvw.Props
open Csvw Dsv CsvLib Spec

section
variable (d : Fmt) (lt : Str)

theorem step_lt (p : Parser) (t : Option Char) : step { d with lineterminator := lt } p t = step d p t := rfl

theorem stepToks_lt (p : Parser) (ts : List (Option Char)) : stepToks { d with lineterminator := lt } p ts = stepToks d p ts := by
  induction ts generalizing p with
  | nil => rfl
  | cons t ts ih =>
    simp only [stepToks, step_lt]
    cases step d p t with
    | error e => rfl
    | ok p' => exact ih p'

theorem nextRecord_lt (p : Parser) (ls : List Str) : nextRecord { d with lineterminator := lt } p ls = nextRecord d p ls := by
  induction ls generalizing p with
  | nil => rfl
  | cons l ls ih =>
    simp only [nextRecord, stepToks_lt]
    cases stepToks d p (lineToks l) with
    | error e => rfl
    | ok p' => dsimp only; rw [ih]

theorem readRowsFuel_lt (n : Nat) (ls : List Str) : readRowsFuel { d with lineterminator := lt } n ls = readRowsFuel d n ls := by
  induction n generalizing ls with
  | zero => rfl
  | succ n ih =>
    simp only [readRowsFuel, nextRecord_lt]
    cases nextRecord d .init ls with
    | error e => rfl
    | ok r => cases r with
      | none => rfl
      | some r => dsimp only; rw [ih]

end

theorem readRows_lt (d : Fmt) (lt : Str) (ls : List Str) : readRows { d with lineterminator := lt } ls = readRows d ls := readRowsFuel_lt d lt _ ls

theorem readFile_lt (cfg : Cfg) (lt : Str) (text : Str) : readFile (withTerminator cfg lt) text = readFile cfg text := by
  unfold readFile openText withTerminator
  simp only [readRows_lt]

theorem readFileAt_lt (cfg : Cfg) (lt : Str) (l : Option Str) (text : Str) : readFileAt (withTerminator cfg lt) l text = readFileAt cfg l text := by
  unfold readFileAt
  simp only [readFile_lt]
  unfold withTerminator
  simp only [readRows_lt]

/-- **C97** `rewrite(fname, visitor, lineterminator=lt)` applies the visitor to the rows which are read with this argument, and leaves a file from which exactly
the visitor's results are read, with and without the argument. -/
theorem C97_rewrite {σ ρ : Type} [DecidableEq ρ] (v : CsvVer) (buf : Buffering) (sameDevice : Bool) (fs : Fs ρ) (fname tmp : ρ) (htmp : tmp ≠ fname)
    {lt : Str} (hlt : lt = ['\n'] ∨ lt = ['\r', '\n'] ∨ lt = ['\r']) (hv' : v.quoteNl = true ∨ lt = ['\r', '\n']) (vis : Visitor σ) (st st' : σ) (content : Str)
    (rows out : List (List Str)) (hread : readFileAt Cfg.default (some lt) content = .ok (rows, none))
    (hv : Spec.Visits vis st 0 rows st' out) (hout : DefaultStorable out) :
    ∃ ops text, rewriteAt v Cfg.default lt buf sameDevice fname tmp vis st content = (ops, .ok st') ∧ execAll fs ops fname = some text ∧
      readFileAt Cfg.default (some lt) text = .ok (out, none) ∧ readFile Cfg.default text = (out, none) := by
  have w : WF v (withTerminator Cfg.default lt).fmt := by
    refine ⟨(by show isNl ',' = false; decide), fun _ => ⟨'"', rfl, (by show '"' ≠ ','; decide), by decide⟩, (by rintro e ⟨⟩), ?_, ?_, (by intro h; cases h)⟩
    · rcases hv' with h | h
      · exact .inl h
      · subst h; exact .inr ⟨by simp [withTerminator], by simp [withTerminator]⟩
    · rcases hlt with h | h | h
      · exact .inr (.inl h)
      · exact .inl h
      · exact .inr (.inr h)
  have hok : ∀ r ∈ out, ∀ s ∈ r, CellOk (withTerminator Cfg.default lt).fmt s :=
    fun r hr s hs => ⟨hout.1 r hr s hs, by simp [withTerminator, Cfg.default, Fmt.excel]⟩
  obtain ⟨text, ht⟩ := writeRows_isOk (v := v) (d := (withTerminator Cfg.default lt).fmt) (by simp [withTerminator, Cfg.default, Fmt.excel]) (.inl rfl)
    (out.map (·.map (escapeDoubled (withTerminator Cfg.default lt).fmt)))
  have hw : writeFile v (withTerminator Cfg.default lt) out = .ok text := by rw [writeFile_eq]; exact ht
  have r1 : readFile (withTerminator Cfg.default lt) text = (out, none) := by
    show readFile { fmt := (withTerminator Cfg.default lt).fmt } text = _
    rw [readFile_none]
    exact read_written (dl := none) w (dblOk_false (.inl rfl)) (escapeDoubled_none (.inl rfl) out) hok hout.2 (by show Spec.bom ≠ ','; decide) (by simp [withTerminator, Cfg.default, Fmt.excel]; decide) (by simp [withTerminator, Cfg.default, Fmt.excel]) hw
  have r2 : readFileAt (withTerminator Cfg.default lt) (some lt) text = .ok (readFile (withTerminator Cfg.default lt) text) :=
    written_at (dl := none) w ⟨(by show isNl ',' = false; decide), (by rintro q ⟨⟩; decide), (by rintro e ⟨⟩)⟩
      (by
        rcases hlt with h | h | h
        · exact .inl ⟨.inl h, List.suffix_refl _⟩
        · exact .inl ⟨.inr h, List.suffix_refl _⟩
        · exact .inr ⟨h, h⟩) rfl hok hout.2 (by show Spec.bom ≠ ','; decide)
      (by simp [withTerminator, Cfg.default, Fmt.excel]; decide) hw
  rw [r1, readFileAt_lt] at r2
  rw [readFile_lt] at r1
  obtain ⟨ws, h1, h2⟩ := rewriteLoop_of_visits hv hw
  refine ⟨_, text, ?_, execAll_complete buf sameDevice htmp fs text, r2, r1⟩
  simp only [rewriteAt, hread, h1, h2]

/-- **C97** `rewrite` with `lineterminator` never leaves a half-written file. -/
theorem C97_rewrite_atomic {σ ρ : Type} [DecidableEq ρ] (v : CsvVer) (cfg : Cfg) (lt : Str) (buf : Buffering)
    (fs : Fs ρ) (fname tmp : ρ) (htmp : tmp ≠ fname) (vis : Visitor σ) (st : σ) (content : Str) :
    NeverTorn fs fname (rewriteAt v cfg lt buf true fname tmp vis st content) := by
  unfold rewriteAt
  split
  · have e : ∀ k, execAll fs (([.create tmp] : List (FsOp ρ)).take k) fname = fs fname := by
      intro k
      cases k with
      | zero => rfl
      | succ k =>
        rw [List.take_succ_cons, List.take_nil]
        show (fs.put tmp (some [])) fname = fs fname
        unfold Fs.put
        rw [if_neg (Ne.symm htmp)]
    exact ⟨fun k => .inl (e k), fun _ k => e k⟩
  · simp only
    split
    · exact neverTorn_ok buf htmp fs _ _
    · exact neverTorn_error buf htmp fs _ _

/-- **C97** Conversely, whenever `rewrite` with `lineterminator` succeeds, the old content was read completely, the visitor succeeded on every row, and the new
content are its results, written with this line terminator. -/
theorem C97_rewrite_success {σ ρ : Type} (v : CsvVer) (cfg : Cfg) (lt : Str) (buf : Buffering) (sameDevice : Bool)
    (fname tmp : ρ) (vis : Visitor σ) (st st' : σ) (content : Str)
    (h : (rewriteAt v cfg lt buf sameDevice fname tmp vis st content).2 = .ok st') :
    ∃ rows out text, readFileAt cfg (some lt) content = .ok (rows, none) ∧ Spec.Visits vis st 0 rows st' out ∧
      writeFile v { cfg with fmt := { cfg.fmt with lineterminator := lt } } out = .ok text ∧ ∀ [DecidableEq ρ] (fs : Fs ρ), tmp ≠ fname →
        execAll fs (rewriteAt v cfg lt buf sameDevice fname tmp vis st content).1 fname = some text := by
  cases hr : readFileAt cfg (some lt) content with
  | error e =>
    unfold rewriteAt at h
    rw [hr] at h
    cases h
  | ok r =>
    have hl : ∃ ws s, rewriteLoop v (withTerminator cfg lt) vis r.2 st 0 r.1 = (ws, .ok s) ∧ s = st' := by
      revert h
      unfold rewriteAt
      rw [hr]
      simp only
      split
      · next s hs => intro h; cases h; exact ⟨_, _, Prod.ext rfl hs, rfl⟩
      · simp
    obtain ⟨ws, s, hl, rfl⟩ := hl
    obtain ⟨h1, out, h2, h3⟩ := rewriteLoop_ok hl
    refine ⟨r.1, out, ws.flatten, by rw [← h1], h2, h3, ?_⟩
    intro _ fs htmp
    simp only [rewriteAt, hr, hl]
    exact execAll_complete buf sameDevice htmp fs _

/-- Non-vacuity: the lines of a written file get other ends; a cell keeps its line break. -/
example : execAll (fun p => if p then some "a,\"b\r\nc\"\r\n\r\n".toList else none)
      (rewriteAt .py311 Cfg.default ['\n'] Buffering.whole true true false keepAll () "a,\"b\r\nc\"\r\n\r\n".toList).1 true = some "a,\"b\r\nc\"\n\n".toList ∧
    readFileAt Cfg.default (some ['\n']) "a,\"b\r\nc\"\r\n\r\n".toList = .ok ([[['a'], "b\r\nc".toList], []], none) := ⟨by decide +kernel, by decide +kernel⟩

end Csvw.Props
