import Verif.Lemmas.DsvRoundtrip
import Verif.Lemmas.CsvLimit
import Verif.Spec.Rewrite
/-! # Lemmas about `rewrite`, `add_rows` (for C10–C13) -/

namespace Csvw.Dsv
open CsvLib

theorem writeFile_nil (v : CsvVer) (cfg : Cfg) : writeFile v cfg [] = .ok [] := rfl

theorem map_escape_cells (f : Fmt) (cells : List Cell) :
    cells.map (fun c => escapeDoubled f (cellText c)) = (cells.map (·.getD [])).map (escapeDoubled f) := by
  simp [cellText]

theorem writeFile_cons (v : CsvVer) (cfg : Cfg) (cells : List Cell) (rows : List Row) :
    writeFile v cfg (cells.map (·.getD []) :: rows) =
      match writerow v cfg {} cells with
      | .error e => .error e
      | .ok w => match writeFile v cfg rows with
        | .error e => .error e
        | .ok t => .ok (w.out ++ t) := by
  rw [writeFile_eq, writeFile_eq]
  simp only [List.map_cons, writeRows, writerow, map_escape_cells]
  cases writeRow v cfg.fmt ((cells.map (·.getD [])).map (escapeDoubled cfg.fmt)) with
  | error e => rfl
  | ok a =>
    simp only [List.nil_append]
    cases writeRows v cfg.fmt (rows.map (·.map (escapeDoubled cfg.fmt))) <;> rfl

/-- Success of the loop of `rewrite`. -/
theorem rewriteLoop_ok {σ : Type} {v : CsvVer} {cfg : Cfg} {vis : Visitor σ} {re : Option PyErr} {st st' : σ} {i : Nat}
    {rows : List Row} {ws : List Str} (h : rewriteLoop v cfg vis re st i rows = (ws, .ok st')) :
    re = none ∧ ∃ out, Spec.Visits vis st i rows st' out ∧ writeFile v cfg out = .ok ws.flatten := by
  induction rows generalizing st i ws with
  | nil =>
    simp only [rewriteLoop, Prod.mk.injEq] at h
    obtain ⟨rfl, h⟩ := h
    cases re with
    | none => cases h; exact ⟨rfl, [], .nil, rfl⟩
    | some e => simp at h
  | cons r rs ih =>
    simp only [rewriteLoop] at h
    cases hv : vis st i r with
    | error e => rw [hv] at h; simp at h
    | ok p =>
      obtain ⟨s1, o⟩ := p
      rw [hv] at h
      cases o with
      | none =>
        simp only at h
        obtain ⟨h1, out, h2, h3⟩ := ih h
        exact ⟨h1, out, .drop hv h2, h3⟩
      | some cells =>
        simp only at h
        cases hw : writerow v cfg {} cells with
        | error e => rw [hw] at h; simp at h
        | ok w =>
          rw [hw] at h
          simp only [Prod.mk.injEq] at h
          obtain ⟨rfl, h⟩ := h
          obtain ⟨h1, out, h2, h3⟩ := ih (Prod.ext rfl h)
          refine ⟨h1, _, .keep hv h2, ?_⟩
          rw [writeFile_cons, hw]
          simp only [h3, List.flatten_cons]

/-- If the visitor succeeds on all rows and its results can be written, the loop succeeds. -/
theorem rewriteLoop_of_visits {σ : Type} {v : CsvVer} {cfg : Cfg} {vis : Visitor σ} {st st' : σ} {i : Nat}
    {rows out : List Row} (h : Spec.Visits vis st i rows st' out) {t : Str} (hw : writeFile v cfg out = .ok t) :
    ∃ ws, rewriteLoop v cfg vis none st i rows = (ws, .ok st') ∧ ws.flatten = t := by
  induction h generalizing t with
  | nil => rw [writeFile_nil] at hw; cases hw; exact ⟨[], rfl, rfl⟩
  | drop hv _ ih =>
    obtain ⟨ws, h1, h2⟩ := ih hw
    exact ⟨ws, by simp only [rewriteLoop, hv, h1], h2⟩
  | @keep st st' st'' i r cells rs out hv _ ih =>
    rw [writeFile_cons] at hw
    cases hc : writerow v cfg {} cells with
    | error e => rw [hc] at hw; simp at hw
    | ok w =>
      rw [hc] at hw
      simp only at hw
      cases ho : writeFile v cfg out with
      | error e => rw [ho] at hw; simp at hw
      | ok t' =>
        rw [ho] at hw
        cases hw
        obtain ⟨ws, h1, h2⟩ := ih ho
        exact ⟨w.out :: ws, by simp only [rewriteLoop, hv, hc, h1], by simp [h2]⟩

theorem rowTexts_ok {v : CsvVer} {cfg : Cfg} {rows : List (List Cell)} {t : Str}
    (hw : writeFile v cfg (rows.map (·.map (·.getD []))) = .ok t) :
    ∃ ws, rowTexts v cfg rows = (ws, .ok ()) ∧ ws.flatten = t := by
  induction rows generalizing t with
  | nil => rw [List.map_nil, writeFile_nil] at hw; cases hw; exact ⟨[], rfl, rfl⟩
  | cons r rs ih =>
    rw [List.map_cons, writeFile_cons] at hw
    cases hc : writerow v cfg {} r with
    | error e => rw [hc] at hw; simp at hw
    | ok w =>
      rw [hc] at hw
      simp only at hw
      cases ho : writeFile v cfg (rs.map (·.map (·.getD []))) with
      | error e => rw [ho] at hw; simp at hw
      | ok t' =>
        rw [ho] at hw
        cases hw
        obtain ⟨ws, h1, h2⟩ := ih ho
        exact ⟨w.out :: ws, by simp only [rowTexts, hc, h1], by simp [h2]⟩

theorem writeFile_append {v : CsvVer} {cfg : Cfg} {r1 r2 : List Row} {t1 t2 : Str}
    (h1 : writeFile v cfg r1 = .ok t1) (h2 : writeFile v cfg r2 = .ok t2) :
    writeFile v cfg (r1 ++ r2) = .ok (t1 ++ t2) := by
  induction r1 generalizing t1 with
  | nil => rw [writeFile_nil] at h1; cases h1; simpa using h2
  | cons r rs ih =>
    have e : r = (r.map some).map (·.getD []) := by simp [Function.comp_def]
    rw [e, writeFile_cons] at h1
    rw [List.cons_append, e, writeFile_cons]
    cases hc : writerow v cfg {} (r.map some) with
    | error e => rw [hc] at h1; simp at h1
    | ok w =>
      rw [hc] at h1
      simp only at h1
      cases ho : writeFile v cfg rs with
      | error e => rw [ho] at h1; simp at h1
      | ok t' =>
        rw [ho] at h1
        cases h1
        rw [ih ho]
        simp

/-! ## File system traces -/

variable {ρ : Type} [DecidableEq ρ]

/-- `op` does not change `p`. -/
def Untouched (p : ρ) : FsOp ρ → Prop
  | .create q => q ≠ p
  | .append q _ => q ≠ p
  | .rename a b => a ≠ p ∧ b ≠ p
  | .unlink q => q ≠ p

theorem exec_untouched {p : ρ} {op : FsOp ρ} (h : Untouched p op) (fs : Fs ρ) : FsOp.exec fs op p = fs p := by
  cases op <;> simp only [Untouched] at h <;> simp only [FsOp.exec, Fs.put]
  · rw [if_neg (Ne.symm h)]
  · rw [if_neg (Ne.symm h)]
  · rw [if_neg (Ne.symm h.1), if_neg (Ne.symm h.2)]
  · rw [if_neg (Ne.symm h)]

theorem execAll_untouched {p : ρ} {ops : List (FsOp ρ)} (h : ∀ op ∈ ops, Untouched p op) (fs : Fs ρ) :
    execAll fs ops p = fs p := by
  induction ops generalizing fs with
  | nil => rfl
  | cons op ops ih =>
    simp only [execAll, List.foldl_cons]
    have := ih (fun o ho => h o (by simp [ho])) (FsOp.exec fs op)
    simp only [execAll] at this
    rw [this, exec_untouched (h op (by simp))]

theorem execAll_append (fs : Fs ρ) (a b : List (FsOp ρ)) : execAll fs (a ++ b) = execAll (execAll fs a) b := by
  simp [execAll]

theorem tmpOps_untouched {buf : Buffering} {tmp p : ρ} (h : tmp ≠ p) (text : Str) :
    ∀ op ∈ tmpOps buf tmp text, Untouched p op := by
  intro op hop
  simp only [tmpOps, List.mem_cons, List.mem_map] at hop
  rcases hop with rfl | rfl | ⟨s, _, rfl⟩ <;> exact h

theorem execAll_appends (fs : Fs ρ) (p : ρ) (c : Str) (h : fs p = some c) (l : List Str) :
    execAll fs (l.map (FsOp.append p)) p = some (c ++ l.flatten) := by
  induction l generalizing fs c with
  | nil => simp [execAll, h]
  | cons s l ih =>
    simp only [execAll, List.map_cons, List.foldl_cons]
    have := ih (FsOp.exec fs (.append p s)) (c ++ s) (by simp [FsOp.exec, Fs.put, h])
    simp only [execAll] at this
    rw [this]
    simp

theorem execAll_tmpOps (buf : Buffering) (fs : Fs ρ) (tmp : ρ) (text : Str) :
    execAll fs (tmpOps buf tmp text) tmp = some text := by
  have := execAll_appends (FsOp.exec (FsOp.exec fs (.create tmp)) (.create tmp)) tmp [] (by simp [FsOp.exec, Fs.put])
    (buf.pieces text)
  simp only [execAll, tmpOps, List.foldl_cons] at this ⊢
  rw [this, buf.complete]
  simp

theorem execAll_move (buf : Buffering) (sameDevice : Bool) {tmp p : ρ} (h : tmp ≠ p) (fs : Fs ρ) (text : Str)
    (ht : fs tmp = some text) :
    execAll fs (moveOps sameDevice tmp p (buf.pieces text)) p = some text := by
  unfold moveOps
  cases sameDevice with
  | true =>
    simp [execAll, FsOp.exec, Fs.put, ht, Ne.symm h]
  | false =>
    simp only [Bool.false_eq_true, if_false]
    rw [execAll_append]
    have : execAll fs (FsOp.create p :: (buf.pieces text).map (FsOp.append p)) p = some text := by
      have := execAll_appends (FsOp.exec fs (.create p)) p [] (by simp [FsOp.exec, Fs.put]) (buf.pieces text)
      simp only [execAll, List.foldl_cons] at this ⊢
      rw [this, buf.complete]; simp
    simp [execAll, FsOp.exec, Fs.put, Ne.symm h] at this ⊢
    exact this

/-- The whole trace of a successful rewriting leaves the new text in the target. -/
theorem execAll_complete (buf : Buffering) (sameDevice : Bool) {tmp p : ρ} (h : tmp ≠ p) (fs : Fs ρ) (text : Str) :
    execAll fs (tmpOps buf tmp text ++ moveOps sameDevice tmp p (buf.pieces text)) p = some text := by
  rw [execAll_append]
  exact execAll_move buf sameDevice h _ _ (execAll_tmpOps buf fs tmp text)

/-- All crash points of a trace with an atomic move. -/
theorem crash_points (buf : Buffering) {tmp p : ρ} (h : tmp ≠ p) (fs : Fs ρ) (text : Str) (k : Nat) :
    execAll fs ((tmpOps buf tmp text ++ moveOps true tmp p (buf.pieces text)).take k) p = fs p ∨
    execAll fs ((tmpOps buf tmp text ++ moveOps true tmp p (buf.pieces text)).take k) p = some text := by
  by_cases hk : k ≤ (tmpOps buf tmp text).length
  · left
    rw [List.take_append_of_le_length hk]
    exact execAll_untouched (fun op hop => tmpOps_untouched h text op (List.mem_of_mem_take hop)) fs
  · right
    rw [List.take_of_length_le (by simp [moveOps]; omega)]
    exact execAll_complete buf true h fs text

/-- All crash points of a trace with a move by copying: while the target is incomplete, the temporary file is complete. -/
theorem crash_points_copy (buf : Buffering) {tmp p : ρ} (h : tmp ≠ p) (fs : Fs ρ) (text : Str) (k : Nat) :
    execAll fs ((tmpOps buf tmp text ++ moveOps false tmp p (buf.pieces text)).take k) p = fs p ∨
    execAll fs ((tmpOps buf tmp text ++ moveOps false tmp p (buf.pieces text)).take k) p = some text ∨
    (execAll fs ((tmpOps buf tmp text ++ moveOps false tmp p (buf.pieces text)).take k) tmp = some text ∧
      ∃ start, start <+: text ∧
        execAll fs ((tmpOps buf tmp text ++ moveOps false tmp p (buf.pieces text)).take k) p = some start) := by
  by_cases hk : k ≤ (tmpOps buf tmp text).length
  · left
    rw [List.take_append_of_le_length hk]
    exact execAll_untouched (fun op hop => tmpOps_untouched h text op (List.mem_of_mem_take hop)) fs
  · right
    obtain ⟨j, rfl⟩ : ∃ j, k = (tmpOps buf tmp text).length + (j + 1) := ⟨k - (tmpOps buf tmp text).length - 1, by omega⟩
    rw [List.take_length_add_append]
    by_cases hj : j ≤ (buf.pieces text).length
    · right
      have e : (moveOps false tmp p (buf.pieces text)).take (j + 1) =
          FsOp.create p :: ((buf.pieces text).take j).map (FsOp.append p) := by
        simp only [moveOps, Bool.false_eq_true, if_false, List.cons_append, List.take_succ_cons]
        rw [List.take_append_of_le_length (by simpa using hj), List.map_take]
      rw [e, execAll_append]
      refine ⟨?_, ((buf.pieces text).take j).flatten, ?_, ?_⟩
      · rw [execAll_untouched ?_, execAll_tmpOps]
        intro op hop
        simp only [List.mem_cons, List.mem_map] at hop
        rcases hop with rfl | ⟨s, _, rfl⟩ <;> exact Ne.symm h
      · refine ⟨((buf.pieces text).drop j).flatten, ?_⟩
        rw [← List.flatten_append, List.take_append_drop, buf.complete]
      · have := execAll_appends (FsOp.exec (execAll fs (tmpOps buf tmp text)) (.create p)) p [] (by simp [FsOp.exec, Fs.put])
          ((buf.pieces text).take j)
        simp only [execAll, List.foldl_cons] at this ⊢
        rw [this]; simp
    · left
      rw [List.take_of_length_le (by simp [moveOps]; omega)]
      exact execAll_complete buf false h fs text

theorem crash_points_error (buf : Buffering) {tmp p : ρ} (h : tmp ≠ p) (fs : Fs ρ) (text : Str) (k : Nat) :
    execAll fs ((tmpOps buf tmp text).take k) p = fs p :=
  execAll_untouched (fun op hop => tmpOps_untouched h text op (List.mem_of_mem_take hop)) fs

end Csvw.Dsv
