import Verif.Lemmas.Dates
import Verif.Lemmas.NumberPattern
/-!
# Lemmas about date-time formats
-/

namespace Csvw.DateFmt
open Py Csvw.Spec

theorem split_two {c : Char} {a b : Str} (ha : c ∉ a) (hb : c ∉ b) : split [c] (a ++ c :: b) = [a, b] := by
  have := split_join [c] (by simp) [a, b] (by simp) (by
    intro p hp
    rcases List.mem_cons.1 hp with rfl | hp
    · exact noEarly_char c _ ha
    · rw [List.mem_singleton.1 hp]; exact noEarly_char c b hb)
  simpa [join] using this

theorem split_two_inv {c : Char} {s a b : Str} (h : split [c] s = [a, b]) : s = a ++ c :: b ∧ c ∉ a ∧ c ∉ b := by
  have := join_split [c] (by simp) s
  rw [h] at this
  have hm := not_mem_split_char c s
  rw [h] at hm
  exact ⟨by simpa [join] using this.symm, hm a (by simp), hm b (by simp)⟩

/-- All four time patterns. -/
def timePatterns4 : List TimePattern := [⟨true, true⟩, ⟨false, true⟩, ⟨true, false⟩, ⟨false, false⟩]

theorem time_all (p : TimePattern) : p ∈ timePatterns4 := by
  rcases p with ⟨c, s⟩; cases c <;> cases s <;> decide

/-- The regular expression for a time pattern. -/
def timeRx (p : TimePattern) : List RItem :=
  let c := if p.colons then [RItem.lit ':'] else []
  .field .hour 2 2 :: c ++ .field .minute 2 2 :: (if p.seconds then c ++ [.field .second 2 2] else [])

theorem timeItems_text : ∀ p ∈ timePatterns4, timeItems p.text = .ok (timeRx p) := by decide +kernel

theorem dateItems_text : ∀ p ∈ datePatterns14, dateItems p.text = .ok (dateRx p) := by decide +kernel

theorem time_text : ∀ p ∈ timePatterns4, p.text ∈ timePatterns ∧ p.text ≠ [] := by decide +kernel

theorem timePatterns_text : ∀ t ∈ timePatterns, ∃ p ∈ timePatterns4, p.text = t := by decide +kernel

theorem datePatterns_text : ∀ t ∈ datePatterns, ∃ p ∈ datePatterns14, p.text = t := by decide +kernel

theorem date_chars : ∀ p ∈ datePatterns14, ∀ c ∈ p.text, c ∈ "yMd-/.".toList := by decide +kernel

theorem time_chars : ∀ p ∈ timePatterns4, ∀ c ∈ p.text, c ∈ "Hms:".toList := by decide +kernel

/-- The regular expression of a format. -/
def rxOf (F : DTFormat) : List RItem :=
  ((F.date.map dateRx).getD []) ++ F.sep.toList.map RItem.lit ++ ((F.time.map timeRx).getD []) ++
  (if F.frac = 0 then [] else [.frac F.frac])

/-- The time part of a format, with fractions. -/
def timePart (F : DTFormat) : Str :=
  ((F.time.map TimePattern.text).getD []) ++ (if F.frac = 0 then [] else '.' :: List.replicate F.frac 'S')

/-- The date part of a format. -/
def datePart (F : DTFormat) : Str := (F.date.map DatePattern.text).getD []

theorem body_eq (F : DTFormat) : F.body = datePart F ++ F.sep.toList ++ timePart F := by
  simp [DTFormat.body, datePart, timePart]

theorem datePart_chars {F : DTFormat} {t : Bool} (h : F.WF t) : ∀ c ∈ datePart F, c ∈ "yMd-/.".toList := by
  intro c hc
  unfold datePart at hc
  cases hd : F.date with
  | none => rw [hd] at hc; simp at hc
  | some p => rw [hd] at hc; exact date_chars p (h.1 p hd) c hc

theorem timePart_chars (F : DTFormat) : ∀ c ∈ timePart F, c ∈ "Hms:.S".toList := by
  intro c hc
  unfold timePart at hc
  rcases List.mem_append.1 hc with hc | hc
  · cases hd : F.time with
    | none => rw [hd] at hc; simp at hc
    | some p =>
      rw [hd] at hc
      have := time_chars p (time_all p) c hc
      exact (by decide : ∀ c ∈ "Hms:".toList, c ∈ "Hms:.S".toList) c this
  · split at hc
    · simp at hc
    · rcases List.mem_cons.1 hc with rfl | hc
      · decide
      · rw [List.eq_of_mem_replicate hc]; decide

theorem splitMsecs_timePart (F : DTFormat) :
    splitMsecs (timePart F) = .ok ((F.time.map TimePattern.text).getD [], if F.frac = 0 then none else some F.frac) := by
  have hdot : '.' ∉ (F.time.map TimePattern.text).getD [] := by
    cases hd : F.time with
    | none => simp
    | some p =>
      intro hc
      have := time_chars p (time_all p) _ hc
      revert this; decide
  unfold splitMsecs timePart
  by_cases h0 : F.frac = 0
  · simp only [h0, if_true, List.append_nil]
    rw [if_neg (by simpa using hdot)]
  · simp only [h0, if_false]
    rw [if_pos (by simp)]
    have hs : '.' ∉ List.replicate F.frac 'S' := by
      intro h; have := List.eq_of_mem_replicate h; revert this; decide
    have : split ['.'] ((F.time.map TimePattern.text).getD [] ++ '.' :: List.replicate F.frac 'S') =
        [(F.time.map TimePattern.text).getD [], List.replicate F.frac 'S'] := by
      exact split_two hdot hs
    rw [this]
    simp [h0]

theorem splitMsecs_inv {tf t : Str} {ms : Option Nat} (h : splitMsecs tf = .ok (t, ms)) :
    tf = t ++ (match ms with | none => [] | some n => '.' :: List.replicate n 'S') ∧ ms ≠ some 0 := by
  unfold splitMsecs at h
  split at h
  · split at h
    · next a b hs =>
      split at h
      · next hm =>
        simp only [Except.ok.injEq, Prod.mk.injEq] at h
        obtain ⟨rfl, rfl⟩ := h
        obtain ⟨e, _, _⟩ := split_two_inv hs
        have hb : b = List.replicate b.length 'S' := List.eq_replicate_of_mem (by simpa using hm.2)
        refine ⟨?_, ?_⟩
        · simp only; rw [← hb]; exact e
        · simp [hm.1]
      · simp at h
    · simp at h
  · simp only [Except.ok.injEq, Prod.mk.injEq] at h
    obtain ⟨rfl, rfl⟩ := h
    simp

theorem splitMsecs_err {tf : Str} {e : PyErr} (h : splitMsecs tf = .error e) : e = .valueError := by
  unfold splitMsecs at h
  split at h
  · split at h
    · split at h <;> simp at h
      exact h.symm
    · simp at h; exact h.symm
  · simp at h

/-- The characters `x` and `X`. -/
def isX (c : Char) : Bool := c = 'x' || c = 'X'

theorem tzMarker_plain {f : Str} (h : ∀ c ∈ f, isX c = false ∧ c ≠ '\n') : tzMarker f = none := by
  unfold tzMarker
  have hd : dropNl f.reverse = f.reverse := by
    unfold dropNl
    split
    · next r hr =>
      have := (h '\n' (by rw [← List.mem_reverse, hr]; simp)).2
      exact absurd rfl this
    · rfl
  simp only [hd]
  have : f.reverse.takeWhile (fun c => c = 'x' || c = 'X') = [] := by
    cases hf : f.reverse with
    | nil => rfl
    | cons c r =>
      have := (h c (by rw [← List.mem_reverse, hf]; simp)).1
      unfold isX at this
      rw [List.takeWhile_cons_of_neg (by simpa using this)]
  rw [if_pos this]

theorem takeWhile_rep {p : Char → Bool} {x : Char} (hx : p x = true) (n : Nat) (r : Str) (hr : ∀ c ∈ r.head?, p c = false) :
    (List.replicate n x ++ r).takeWhile p = List.replicate n x ∧ (List.replicate n x ++ r).dropWhile p = r := by
  induction n with
  | zero =>
    cases r with
    | nil => simp
    | cons c r =>
      have := hr c (by simp)
      simp [this]
  | succ n ih => simp [List.replicate_succ, hx, ih]

theorem tzMarker_marked {f m nl : Str} (h : ∀ c ∈ f, isX c = false ∧ c ≠ '\n') (hm : TzMarker m)
    (hb : m.head? ≠ some ' ' → f.getLast? ≠ some ' ') (hnl : nl = [] ∨ nl = ['\n']) : tzMarker (f ++ m ++ nl) = some (m, f) := by
  obtain ⟨b, x, n, hbl, hx, h1, h3, rfl⟩ := hm
  have hx' : (fun c => decide (c = 'x') || decide (c = 'X')) x = true := by rcases hx with rfl | rfl <;> rfl
  have hxn : x ≠ '\n' := by rcases hx with rfl | rfl <;> decide
  have hxb : x ≠ ' ' := by rcases hx with rfl | rfl <;> decide
  have hd : dropNl (f ++ (b ++ List.replicate n x) ++ nl).reverse = List.replicate n x ++ (b.reverse ++ f.reverse) := by
    obtain ⟨k, rfl⟩ : ∃ k, n = k + 1 := ⟨n - 1, by omega⟩
    have e : (f ++ (b ++ List.replicate (k + 1) x) ++ nl).reverse =
        nl.reverse ++ (x :: (List.replicate k x ++ (b.reverse ++ f.reverse))) := by
      rw [List.reverse_append, List.reverse_append, List.reverse_append, List.reverse_replicate, List.replicate_succ]; simp
    rw [e]
    rcases hnl with rfl | rfl
    · unfold dropNl
      split
      · next hq => simp only [List.reverse_nil, List.nil_append, List.cons.injEq] at hq; exact absurd hq.1 hxn
      · simp [List.replicate_succ]
    · simp [dropNl, List.replicate_succ]
  have hhead : ∀ c ∈ (b.reverse ++ f.reverse).head?, (fun c => decide (c = 'x') || decide (c = 'X')) c = false := by
    intro c hc
    rcases hbl with rfl | rfl
    · simp at hc
      exact (h c (List.mem_of_getLast? hc)).1
    · simp at hc; subst hc; decide
  obtain ⟨e1, e2⟩ := takeWhile_rep hx' n _ hhead
  unfold tzMarker
  simp only [hd, e1, e2]
  rw [if_neg (by simp; omega), if_neg (by simp; omega)]
  rcases hbl with rfl | rfl
  · simp only [List.reverse_nil, List.nil_append]
    split
    · next r hr =>
      exfalso
      refine hb ?_ ?_
      · obtain ⟨k, rfl⟩ : ∃ k, n = k + 1 := ⟨n - 1, by omega⟩
        simp [List.replicate_succ, hxb]
      · rw [← List.head?_reverse, hr]; rfl
    · simp
  · simp

theorem tzMarker_inv {f m r : Str} (h : tzMarker f = some (m, r)) (ha : allSame (strip m) = true) (hr : ∀ c ∈ r, isX c = false) :
    TzMarker m ∧ (m.head? ≠ some ' ' → r.getLast? ≠ some ' ') ∧ ∃ nl, (nl = [] ∨ nl = ['\n']) ∧ f = r ++ m ++ nl := by
  have hnl : ∃ nl, (nl = [] ∨ nl = ['\n']) ∧ f = (dropNl f.reverse).reverse ++ nl := by
    unfold dropNl
    split
    · next q hq => exact ⟨['\n'], .inr rfl, by rw [← List.reverse_reverse f, hq]; simp⟩
    · exact ⟨[], .inl rfl, by simp⟩
  unfold tzMarker at h
  simp only at h
  generalize dropNl f.reverse = q at h hnl
  have hq : q = q.takeWhile (fun c => c = 'x' || c = 'X') ++ q.dropWhile (fun c => c = 'x' || c = 'X') := by simp
  have hall : ∀ c ∈ q.takeWhile (fun c => c = 'x' || c = 'X'), c = 'x' ∨ c = 'X' := by
    intro c hc
    have := List.all_eq_true.1 (List.all_takeWhile (l := q) (p := fun c => decide (c = 'x') || decide (c = 'X'))) c hc
    simpa using this
  generalize q.takeWhile (fun c => c = 'x' || c = 'X') = run at h hq hall
  generalize q.dropWhile (fun c => c = 'x' || c = 'X') = rest at h hq
  split at h
  · simp at h
  · next hne =>
    split at h
    · next hlen =>
      exfalso
      simp only [Option.some.injEq, Prod.mk.injEq] at h
      obtain ⟨_, rfl⟩ := h
      have : ∃ c, c ∈ run.drop 3 := by
        cases hd : run.drop 3 with
        | nil => have := congrArg List.length hd; simp at this; omega
        | cons c l => exact ⟨c, by simp⟩
      obtain ⟨c, hc⟩ := this
      have h1 := hr c (by rw [List.mem_reverse]; exact List.mem_append_left _ hc)
      rcases hall c (List.mem_of_mem_drop hc) with rfl | rfl <;> simp [isX] at h1
    · next hlen =>
      have hstrip : ∀ b : Str, (b = [] ∨ b = [' ']) → strip (b ++ run.reverse) = run.reverse := by
        have hs : ∀ c ∈ run.reverse, isSpace c = false := by
          intro c hc
          rcases hall c (by simpa using hc) with rfl | rfl <;> decide
        intro b hb
        have hl : lstrip (b ++ run.reverse) = run.reverse := by
          have h0 : run.reverse.dropWhile isSpace = run.reverse := by
            cases hz : run.reverse with
            | nil => rfl
            | cons c l => rw [List.dropWhile_cons_of_neg (by simp [hs c (by rw [hz]; simp)])]
          unfold lstrip lstripP
          rcases hb with rfl | rfl
          · exact h0
          · rw [List.cons_append, List.dropWhile_cons_of_pos (by decide), List.nil_append, h0]
        have h1 := Dec.strip_eq_self hs
        unfold strip at h1 ⊢
        rw [hl]
        have hl' : lstrip run.reverse = run.reverse := by
          unfold lstrip lstripP
          cases hz : run.reverse with
          | nil => rfl
          | cons c l => rw [List.dropWhile_cons_of_neg (by simp [hs c (by rw [hz]; simp)])]
        rw [hl'] at h1
        exact h1
      have hrep : ∀ b : Str, (b = [] ∨ b = [' ']) → allSame (strip (b ++ run.reverse)) = true →
          ∃ x, (x = 'x' ∨ x = 'X') ∧ run.reverse = List.replicate run.length x := by
        intro b hb hs
        rw [hstrip b hb] at hs
        unfold allSame at hs
        split at hs
        · simp at hs
        · next c cs hc =>
          refine ⟨c, hall c (by rw [← List.mem_reverse, hc]; simp), ?_⟩
          rw [List.eq_replicate_iff]
          refine ⟨by simp, ?_⟩
          intro d hd
          rw [hc] at hd
          rcases List.mem_cons.1 hd with rfl | hd
          · rfl
          · simpa using (List.all_eq_true.1 hs) d hd
      have hlen1 : 1 ≤ run.length := by
        cases run with
        | nil => exact absurd rfl hne
        | cons => simp
      obtain ⟨nl, hn1, hn2⟩ := hnl
      split at h
      · next rest' =>
        simp only [Option.some.injEq, Prod.mk.injEq] at h
        obtain ⟨rfl, rfl⟩ := h
        obtain ⟨x, hx, hrx⟩ := hrep [' '] (.inr rfl) ha
        refine ⟨⟨[' '], x, run.length, .inr rfl, hx, hlen1, by omega, by rw [← hrx]; rfl⟩, by simp, nl, hn1, ?_⟩
        rw [hn2, hq]; simp
      · next hnb =>
        simp only [Option.some.injEq, Prod.mk.injEq] at h
        obtain ⟨rfl, rfl⟩ := h
        obtain ⟨x, hx, hrx⟩ := hrep [] (.inl rfl) ha
        refine ⟨⟨[], x, run.length, .inl rfl, hx, hlen1, by omega, by rw [← hrx]; rfl⟩, ?_, nl, hn1, ?_⟩
        · intro _ hl
          rw [List.getLast?_reverse] at hl
          cases rest with
          | nil => simp at hl
          | cons c rest => simp at hl; subst hl; exact hnb _ rfl
        · rw [hn2, hq]; simp

theorem far_eq (f : Str) (t : Bool) : formatAndRegex f t =
    match stripMk f with
    | .error e => .error e
    | .ok (mk, b) => match splitDT t b with
      | .error e => .error e
      | .ok (sep, d, tf) => bodyDesc f mk sep d tf := rfl

theorem splitDT_ok {F : DTFormat} {t : Bool} (h : F.WF t) : splitDT t F.body = .ok (F.sep, datePart F, timePart F) := by
  have hd := datePart_chars h
  have ht := timePart_chars F
  have nd : ∀ c, c ∉ "yMd-/.".toList → c ∉ datePart F := fun c hc hm => hc (hd c hm)
  have nt : ∀ c, c ∉ "Hms:.S".toList → c ∉ timePart F := fun c hc hm => hc (ht c hm)
  rw [body_eq]
  obtain ⟨hF, hs⟩ := h
  unfold splitDT
  cases hsep : F.sep with
  | none =>
    rw [hsep] at hs
    simp only [Option.toList_none, List.append_nil]
    have h1 : (datePart F ++ timePart F).contains ' ' = false := by
      simp [nd ' ' (by decide), nt ' ' (by decide)]
    have h2 : (datePart F ++ timePart F).contains 'T' = false := by
      simp [nd 'T' (by decide), nt 'T' (by decide)]
    simp only [h1, h2, Bool.false_eq_true, if_false]
    cases t with
    | true =>
      simp only [if_true] at hs ⊢
      have : datePart F = [] := by simp [datePart, hs]
      simp [this]
    | false =>
      simp only [Bool.false_eq_true, if_false] at hs ⊢
      have : timePart F = [] := by simp [timePart, hs.1, hs.2]
      simp [this]
  | some c =>
    rw [hsep] at hs
    simp only at hs
    rcases hs with rfl | rfl
    · have h1 : (datePart F ++ [' '] ++ timePart F).contains ' ' = true := by simp
      simp only [Option.toList_some, h1, if_true]
      have := split_two (nd ' ' (by decide)) (nt ' ' (by decide))
      rw [List.append_assoc, List.singleton_append, this]
    · have h1 : (datePart F ++ ['T'] ++ timePart F).contains ' ' = false := by
        simp [nd ' ' (by decide), nt ' ' (by decide)]
      have h2 : (datePart F ++ ['T'] ++ timePart F).contains 'T' = true := by simp
      simp only [Option.toList_some, h1, h2, if_true, Bool.false_eq_true, if_false]
      have := split_two (nd 'T' (by decide)) (nt 'T' (by decide))
      rw [List.append_assoc, List.singleton_append, this]

theorem bodyDesc_ok {F : DTFormat} {t : Bool} (h : F.WF t) (f : Str) (mk : Option Str) :
    bodyDesc f mk F.sep (datePart F) (timePart F) = .ok ⟨some (rxOf F), mk, some f⟩ := by
  unfold bodyDesc
  rw [splitMsecs_timePart]
  simp only
  have hD : datePart F = [] ∧ F.date = none ∨ ∃ p, F.date = some p ∧ p ∈ datePatterns14 ∧ datePart F = p.text := by
    cases hd : F.date with
    | none => exact .inl ⟨by simp [datePart, hd], rfl⟩
    | some p => exact .inr ⟨p, rfl, h.1 p hd, by simp [datePart, hd]⟩
  have hT : F.time = none ∨ ∃ p, F.time = some p := by cases F.time <;> simp
  have hd' : ¬ (datePart F ≠ [] ∧ datePart F ∉ datePatterns) ∧
      (if datePart F = [] then Except.ok [] else dateItems (datePart F)) = .ok ((F.date.map dateRx).getD []) := by
    rcases hD with ⟨h1, h2⟩ | ⟨p, h1, h2, h3⟩
    · simp [h1, h2]
    · have := text_mem p h2
      simp [h3, h1, this.1, this.2, dateItems_text p h2]
  have ht' : ¬ ((F.time.map TimePattern.text).getD [] ≠ [] ∧ (F.time.map TimePattern.text).getD [] ∉ timePatterns) ∧
      (if (F.time.map TimePattern.text).getD [] = [] then Except.ok [] else timeItems ((F.time.map TimePattern.text).getD [])) =
        .ok ((F.time.map timeRx).getD []) := by
    rcases hT with h1 | ⟨p, h1⟩
    · simp [h1]
    · have := time_text p (time_all p)
      simp [h1, this.1, this.2, timeItems_text p (time_all p)]
  rw [if_neg (by rintro (h | h); exact hd'.1 h; exact ht'.1 h), hd'.2, ht'.2]
  simp only [rxOf]
  congr 3
  · congr 1
    · cases F.sep <;> simp
    · by_cases h0 : F.frac = 0 <;> simp [h0]

theorem body_noX {F : DTFormat} {t : Bool} (h : F.WF t) : ∀ c ∈ F.body, isX c = false ∧ c ≠ '\n' := by
  intro c hc
  rw [body_eq] at hc
  simp only [List.mem_append] at hc
  rcases hc with (hc | hc) | hc
  · exact (by decide : ∀ c ∈ "yMd-/.".toList, isX c = false ∧ c ≠ '\n') c (datePart_chars h c hc)
  · cases hs : F.sep with
    | none => rw [hs] at hc; simp at hc
    | some d =>
      rw [hs] at hc
      have h2 := h.2
      rw [hs] at h2
      simp at hc h2
      subst hc
      rcases h2 with rfl | rfl <;> decide
  · exact (by decide : ∀ c ∈ "Hms:.S".toList, isX c = false ∧ c ≠ '\n') c (timePart_chars F c hc)

theorem far_ok {f : Str} {F : DTFormat} {mk : Option Str} {t : Bool} (h : IsFormat t f F mk) :
    formatAndRegex f t = .ok ⟨some (rxOf F), mk, some f⟩ := by
  rw [far_eq]
  cases h with
  | plain hF =>
    have : stripMk F.body = .ok (none, F.body) := by
      unfold stripMk; rw [tzMarker_plain (body_noX hF)]
    rw [this]
    simp only [splitDT_ok hF, bodyDesc_ok hF]
  | marked hF hm hb hnl =>
    next m nl =>
    have hs : allSame (strip m) = true := by
      clear hb
      obtain ⟨b, x, n, hb, hx, h1, h3, rfl⟩ := hm
      have hn : n = 1 ∨ n = 2 ∨ n = 3 := by omega
      rcases hb with rfl | rfl <;> rcases hx with rfl | rfl <;> rcases hn with rfl | rfl | rfl <;> decide
    have : stripMk (F.body ++ m ++ nl) = .ok (some m, F.body) := by
      unfold stripMk; rw [tzMarker_marked (body_noX hF) hm hb hnl]
      simp [hs]
    rw [this]
    simp only [splitDT_ok hF, bodyDesc_ok hF]

/-- What `bodyDesc` accepts. -/
theorem bodyDesc_inv {f : Str} {mk : Option Str} {sep : Option Char} {d tf : Str} {D : Desc} (h : bodyDesc f mk sep d tf = .ok D) :
    ∃ F : DTFormat, (∀ p ∈ F.date, p ∈ datePatterns14) ∧ F.sep = sep ∧ d = datePart F ∧ tf = timePart F := by
  unfold bodyDesc at h
  split at h
  · simp at h
  · next tfmt ms hs =>
    obtain ⟨e1, e2⟩ := splitMsecs_inv hs
    split at h
    · simp at h
    · next hp =>
      have hd : d = [] ∨ d ∈ datePatterns := by
        by_cases h1 : d = []
        · exact .inl h1
        · exact .inr (Decidable.byContradiction fun h2 => hp (.inl ⟨h1, h2⟩))
      have ht : tfmt = [] ∨ tfmt ∈ timePatterns := by
        by_cases h1 : tfmt = []
        · exact .inl h1
        · exact .inr (Decidable.byContradiction fun h2 => hp (.inr ⟨h1, h2⟩))
      have hd' : ∃ od : Option DatePattern, (∀ p ∈ od, p ∈ datePatterns14) ∧ d = (od.map DatePattern.text).getD [] := by
        rcases hd with rfl | hd
        · exact ⟨none, by simp, rfl⟩
        · obtain ⟨p, hp', rfl⟩ := datePatterns_text d hd
          exact ⟨some p, by simpa using hp', rfl⟩
      have ht' : ∃ ot : Option TimePattern, tfmt = (ot.map TimePattern.text).getD [] := by
        rcases ht with rfl | ht
        · exact ⟨none, rfl⟩
        · obtain ⟨p, hp, rfl⟩ := timePatterns_text tfmt ht
          exact ⟨some p, rfl⟩
      obtain ⟨od, h1, rfl⟩ := hd'
      obtain ⟨ot, rfl⟩ := ht'
      refine ⟨⟨od, sep, ot, ms.getD 0⟩, h1, rfl, rfl, ?_⟩
      rw [e1]
      cases ms with
      | none => simp [timePart]
      | some n =>
        have : n ≠ 0 := by rintro rfl; exact e2 rfl
        simp [timePart, this]

theorem splitDT_inv {t : Bool} {b : Str} {sep : Option Char} {d tf : Str} (h : splitDT t b = .ok (sep, d, tf)) :
    b = d ++ sep.toList ++ tf ∧ (match sep with | some c => c = ' ' ∨ c = 'T' | none => if t then d = [] else tf = []) := by
  unfold splitDT at h
  have hsep : ∀ c, (if b.contains ' ' = true then some ' ' else if b.contains 'T' = true then some 'T' else none) = some c →
      c = ' ' ∨ c = 'T' := by
    intro c hc
    split at hc
    · simp at hc; exact .inl hc.symm
    · split at hc
      · simp at hc; exact .inr hc.symm
      · simp at hc
  simp only at h
  split at h
  · next c hc =>
    split at h
    · next a b' hs =>
      simp only [Except.ok.injEq, Prod.mk.injEq] at h
      obtain ⟨rfl, rfl, rfl⟩ := h
      exact ⟨by simpa using (split_two_inv hs).1, hsep c hc⟩
    · simp at h
  · split at h
    · next ht =>
      simp only [Except.ok.injEq, Prod.mk.injEq] at h
      obtain ⟨rfl, rfl, rfl⟩ := h
      simp [ht]
    · next ht =>
      simp only [Except.ok.injEq, Prod.mk.injEq] at h
      obtain ⟨rfl, rfl, rfl⟩ := h
      simp [ht]

theorem far_inv {f : Str} {t : Bool} {D : Desc} (h : formatAndRegex f t = .ok D) :
    ∃ F mk, IsFormat t f F mk ∧ D = ⟨some (rxOf F), mk, some f⟩ := by
  have h0 := h
  rw [far_eq] at h
  split at h
  · simp at h
  · next mk b hb =>
    split at h
    · simp at h
    · next sep d tf hs =>
      obtain ⟨F, h1, h2, h3, h4⟩ := bodyDesc_inv h
      obtain ⟨h5, h6⟩ := splitDT_inv hs
      have hbody : b = F.body := by rw [body_eq, h5, h2, h3, h4]
      have hWF : F.WF t := by
        refine ⟨h1, ?_⟩
        rw [h2]
        cases sep with
        | some c => exact h6
        | none =>
          simp only at h6 ⊢
          split
          · next ht =>
            rw [if_pos ht] at h6
            cases hd : F.date with
            | none => rfl
            | some p =>
              exfalso
              rw [h6] at h3
              have := (text_mem p (h1 p hd)).2
              simp [datePart, hd] at h3
              exact this h3
          · next ht =>
            rw [if_neg ht] at h6
            rw [h6] at h4
            unfold timePart at h4
            have h4' := h4.symm
            rw [List.append_eq_nil_iff] at h4'
            constructor
            · cases hd : F.time with
              | none => rfl
              | some p =>
                have := (time_text p (time_all p)).2
                rw [hd] at h4'
                exact absurd h4'.1 this
            · by_cases h0 : F.frac = 0
              · exact h0
              · simp [h0] at h4'
      have hfmt : ∃ mk, IsFormat t f F mk := by
        unfold stripMk at hb
        split at hb
        · next m rest hm =>
          split at hb
          · next hall =>
            simp only [Except.ok.injEq, Prod.mk.injEq] at hb
            obtain ⟨_, rfl⟩ := hb
            subst hbody
            obtain ⟨e1, e2, nl, e3, e4⟩ := tzMarker_inv hm hall (fun c hc => (body_noX hWF c hc).1)
            exact ⟨some m, e4 ▸ .marked hWF e1 e2 e3⟩
          · simp at hb
        · simp only [Except.ok.injEq, Prod.mk.injEq] at hb
          obtain ⟨_, rfl⟩ := hb
          exact ⟨none, hbody ▸ .plain hWF⟩
      obtain ⟨mk', hI⟩ := hfmt
      refine ⟨F, mk', hI, ?_⟩
      have := far_ok hI
      rw [h0] at this
      simpa using this

theorem far_err {f : Str} {t : Bool} {e : PyErr} (h : formatAndRegex f t = .error e) : e = .valueError := by
  rw [far_eq] at h
  split at h
  · next e' he =>
    simp only [Except.error.injEq] at h
    subst h
    unfold stripMk at he
    split at he
    · split at he <;> simp at he
      exact he.symm
    · simp at he
  · next mk b hb =>
    split at h
    · next e' he =>
      simp only [Except.error.injEq] at h
      subst h
      unfold splitDT at he
      simp only at he
      split at he
      · split at he <;> simp at he
        exact he.symm
      · split at he <;> simp at he
    · next sep d tf hs =>
      unfold bodyDesc at h
      split at h
      · next e' he =>
        simp only [Except.error.injEq] at h
        subst h
        exact splitMsecs_err he
      · next tfmt ms _ =>
        split at h
        · simp at h; exact h.symm
        · next hp =>
          have hd : (if d = [] then Except.ok [] else dateItems d) ≠ .error e := by
            intro hc
            split at hc
            · simp at hc
            · next h1 =>
              obtain ⟨p, hp', rfl⟩ := datePatterns_text d (Decidable.byContradiction fun h2 => hp (.inl ⟨h1, h2⟩))
              rw [dateItems_text p hp'] at hc; simp at hc
          have ht : (if tfmt = [] then Except.ok [] else timeItems tfmt) ≠ .error e := by
            intro hc
            split at hc
            · simp at hc
            · next h1 =>
              obtain ⟨p, hp', rfl⟩ := timePatterns_text tfmt (Decidable.byContradiction fun h2 => hp (.inr ⟨h1, h2⟩))
              rw [timeItems_text p hp'] at hc; simp at hc
          split at h
          · next e' he => simp only [Except.error.injEq] at h; subst h; exact absurd he hd
          · next e' _ he => simp only [Except.error.injEq] at h; subst h; exact absurd he ht
          · simp at h

end Csvw.DateFmt
