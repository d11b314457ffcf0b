import Verif.Lemmas.Breaks
/-!
# Lines with line breaks in them

`csv.reader` over lines which contain further line breaks, compared with the lines split at all line breaks.
-/

namespace Csvw.CsvLib

variable {d : Fmt} {p p' : Parser}

/-- `ls` are parts of `k`, all but the last one end with a line break. -/
inductive Pieces : Str → List Str → Prop where
  | last (l : Str) : Pieces l [l]
  | cons {c : Char} {k : Str} {ls : List Str} (l : Str) : isNl c = true → Pieces k ls → Pieces (l ++ c :: k) ((l ++ [c]) :: ls)

/-- Not a blank row. -/
def full (rows : List (List Str)) : List (List Str) := rows.filter fun r => !r.isEmpty

/-- After a newline. -/
theorem nl_state (hd : NoNl d) {c : Char} (hc : isNl c = true) (h : step d p (some c) = .ok p') :
    p'.st = .eatCrnl ∨ p'.st = .inQuoted ∨ p'.st = .afterEscapedCrnl := by
  have hadd : ∀ {st : St}, addChar p st c = .ok p' → p'.st = st := by
    intro st h
    obtain ⟨_, rfl⟩ := addChar_ok_iff h
    rfl
  have hin : ∀ {st : St}, stepInField d p st (some c) = .ok p' → p'.st = .eatCrnl := by
    intro st h
    unfold stepInField at h
    simp only [hc, if_true, Except.ok.injEq] at h
    rw [← h]; rfl
  have hst : stepStartField d p (some c) = .ok p' → p'.st = .eatCrnl := by
    intro h
    unfold stepStartField at h
    simp only [hc, if_true, Except.ok.injEq] at h
    rw [← h]; rfl
  have e1 : (some c == d.escapechar) = false := by
    cases he : d.escapechar with
    | none => rfl
    | some e =>
      have := hd.escape e he
      simp only [beq_eq_false_iff_ne, ne_eq, Option.some.injEq]
      rintro rfl
      rw [hc] at this; cases this
  have e2 : (some c == d.quotechar) = false := by
    cases he : d.quotechar with
    | none => rfl
    | some e =>
      have := hd.quote e he
      simp only [beq_eq_false_iff_ne, ne_eq, Option.some.injEq]
      rintro rfl
      rw [hc] at this; cases this
  have e3 : (c == d.delimiter) = false := by
    have := hd.delim
    simp only [beq_eq_false_iff_ne, ne_eq]
    intro h
    rw [← h, hc] at this; cases this
  unfold step at h
  split at h
  · simp only [hc, if_true, Except.ok.injEq] at h; rw [← h]; exact .inl rfl
  · exact .inl (hst h)
  · simp only [hc, if_true] at h; exact .inr (.inr (hadd h))
  · exact .inl (hin h)
  · exact .inl (hin h)
  · simp only [e1, e2, Bool.false_and, Bool.false_eq_true, if_false] at h; exact .inr (.inl (hadd h))
  · exact .inr (.inl (hadd h))
  · simp only [e2, e3, hc, Bool.and_false, Bool.false_eq_true, if_false, if_true, Except.ok.injEq] at h; rw [← h]; exact .inl rfl
  · simp only [hc, if_true, Except.ok.injEq] at h; rw [← h]; next h1 => exact .inl h1

theorem eat_toks (h : p.st = .eatCrnl) {k : Str} (hk : stepToks d p (k.map some) = .ok p') : p' = p ∧ ∀ c ∈ k, isNl c = true := by
  induction k with
  | nil => cases hk; exact ⟨rfl, by simp⟩
  | cons c k ih =>
    rw [List.map_cons, stepToks] at hk
    by_cases hc : isNl c = true
    · rw [step_eat h hc] at hk
      obtain ⟨h1, h2⟩ := ih hk
      exact ⟨h1, fun a ha => (List.mem_cons.1 ha).elim (fun h => h ▸ hc) (h2 a)⟩
    · have : step d p (some c) = .error .csvError := by
        unfold step
        rw [h]
        simp only [hc, if_false]
        rfl
      rw [this] at hk
      cases hk

/-- A line of newlines only, or an empty one, is a blank row. -/
theorem blank_line {k : Str} (hk : ∀ c ∈ k, isNl c = true) : stepToks d .init (lineToks k) = .ok .init := by
  cases k with
  | nil => rfl
  | cons c k =>
    have h1 : step d .init (some c) = .ok { Parser.init with st := .eatCrnl } := by
      unfold step
      have := hk c List.mem_cons_self
      simp only [Parser.init, this, if_true]
    have h2 : ∀ k : Str, (∀ c ∈ k, isNl c = true) → stepToks d { Parser.init with st := .eatCrnl } (k.map some ++ [none]) = .ok .init := by
      intro k hk
      induction k with
      | nil => rfl
      | cons c k ih =>
        rw [List.map_cons, List.cons_append, stepToks, step_eat rfl (hk c List.mem_cons_self)]
        exact ih fun c hc => hk c (List.mem_cons_of_mem _ hc)
    unfold lineToks
    rw [List.map_cons, List.cons_append, stepToks, h1]
    exact h2 k fun c hc => hk c (List.mem_cons_of_mem _ hc)

theorem readRows_cons_ok {l : Str} {ls : List Str} (h : stepToks d .init (lineToks l) = .ok p') (hp : p'.st = .startRecord) :
    readRows d (l :: ls) = (p'.fields :: (readRows d ls).1, (readRows d ls).2) := by
  rw [readRows_eq_readFrom]
  unfold readFrom
  have : nextRecord d .init (l :: ls) = .ok (some (p'.fields, ls)) := by
    unfold nextRecord
    rw [h]
    simp only [hp, if_true]
  rw [this]

/-- Blank lines before other lines. -/
theorem blank_lines {k : Str} {ls rest : List Str} (h : Pieces k ls) (hk : ∀ c ∈ k, isNl c = true) :
    full (readRows d (ls ++ rest)).1 = full (readRows d rest).1 ∧ (readRows d (ls ++ rest)).2 = (readRows d rest).2 := by
  induction h with
  | last l =>
    rw [List.singleton_append, readRows_cons_ok (blank_line hk) rfl]
    exact ⟨rfl, rfl⟩
  | @cons c k ls l hc _ ih =>
    have h1 : ∀ a ∈ l ++ [c], isNl a = true := fun a ha => hk a (by
      rcases List.mem_append.1 ha with h | h
      · exact List.mem_append_left _ h
      · exact List.mem_append_right _ (by rw [List.mem_singleton.1 h]; exact List.mem_cons_self))
    rw [List.cons_append, readRows_cons_ok (blank_line h1) rfl]
    obtain ⟨i1, i2⟩ := ih fun a ha => hk a (List.mem_append_right _ (List.mem_cons_of_mem _ ha))
    exact ⟨i1, i2⟩

/-- One line, and its pieces, from a state `p`: either the record is not finished in both cases with the same state; or it is finished, and what
is left of the pieces is blank. -/
theorem pieces_record (hd : NoNl d) {k : Str} {ls : List Str} (h : Pieces k ls) (rest : List Str) {p p' : Parser}
    (hp : stepToks d p (lineToks k) = .ok p') :
    (p'.st ≠ .startRecord ∧ nextRecord d p (ls ++ rest) = nextRecord d p' rest) ∨
    (p'.st = .startRecord ∧ ∃ ls', nextRecord d p (ls ++ rest) = .ok (some (p'.fields, ls' ++ rest)) ∧
      (ls' = [] ∨ ∃ k', Pieces k' ls' ∧ ∀ c ∈ k', isNl c = true)) := by
  induction h generalizing p with
  | last l =>
    by_cases hs : p'.st = .startRecord
    · refine .inr ⟨hs, [], ?_, .inl rfl⟩
      rw [List.singleton_append]
      unfold nextRecord
      rw [hp]
      simp only [hs, if_true, List.nil_append]
    · refine .inl ⟨hs, ?_⟩
      rw [List.singleton_append]
      conv => lhs; unfold nextRecord
      rw [hp]
      simp only [hs, if_false]
  | @cons c k ls l hc hk ih =>
    have e : lineToks (l ++ c :: k) = (l.map some) ++ (some c :: lineToks k) := by
      unfold lineToks
      simp
    rw [e, stepToks_append] at hp
    cases h1 : stepToks d p (l.map some) with
    | error r => rw [h1] at hp; cases hp
    | ok p1 =>
      rw [h1] at hp
      dsimp only at hp
      rw [stepToks] at hp
      cases h2 : step d p1 (some c) with
      | error r => rw [h2] at hp; cases hp
      | ok p2 =>
        rw [h2] at hp
        dsimp only at hp
        have e2 : ∀ q, step d p2 none = .ok q → stepToks d p (lineToks (l ++ [c])) = .ok q := by
          intro q hq
          have : lineToks (l ++ [c]) = l.map some ++ [some c, none] := by unfold lineToks; simp
          rw [this, stepToks_append, h1]
          dsimp only
          rw [stepToks, h2]
          dsimp only
          rw [stepToks_single]
          exact hq
        rcases nl_state hd hc h2 with hs | hs
        · -- the record ends here
          right
          unfold lineToks at hp
          rw [stepToks_append] at hp
          cases h3 : stepToks d p2 (k.map some) with
          | error r => rw [h3] at hp; cases hp
          | ok p3 =>
            rw [h3] at hp
            dsimp only at hp
            obtain ⟨rfl, hnl⟩ := eat_toks hs h3
            have hn : step d p3 none = .ok { p3 with st := .startRecord } := by
              unfold step; rw [hs]
            rw [stepToks_single, hn] at hp
            cases hp
            refine ⟨rfl, ls, ?_, .inr ⟨k, hk, hnl⟩⟩
            rw [List.cons_append]
            unfold nextRecord
            rw [e2 _ hn]
            rfl
        · have hn : step d p2 none = .ok p2 := by
            unfold step
            rcases hs with hs | hs <;> rw [hs]
          have hne : p2.st ≠ .startRecord := by rcases hs with hs | hs <;> rw [hs] <;> decide
          have h4 : nextRecord d p (((l ++ [c]) :: ls) ++ rest) = nextRecord d p2 (ls ++ rest) := by
            rw [List.cons_append]
            conv => lhs; unfold nextRecord
            rw [e2 _ hn]
            simp only [hne, if_false]
          rw [h4]
          exact ih hp

inductive AllPieces : List Str → List Str → Prop where
  | nil : AllPieces [] []
  | cons {k : Str} {ls ks ms : List Str} : Pieces k ls → AllPieces ks ms → AllPieces (k :: ks) (ls ++ ms)

theorem AllPieces.blank {ls ks ms : List Str} (h : AllPieces ks ms) (hl : ls = [] ∨ ∃ k', Pieces k' ls ∧ ∀ c ∈ k', isNl c = true) :
    full (readRows d (ls ++ ms)).1 = full (readRows d ms).1 ∧ (readRows d (ls ++ ms)).2 = (readRows d ms).2 := by
  rcases hl with rfl | ⟨k', h1, h2⟩
  · exact ⟨rfl, rfl⟩
  · exact blank_lines h1 h2

theorem readFrom_pieces (hd : NoNl d) {ks ms : List Str} (h : AllPieces ks ms) {p : Parser} {rows : List (List Str)}
    (hr : readFrom d p ks = (rows, none)) : full (readFrom d p ms).1 = full rows ∧ (readFrom d p ms).2 = none := by
  induction h generalizing p rows with
  | nil => rw [hr]; exact ⟨rfl, rfl⟩
  | @cons k ls ks ms hk hks ih =>
    unfold readFrom at hr
    cases hp : stepToks d p (lineToks k) with
    | error e =>
      have : nextRecord d p (k :: ks) = .error e := by unfold nextRecord; rw [hp]
      rw [this] at hr
      cases hr
    | ok p' =>
      rcases pieces_record hd hk ms hp with ⟨h1, h2⟩ | ⟨h1, ls', h2, h3⟩
      · have e : nextRecord d p (k :: ks) = nextRecord d p' ks := by
          conv => lhs; unfold nextRecord
          rw [hp]
          simp only [h1, if_false]
        rw [e] at hr
        have := ih (p := p') hr
        unfold readFrom at this ⊢
        rw [h2]
        exact this
      · have e : nextRecord d p (k :: ks) = .ok (some (p'.fields, ks)) := by
          unfold nextRecord
          rw [hp]
          simp only [h1, if_true]
        rw [e] at hr
        dsimp only at hr
        obtain ⟨r1, r2⟩ := Prod.mk.inj hr
        obtain ⟨b1, b2⟩ := hks.blank (d := d) h3
        have hi := ih (p := .init) (rows := (readRows d ks).1) (by rw [← readRows_eq_readFrom]; exact Prod.ext rfl r2)
        rw [← readRows_eq_readFrom] at hi
        have e5 : readFrom d p (ls ++ ms) = (p'.fields :: (readRows d (ls' ++ ms)).1, (readRows d (ls' ++ ms)).2) := by
          unfold readFrom
          rw [h2]
        rw [e5, ← r1]
        dsimp only
        refine ⟨?_, by rw [b2]; exact hi.2⟩
        unfold full at b1 hi ⊢
        rw [List.filter_cons, List.filter_cons, b1, hi.1]

/-- If `csv.reader` finds no error in lines with further line breaks, then it reads the same rows from the lines which are split at all line breaks, except
for blank rows. -/
theorem readRows_pieces (hd : NoNl d) {ks ms : List Str} (h : AllPieces ks ms) {rows : List (List Str)}
    (hr : readRows d ks = (rows, none)) : full (readRows d ms).1 = full rows ∧ (readRows d ms).2 = none := by
  rw [readRows_eq_readFrom] at hr ⊢
  exact readFrom_pieces hd h hr

end Csvw.CsvLib
