import Verif.Lemmas.SqlText
import Verif.Props.C72b
/-!
# C86: the SQL statements mean what they are made for
-/

namespace Csvw.Props
open Csvw Csvw.Py Csvw.Db Csvw.Spec.Sql

/-! ## Specification -/

/-- The number in a condition. -/
def intOperand (i : Int) : Operand := .number (decide (i < 0)) (Dec.digits i.natAbs)

/-- The number which is a bound. -/
def boundOperand : Val → Operand
  | .int i => intOperand i
  | .dec (.fin neg c e) => .number neg ((Dec.fin false c e).toStr false)
  | .flt t => match t with
    | '-' :: s => .number true s
    | s => .number false s
  | _ => .number false []

/-- The condition for a column, as comparison. -/
def comparisonOf (str : Val → Str) (col : Str) : ColSpec.Cond → Comparison
  | .ge (some f) b => ⟨.columnFunc f col, ">=".toList, .textFunc f (boundText str b)⟩
  | .ge none b => ⟨.column col, ">=".toList, boundOperand b⟩
  | .le (some f) b => ⟨.columnFunc f col, "<=".toList, .textFunc f (boundText str b)⟩
  | .le none b => ⟨.column col, "<=".toList, boundOperand b⟩
  | .lenEq n => ⟨.columnFunc "length".toList col, "=".toList, intOperand n⟩
  | .lenGe n => ⟨.columnFunc "length".toList col, ">=".toList, intOperand n⟩
  | .lenLe n => ⟨.columnFunc "length".toList col, "<=".toList, intOperand n⟩

/-- The type of a column. -/
def typeName : DbType → Str
  | .text => "TEXT".toList
  | .integer => "INTEGER".toList
  | .real => "REAL".toList
  | .blob => "BLOB".toList

/-- The clauses for a table: its columns with their types and constraints, its primary key and its foreign keys. -/
def clausesOf (str : Val → Str) (tr : Translator) (t : TableSpec) : List Clause :=
  t.columns.map (fun c => .column (tr t.name (some c.name)) (typeName c.dbType) c.required
    (c.check.map (comparisonOf str (tr t.name (some c.name))))) ++
  ((t.primaryKey.toList.filter (· ≠ [])).map fun pk => .primaryKey (pk.map fun k => tr t.name (some k))) ++
  t.foreignKeys.map fun fk => .foreignKey (fk.1.map fun k => tr t.name (some k)) (tr fk.2.1 none) (fk.2.2.map fun k => tr fk.2.1 (some k))

/-- Names which can be quoted. -/
def Quotable (n : Str) : Prop := '`' ∉ n

/-- The text of a floating point number is a numeral, possibly with a minus sign. -/
def FloatText (t : Str) : Prop := Numeral t ∨ ∃ s, t = '-' :: s ∧ Numeral s

/-- A bound which can be written. -/
def BoundText (str : Val → Str) : Option Str → Val → Prop
  | some _, b => '\'' ∉ boundText str b
  | none, b => Numeric b ∧ ∀ t, b = .flt t → FloatText t

/-- Table specifications which can be expressed: they have columns, names can be quoted, foreign keys have columns, and bounds can be written. -/
structure SqlExpressible (str : Val → Str) (tr : Translator) (t : TableSpec) : Prop where
  name : Quotable (tr t.name none)
  columns : t.columns ≠ [] ∧ ∀ c ∈ t.columns, Quotable (tr t.name (some c.name))
  key : ∀ pk, t.primaryKey = some pk → ∀ k ∈ pk, Quotable (tr t.name (some k))
  foreign : ∀ fk ∈ t.foreignKeys, fk.1 ≠ [] ∧ (∀ k ∈ fk.1, Quotable (tr t.name (some k))) ∧ Quotable (tr fk.2.1 none) ∧ fk.2.2 ≠ [] ∧
    ∀ k ∈ fk.2.2, Quotable (tr fk.2.1 (some k))
  bounds : ∀ c ∈ t.columns, ∀ d, c.csvw = some d → ∀ b, d.minimum = some b ∨ d.maximum = some b → BoundText str (sqlFunction c.base) b

/-! ## Proof -/

theorem delim_nil : Delim [] := by intro c hc; simp at hc
theorem delim_cons {c : Char} {r : Str} (hc : c ∈ [' ', '\n', ',', '(', ')']) : Delim (c :: r) := by
  intro d hd
  simp only [List.head?_cons, Option.mem_some_iff] at hd
  subst hd
  exact hc

/-- The text gives these tokens, whatever follows (if it starts with a character which ends a token). -/
def Gives (s : Str) (ts : List Tok) : Prop := ∀ r us, Delim r → Lex r us → Lex (s ++ r) (ts ++ us)

theorem gives_word {s : Str} (h : SqlWord s) : Gives s [.word s] := fun _ _ hr hl => lex_word h hr hl
theorem gives_tick {n : Str} (h : Quotable n) : Gives (tick n) [.name n] := fun _ _ hr hl => lex_tick h hr hl

/-- The tokens of names in parentheses, after the opening one. -/
def nameToks : List Str → List Tok
  | [] => [y ")"]
  | [n] => [.name n, y ")"]
  | n :: m :: r => .name n :: y "," :: nameToks (m :: r)

theorem lex_names : ∀ {ns : List Str}, ns ≠ [] → (∀ n ∈ ns, Quotable n) → ∀ {r us}, Lex r us → Lex (quoted ns ++ ')' :: r) (nameToks ns ++ us)
  | [n], _, hq, r, us, h => lex_tick (hq n (by simp)) (delim_cons (by decide)) (lex_sym (by decide) h)
  | n :: m :: ns, _, hq, r, us, h => by
    have ih := lex_names (ns := m :: ns) (by simp) (fun k hk => hq k (List.mem_cons_of_mem _ hk)) h
    have he : quoted (n :: m :: ns) ++ ')' :: r = tick n ++ ',' :: (quoted (m :: ns) ++ ')' :: r) := by
      simp [quoted, join]
    rw [he]
    exact lex_tick (hq n (by simp)) (delim_cons (by decide)) (lex_sym (by decide) ih)

theorem names_toks : ∀ {ns : List Str}, ns ≠ [] → ∀ us, names (nameToks ns ++ us) = some (ns, us)
  | [n], _, us => rfl
  | n :: m :: ns, _, us => by
    have ih := names_toks (ns := m :: ns) (by simp) us
    show (if ([','] : Str) = [')'] then some ([n], nameToks (m :: ns) ++ us)
      else if ([','] : Str) = [','] then (names (nameToks (m :: ns) ++ us)).map fun p => (n :: p.1, p.2) else none) = _
    rw [if_neg (by decide), if_pos rfl, ih]
    rfl

/-! ### Conditions -/

/-- The tokens of a number. -/
def numToks (neg : Bool) (s : Str) : List Tok := if neg then [y "-", .num s] else [.num s]

theorem gives_num {neg : Bool} {s : Str} (h : Numeral s) : Gives (Dec.signStr neg ++ s) (numToks neg s) := by
  intro r us hr hl
  cases neg with
  | false => exact lex_num h hr hl
  | true => exact lex_minus h hr hl

theorem gives_int (i : Int) : Gives (intText i) (numToks (decide (i < 0)) (Dec.digits i.natAbs)) :=
  gives_num (numeral_digits_sql (Dec.digits_ne_nil _) Dec.isDigit_digits)

/-- The tokens of a numeric bound. -/
def boundToks (b : Val) : List Tok := match boundOperand b with
  | .number neg s => numToks neg s
  | _ => []

theorem numeral_start {s : Str} (h : Numeral s) : ∀ r, s ≠ '-' :: r := by
  obtain ⟨⟨c, s', rfl, hc⟩, _⟩ := h
  intro r he
  cases he
  revert hc
  decide

theorem gives_bound {str : Val → Str} {b : Val} (hb : BoundText str none b) : Gives (boundText str b) (boundToks b) ∧
    ∃ neg s, boundOperand b = .number neg s := by
  obtain ⟨⟨n, rfl⟩ | ⟨t, rfl⟩ | ⟨neg, m, e, rfl⟩, hf⟩ := hb
  · exact ⟨gives_int n, _, _, rfl⟩
  · rcases hf t rfl with h | ⟨s, rfl, h⟩
    · have : boundOperand (.flt t) = .number false t := by
        unfold boundOperand
        split
        · rename_i h1; cases h1
        · rename_i h1; cases h1
        · rename_i s h1
          cases h1
          split
          · rename_i s
            exact absurd rfl (numeral_start h s)
          · rfl
        · rename_i h1
          exact absurd rfl (h1 t)
      refine ⟨?_, _, _, this⟩
      unfold boundToks
      rw [this]
      exact gives_num (neg := false) h
    · exact ⟨gives_num (neg := true) h, _, _, rfl⟩
  · refine ⟨?_, _, _, rfl⟩
    have : boundText str (.dec (.fin neg m e)) = Dec.signStr neg ++ (Dec.fin false m e).toStr false := by
      cases neg <;> rfl
    rw [this]
    exact gives_num (numeral_dec m e)

/-- The tokens of a condition. -/
def condToks (str : Val → Str) (col : Str) : ColSpec.Cond → List Tok
  | .ge (some f) b => [.word f, y "(", .name col, y ")", y ">=", .word f, y "(", .text (boundText str b), y ")"]
  | .ge none b => [.name col, y ">="] ++ boundToks b
  | .le (some f) b => [.word f, y "(", .name col, y ")", y "<=", .word f, y "(", .text (boundText str b), y ")"]
  | .le none b => [.name col, y "<="] ++ boundToks b
  | .lenEq n => [w "length", y "(", .name col, y ")", y "="] ++ numToks (decide (n < 0)) (Dec.digits n.natAbs)
  | .lenGe n => [w "length", y "(", .name col, y ")", y ">="] ++ numToks (decide (n < 0)) (Dec.digits n.natAbs)
  | .lenLe n => [w "length", y "(", .name col, y ")", y "<="] ++ numToks (decide (n < 0)) (Dec.digits n.natAbs)

/-- Conditions which can be written. -/
def CondText (str : Val → Str) : ColSpec.Cond → Prop
  | .ge f b | .le f b => BoundText str f b ∧ ∀ g, f = some g → g = "date".toList ∨ g = "datetime".toList
  | _ => True

theorem word_date : SqlWord "date".toList := ⟨'d', "ate".toList, rfl, by decide, by decide⟩
theorem word_datetime : SqlWord "datetime".toList := ⟨'d', "atetime".toList, rfl, by decide, by decide⟩
theorem word_length : SqlWord "length".toList := ⟨'l', "ength".toList, rfl, by decide, by decide⟩

theorem gives_cond {str : Val → Str} {col : Str} (hcol : Quotable col) {c : ColSpec.Cond} (hc : CondText str c) :
    Gives (condText str col c) (condToks str col c) := by
  have hlen : ∀ (op : Str) (n : Int), op = ['='] ∨ op = ['<', '='] ∨ op = ['>', '='] →
      Gives ("length(".toList ++ tick col ++ (')' :: ' ' :: op ++ [' ']) ++ intText n)
        ([w "length", y "(", .name col, y ")", .sym op] ++ numToks (decide (n < 0)) (Dec.digits n.natAbs)) := by
    intro op n hop r us hr hl
    have h1 := lex_blank (c := ' ') (by decide) (gives_int n r us hr hl)
    have h2 : Lex (' ' :: op ++ (' ' :: (intText n ++ r))) (.sym op :: (numToks (decide (n < 0)) (Dec.digits n.natAbs) ++ us)) := by
      refine lex_blank (by decide) ?_
      rcases hop with rfl | rfl | rfl
      · exact lex_sym (by decide) h1
      · exact lex_op (by decide) h1
      · exact lex_op (by decide) h1
    have h3 := lex_word word_length (delim_cons (by decide)) (lex_sym (c := '(') (by decide) (lex_tick hcol (delim_cons (by decide))
      (lex_sym (c := ')') (by decide) h2)))
    have he : "length(".toList ++ tick col ++ (')' :: ' ' :: op ++ [' ']) ++ intText n ++ r =
        "length".toList ++ '(' :: (tick col ++ ')' :: (' ' :: op ++ (' ' :: (intText n ++ r)))) := by simp
    rw [he]
    exact h3
  have hfun : ∀ (op f : Str) (b : Val), op = ['<', '='] ∨ op = ['>', '='] → SqlWord f → '\'' ∉ boundText str b →
      Gives (f ++ '(' :: tick col ++ (')' :: ' ' :: op ++ [' ']) ++ f ++ "('".toList ++ boundText str b ++ "')".toList)
        [.word f, y "(", .name col, y ")", .sym op, .word f, y "(", .text (boundText str b), y ")"] := by
    intro op f b hop hf hb r us hr hl
    have h1 := lex_blank (c := ' ') (by decide) (lex_word hf (delim_cons (by decide)) (lex_sym (c := '(') (by decide) (lex_text hb (delim_cons (by decide))
      (lex_sym (c := ')') (by decide) hl))))
    have h2 := lex_blank (c := ' ') (by decide) (show Lex (op ++ _) (.sym op :: _) by
      rcases hop with rfl | rfl
      · exact lex_op (by decide) h1
      · exact lex_op (by decide) h1)
    have h3 := lex_word hf (delim_cons (by decide)) (lex_sym (c := '(') (by decide) (lex_tick hcol (delim_cons (by decide))
      (lex_sym (c := ')') (by decide) h2)))
    have he : f ++ '(' :: tick col ++ (')' :: ' ' :: op ++ [' ']) ++ f ++ "('".toList ++ boundText str b ++ "')".toList ++ r =
        f ++ '(' :: (tick col ++ ')' :: (' ' :: (op ++ ' ' :: (f ++ '(' :: '\'' :: (boundText str b ++ '\'' :: ')' :: r))))) := by simp
    rw [he]
    exact h3
  have hbound : ∀ (op : Str) (b : Val), op = ['<', '='] ∨ op = ['>', '='] → BoundText str none b →
      Gives (tick col ++ (' ' :: op ++ [' ']) ++ boundText str b) ([.name col, .sym op] ++ boundToks b) := by
    intro op b hop hb r us hr hl
    have h1 := lex_blank (c := ' ') (by decide) ((gives_bound hb).1 r us hr hl)
    have h2 := lex_blank (c := ' ') (by decide) (show Lex (op ++ _) (.sym op :: _) by
      rcases hop with rfl | rfl
      · exact lex_op (by decide) h1
      · exact lex_op (by decide) h1)
    have h3 := lex_tick hcol (delim_cons (by decide)) h2
    have he : tick col ++ (' ' :: op ++ [' ']) ++ boundText str b ++ r = tick col ++ ' ' :: (op ++ ' ' :: (boundText str b ++ r)) := by simp
    rw [he]
    exact h3
  have hword : ∀ f : Str, f = "date".toList ∨ f = "datetime".toList → SqlWord f := by
    rintro f (rfl | rfl)
    · exact word_date
    · exact word_datetime
  cases c with
  | ge f b => cases f with
    | none => exact hbound _ b (.inr rfl) hc.1
    | some f => exact hfun _ f b (.inr rfl) (hword f (hc.2 f rfl)) hc.1
  | le f b => cases f with
    | none => exact hbound _ b (.inl rfl) hc.1
    | some f => exact hfun _ f b (.inl rfl) (hword f (hc.2 f rfl)) hc.1
  | lenEq n => exact hlen _ n (.inl rfl)
  | lenGe n => exact hlen _ n (.inr (.inr rfl))
  | lenLe n => exact hlen _ n (.inr (.inl rfl))

theorem comparison_toks {str : Val → Str} {col : Str} {c : ColSpec.Cond} (hc : CondText str c) :
    comparison (condToks str col c) = some (comparisonOf str col c) := by
  have hnum : ∀ neg s, operand (numToks neg s) = some (.number neg s, []) := by intro neg s; cases neg <;> rfl
  have hb : ∀ b, BoundText str none b → operand (boundToks b) = some (boundOperand b, []) := by
    intro b hb
    obtain ⟨_, neg, s, h⟩ := gives_bound hb
    unfold boundToks
    rw [h]
    exact hnum neg s
  have hlen : ∀ (op : Str) (n : Int), op ∈ ["=".toList, "<=".toList, ">=".toList] →
      comparison ([w "length", y "(", .name col, y ")", .sym op] ++ numToks (decide (n < 0)) (Dec.digits n.natAbs)) =
        some ⟨.columnFunc "length".toList col, op, intOperand n⟩ := by
    intro op n hop
    show (match operand (numToks (decide (n < 0)) (Dec.digits n.natAbs)) with
      | some (b, []) => if op ∈ ["=".toList, "<=".toList, ">=".toList] then some (Comparison.mk (.columnFunc "length".toList col) op b) else none
      | _ => none) = _
    rw [hnum]
    simp only [if_pos hop]
    rfl
  have hbound : ∀ (op : Str) (b : Val), op ∈ ["=".toList, "<=".toList, ">=".toList] → BoundText str none b →
      comparison ([.name col, .sym op] ++ boundToks b) = some ⟨.column col, op, boundOperand b⟩ := by
    intro op b hop hbb
    show (match operand (boundToks b) with
      | some (b, []) => if op ∈ ["=".toList, "<=".toList, ">=".toList] then some (Comparison.mk (.column col) op b) else none
      | _ => none) = _
    rw [hb b hbb]
    simp only [if_pos hop]
  cases c with
  | ge f b => cases f with
    | none => exact hbound _ b (by decide) hc.1
    | some f => rfl
  | le f b => cases f with
    | none => exact hbound _ b (by decide) hc.1
    | some f => rfl
  | lenEq n => exact hlen _ n (by decide)
  | lenGe n => exact hlen _ n (by decide)
  | lenLe n => exact hlen _ n (by decide)

/-- Lists of tokens with a token between them. -/
def sepToks (t : Tok) : List (List Tok) → List Tok
  | [] => []
  | [a] => a
  | a :: b :: r => a ++ t :: sepToks t (b :: r)

theorem splitAt_append {t : Tok} {a : List Tok} (h : t ∉ a) {l : List Tok} {p : List Tok} {ps : List (List Tok)} (hl : splitAt t l = p :: ps) :
    splitAt t (a ++ l) = (a ++ p) :: ps := by
  induction a with
  | nil => exact hl
  | cons u a ih =>
    simp only [List.mem_cons, not_or] at h
    rw [List.cons_append, splitAt, if_neg (Ne.symm h.1), ih h.2]
    rfl

theorem splitAt_sep {t : Tok} : ∀ {l : List (List Tok)}, l ≠ [] → (∀ a ∈ l, t ∉ a) → splitAt t (sepToks t l) = l
  | [a], _, h => by
    have := splitAt_append (h a (by simp)) (l := []) (p := []) (ps := []) rfl
    simpa [sepToks] using this
  | a :: b :: r, _, h => by
    have ih := splitAt_sep (t := t) (l := b :: r) (by simp) fun c hc => h c (List.mem_cons_of_mem _ hc)
    have := splitAt_append (h a (by simp)) (l := t :: sepToks t (b :: r)) (p := []) (ps := b :: r) (by rw [splitAt, if_pos rfl, ih])
    simpa [sepToks] using this

theorem mapM_map_some {α β γ : Type} {f : α → β} {g : β → Option γ} {h : α → γ} : ∀ {l : List α}, (∀ x ∈ l, g (f x) = some (h x)) →
    (l.map f).mapM g = some (l.map h)
  | [], _ => rfl
  | a :: l, hl => by
    have ih := mapM_map_some (f := f) (g := g) (h := h) (l := l) fun x hx => hl x (List.mem_cons_of_mem _ hx)
    rw [List.map_cons, List.mapM_cons, hl a (by simp), ih]
    rfl

theorem num_noWord {neg : Bool} {s v : Str} : Tok.word v ∉ numToks neg s := by
  cases neg <;> simp [numToks, y]

theorem bound_noWord {b : Val} {v : Str} : Tok.word v ∉ boundToks b := by
  unfold boundToks
  split
  · exact num_noWord
  · simp

theorem cond_noAnd {str : Val → Str} {col : Str} {c : ColSpec.Cond} (hc : CondText str c) : w "AND" ∉ condToks str col c := by
  have hf : ∀ f : Str, f = "date".toList ∨ f = "datetime".toList → w "AND" ≠ .word f := by rintro f (rfl | rfl) <;> decide
  have hl : w "AND" ≠ w "length" := by decide
  have hb : ∀ b, w "AND" ∉ boundToks b := fun b => bound_noWord
  have hn : ∀ neg s, w "AND" ∉ numToks neg s := fun _ _ => num_noWord
  have hy : ∀ s, w "AND" ≠ y s := fun s h => by simp [w, y] at h
  have hnm : ∀ s, w "AND" ≠ .name s := fun s h => by simp [w] at h
  have ht : ∀ s, w "AND" ≠ .text s := fun s h => by simp [w] at h
  cases c with
  | ge f b => cases f with
    | none => simp [condToks, hy, hnm, hb]
    | some f => simp [condToks, hy, hnm, ht, hf f (hc.2 f rfl)]
  | le f b => cases f with
    | none => simp [condToks, hy, hnm, hb]
    | some f => simp [condToks, hy, hnm, ht, hf f (hc.2 f rfl)]
  | lenEq n => simp [condToks, hy, hnm, hl, hn]
  | lenGe n => simp [condToks, hy, hnm, hl, hn]
  | lenLe n => simp [condToks, hy, hnm, hl, hn]

theorem condition_toks {str : Val → Str} {col : Str} {l : List ColSpec.Cond} (hne : l ≠ []) (hl : ∀ c ∈ l, CondText str c) :
    condition (sepToks (w "AND") (l.map (condToks str col))) = some (l.map (comparisonOf str col)) := by
  unfold condition
  rw [splitAt_sep (by simpa using hne)]
  · exact mapM_map_some fun c hc => comparison_toks (hl c hc)
  · intro a ha
    obtain ⟨c, hc, rfl⟩ := List.mem_map.1 ha
    exact cond_noAnd (hl c hc)

/-- Texts with a text between them, which starts and ends with a blank or a comma. -/
theorem gives_sep {α : Type} {f : α → Str} {g : α → List Tok} {sep : Str} {t : Tok} (hs : Delim sep) (hsne : sep ≠ [])
    (hlex : ∀ r us, Lex r us → Lex (sep ++ r) (t :: us)) :
    ∀ {l : List α}, l ≠ [] → (∀ a ∈ l, Gives (f a) (g a)) → Gives (join sep (l.map f)) (sepToks t (l.map g))
  | [a], _, h => h a (by simp)
  | a :: b :: r, _, h => by
    have ih := gives_sep (f := f) (g := g) hs hsne hlex (l := b :: r) (by simp) fun c hc => h c (List.mem_cons_of_mem _ hc)
    intro r' us hr hl
    have h1 := hlex _ _ (ih r' us hr hl)
    have hd : Delim (sep ++ (join sep ((b :: r).map f) ++ r')) := by
      cases sep with
      | nil => simp at hsne
      | cons c s =>
        intro d hd
        exact hs d (by simpa using hd)
    have := h a (by simp) _ _ hd h1
    simpa [join, sepToks] using this

theorem lex_and {r : Str} {us : List Tok} (h : Lex r us) : Lex (" AND ".toList ++ r) (w "AND" :: us) :=
  lex_blank (c := ' ') (by decide) (lex_word (s := "AND".toList) ⟨'A', ['N', 'D'], rfl, by decide, by decide⟩ (delim_cons (c := ' ') (by decide))
    (lex_blank (c := ' ') (by decide) h))

/-! ### Clauses -/

/-- The tokens of a column. -/
def colToks (str : Val → Str) (col : Str) (c : ColSpec) : List Tok :=
  [.name col, .word (typeName c.dbType)] ++ (if c.required then [w "NOT", w "NULL"] else []) ++
    (if c.check = [] then [] else [w "CHECK", y "("] ++ sepToks (w "AND") (c.check.map (condToks str col)) ++ [y ")"])

theorem word_type (ty : DbType) : SqlWord (typeName ty) := by
  cases ty
  · exact ⟨'T', "EXT".toList, rfl, by decide, by decide⟩
  · exact ⟨'I', "NTEGER".toList, rfl, by decide, by decide⟩
  · exact ⟨'R', "EAL".toList, rfl, by decide, by decide⟩
  · exact ⟨'B', "LOB".toList, rfl, by decide, by decide⟩

theorem gives_col {str : Val → Str} {col : Str} (hcol : Quotable col) {c : ColSpec} (hc : ∀ k ∈ c.check, CondText str k) :
    Gives (colText str col c) (colToks str col c) := by
  intro r us hr hl
  have h1 : ∃ r', (if c.check = [] then [] else " CHECK (".toList ++ join " AND ".toList (c.check.map (condText str col)) ++ [')']) ++ r = r' ∧
      Delim r' ∧ Lex r' ((if c.check = [] then [] else [w "CHECK", y "("] ++ sepToks (w "AND") (c.check.map (condToks str col)) ++ [y ")"]) ++ us) := by
    refine ⟨_, rfl, ?_, ?_⟩
    · split
      · exact hr
      · exact delim_cons (by decide)
    · split
      · exact hl
      · rename_i hne
        have h := gives_sep (f := condText str col) (g := condToks str col) (sep := " AND ".toList) (t := w "AND") (delim_cons (by decide)) (by decide)
          (fun r us h => lex_and h) hne (fun a ha => gives_cond hcol (hc a ha)) (')' :: r) (y ")" :: us) (delim_cons (by decide)) (lex_sym (by decide) hl)
        have := lex_blank (c := ' ') (by decide) (lex_word (s := "CHECK".toList) ⟨'C', "HECK".toList, rfl, by decide, by decide⟩ (delim_cons (c := ' ') (by decide))
          (lex_blank (c := ' ') (by decide) (lex_sym (c := '(') (by decide) h)))
        simpa [w, y] using this
  obtain ⟨r', hr', h2, h3⟩ := h1
  have h4 : ∃ r'', (if c.required then " NOT NULL".toList else []) ++ r' = r'' ∧ Delim r'' ∧
      Lex r'' ((if c.required then [w "NOT", w "NULL"] else []) ++
        ((if c.check = [] then [] else [w "CHECK", y "("] ++ sepToks (w "AND") (c.check.map (condToks str col)) ++ [y ")"]) ++ us)) := by
    refine ⟨_, rfl, ?_, ?_⟩
    · split
      · exact delim_cons (by decide)
      · exact h2
    · split
      · exact lex_blank (c := ' ') (by decide) (lex_word (s := "NOT".toList) ⟨'N', "OT".toList, rfl, by decide, by decide⟩ (delim_cons (c := ' ') (by decide))
          (lex_blank (c := ' ') (by decide) (lex_word (s := "NULL".toList) ⟨'N', "ULL".toList, rfl, by decide, by decide⟩ h2 h3)))
      · exact h3
  obtain ⟨r'', hr'', h5, h6⟩ := h4
  have h7 := lex_tick hcol (delim_cons (by decide)) (lex_blank (c := ' ') (by decide) (lex_word (word_type c.dbType) h5 h6))
  have ht : typeText c.dbType = typeName c.dbType := by cases c.dbType <;> rfl
  have he : colText str col c ++ r = tick col ++ ' ' :: (typeName c.dbType ++ r'') := by
    rw [← hr'', ← hr', ← ht]
    unfold colText
    simp only [List.append_assoc, List.cons_append]
  rw [he]
  unfold colToks
  simp only [List.append_assoc, List.cons_append, List.nil_append] at h7 ⊢
  exact h7

theorem clause_col {str : Val → Str} {col : Str} {c : ColSpec} (hc : ∀ k ∈ c.check, CondText str k) :
    clause (colToks str col c) = some (.column col (typeName c.dbType) c.required (c.check.map (comparisonOf str col))) := by
  have h1 : checkOf (if c.check = [] then [] else [w "CHECK", y "("] ++ sepToks (w "AND") (c.check.map (condToks str col)) ++ [y ")"]) =
      some (c.check.map (comparisonOf str col)) := by
    split
    · rename_i h
      rw [h]
      rfl
    · rename_i h
      rw [List.append_assoc]
      show (if w "CHECK" = w "CHECK" ∧ y "(" = y "(" ∧ (sepToks (w "AND") (c.check.map (condToks str col)) ++ [y ")"]).getLast? = some (y ")") then
        condition (sepToks (w "AND") (c.check.map (condToks str col)) ++ [y ")"]).dropLast else none) = _
      rw [if_pos ⟨rfl, rfl, by simp⟩, List.dropLast_concat, condition_toks h hc]
  have h2 : clause (colToks str col c) = columnOf col (typeName c.dbType) ((if c.required then [w "NOT", w "NULL"] else []) ++
      (if c.check = [] then [] else [w "CHECK", y "("] ++ sepToks (w "AND") (c.check.map (condToks str col)) ++ [y ")"])) := by
    unfold colToks
    rw [List.append_assoc]
    rfl
  rw [h2]
  generalize hl : (if c.check = [] then [] else [w "CHECK", y "("] ++ sepToks (w "AND") (c.check.map (condToks str col)) ++ [y ")"]) = l at h1 ⊢
  cases c.required with
  | true =>
    show (if w "NOT" = w "NOT" ∧ w "NULL" = w "NULL" then (checkOf l).map (Clause.column col (typeName c.dbType) true)
      else (checkOf (w "NOT" :: w "NULL" :: l)).map (Clause.column col (typeName c.dbType) false)) = _
    rw [if_pos ⟨rfl, rfl⟩, h1]
    rfl
  | false =>
    show columnOf col (typeName c.dbType) l = _
    unfold columnOf
    split
    · rename_i a b r
      split at hl
      · cases hl
      · have : w "CHECK" = a := by simpa using congrArg List.head? hl
        subst this
        have hne : w "CHECK" ≠ w "NOT" := by decide
        rw [if_neg fun h => hne h.1, h1]
        rfl
    · rw [h1]
      rfl

/-- The tokens of a primary key. -/
def keyToks (ns : List Str) : List Tok := [w "PRIMARY", w "KEY", y "("] ++ nameToks ns

/-- The tokens of a foreign key. -/
def foreignToks (ns : List Str) (t : Str) (refs : List Str) : List Tok :=
  [w "FOREIGN", w "KEY", y "("] ++ nameToks ns ++ [w "REFERENCES", .name t, y "("] ++ nameToks refs ++ [w "ON", w "DELETE", w "CASCADE"]

/-- A keyword after a blank. -/
theorem lex_kw {s r : Str} {us : List Tok} (hs : SqlWord s) (hr : Delim r) (h : Lex r us) : Lex (' ' :: (s ++ r)) (.word s :: us) :=
  lex_blank (by decide) (lex_word hs hr h)

theorem word_of {s : Str} (h : (match s with | [] => false | c :: s' => c.isAlpha && s'.all isIdChar) = true) : SqlWord s := by
  cases s with
  | nil => cases h
  | cons c s =>
    simp only [Bool.and_eq_true, List.all_eq_true] at h
    exact ⟨c, s, rfl, h.1, h.2⟩

theorem key_shape {L A B q r : Str} (h : L = A ++ ' ' :: (B ++ ['('])) : L ++ q ++ [')'] ++ r = A ++ ' ' :: (B ++ '(' :: (q ++ ')' :: r)) := by
  subst h
  simp

theorem foreign_shape {L M N A B C D E F q t q' r : Str} (h : L = A ++ ' ' :: (B ++ ['('])) (h2 : M = ')' :: ' ' :: (C ++ [' ']))
    (h3 : N = ')' :: ' ' :: (D ++ ' ' :: (E ++ ' ' :: F))) :
    L ++ q ++ M ++ t ++ '(' :: q' ++ N ++ r =
      A ++ ' ' :: (B ++ '(' :: (q ++ ')' :: ' ' :: (C ++ ' ' :: (t ++ '(' :: (q' ++ ')' :: ' ' :: (D ++ ' ' :: (E ++ ' ' :: (F ++ r)))))))) := by
  subst h h2 h3
  simp

theorem gives_key {ns : List Str} (hne : ns ≠ []) (hq : ∀ n ∈ ns, Quotable n) : Gives (keyText ns) (keyToks ns) := by
  intro r us hr hl
  have h := lex_word (s := "PRIMARY".toList) (word_of (by decide)) (delim_cons (c := ' ') (by decide)) (lex_kw (s := "KEY".toList) (word_of (by decide))
    (delim_cons (c := '(') (by decide)) (lex_sym (c := '(') (by decide) (lex_names hne hq hl)))
  have he : keyText ns ++ r = "PRIMARY".toList ++ ' ' :: ("KEY".toList ++ '(' :: (quoted ns ++ ')' :: r)) := key_shape (by decide)
  rw [he]
  exact h

theorem gives_foreign {ns refs : List Str} {t : Str} (hne : ns ≠ []) (hq : ∀ n ∈ ns, Quotable n) (ht : Quotable t) (hne' : refs ≠ [])
    (hq' : ∀ n ∈ refs, Quotable n) : Gives (foreignText ns t refs) (foreignToks ns t refs) := by
  intro r us hr hl
  have h1 := lex_kw (s := "ON".toList) (word_of (by decide)) (delim_cons (c := ' ') (by decide)) (lex_kw (s := "DELETE".toList) (word_of (by decide))
    (delim_cons (c := ' ') (by decide)) (lex_kw (s := "CASCADE".toList) (word_of (by decide)) hr hl))
  have h2 := lex_kw (s := "REFERENCES".toList) (word_of (by decide)) (delim_cons (c := ' ') (by decide)) (lex_blank (c := ' ') (by decide)
    (lex_tick ht (delim_cons (c := '(') (by decide)) (lex_sym (c := '(') (by decide) (lex_names hne' hq' h1))))
  have h := lex_word (s := "FOREIGN".toList) (word_of (by decide)) (delim_cons (c := ' ') (by decide)) (lex_kw (s := "KEY".toList) (word_of (by decide))
    (delim_cons (c := '(') (by decide)) (lex_sym (c := '(') (by decide) (lex_names hne hq h2)))
  have he : foreignText ns t refs ++ r = "FOREIGN".toList ++ ' ' :: ("KEY".toList ++ '(' :: (quoted ns ++ ')' :: ' ' :: ("REFERENCES".toList ++ ' ' :: (tick t ++
      '(' :: (quoted refs ++ ')' :: ' ' :: ("ON".toList ++ ' ' :: ("DELETE".toList ++ ' ' :: ("CASCADE".toList ++ r)))))))) := foreign_shape (by decide) (by decide) (by decide)
  rw [he]
  unfold foreignToks
  simp only [List.append_assoc, List.cons_append, List.nil_append] at h ⊢
  exact h

theorem clause_key {ns : List Str} (hne : ns ≠ []) : clause (keyToks ns) = some (.primaryKey ns) := by
  have h := names_toks hne []
  rw [List.append_nil] at h
  show (match names (nameToks ns) with
    | some (cols, []) => some (Clause.primaryKey cols)
    | _ => none) = _
  rw [h]

theorem clause_foreign {ns refs : List Str} {t : Str} (hne : ns ≠ []) (hne' : refs ≠ []) :
    clause (foreignToks ns t refs) = some (.foreignKey ns t refs) := by
  have h := names_toks hne ([w "REFERENCES", .name t, y "("] ++ nameToks refs ++ [w "ON", w "DELETE", w "CASCADE"])
  have h' := names_toks hne' [w "ON", w "DELETE", w "CASCADE"]
  have he : foreignToks ns t refs = [w "FOREIGN", w "KEY", y "("] ++
      (nameToks ns ++ ([w "REFERENCES", .name t, y "("] ++ nameToks refs ++ [w "ON", w "DELETE", w "CASCADE"])) := by
    simp [foreignToks]
  rw [he]
  show (match names (nameToks ns ++ ([w "REFERENCES", .name t, y "("] ++ nameToks refs ++ [w "ON", w "DELETE", w "CASCADE"])) with
    | some (cols, u :: .name t :: o' :: r') =>
      if u = w "REFERENCES" ∧ o' = y "(" then match names r' with
        | some (refs, e) => if e = [w "ON", w "DELETE", w "CASCADE"] then some (Clause.foreignKey cols t refs) else none
        | none => none
      else none
    | _ => none) = _
  rw [h]
  show (match names (nameToks refs ++ [w "ON", w "DELETE", w "CASCADE"]) with
        | some (refs, e) => if e = [w "ON", w "DELETE", w "CASCADE"] then some (Clause.foreignKey ns t refs) else none
        | none => none) = _
  rw [h']
  simp only [if_true]

/-! ### The whole statement -/

/-- No commas outside of parentheses, which are balanced. -/
def Whole (ts : List Tok) : Prop := ∀ k acc r, body k acc (ts ++ r) = body k (acc ++ ts) r

/-- Parentheses are balanced. -/
def Inner (ts : List Tok) : Prop := ∀ k acc r, body (k + 1) acc (ts ++ r) = body (k + 1) (acc ++ ts) r

theorem whole_inner {ts : List Tok} (h : Whole ts) : Inner ts := fun k => h (k + 1)

theorem whole_nil : Whole [] := by intro k acc r; simp
theorem whole_append {a b : List Tok} (ha : Whole a) (hb : Whole b) : Whole (a ++ b) := by
  intro k acc r
  rw [List.append_assoc, ha, hb, List.append_assoc]
theorem inner_append {a b : List Tok} (ha : Inner a) (hb : Inner b) : Inner (a ++ b) := by
  intro k acc r
  rw [List.append_assoc, ha, hb, List.append_assoc]

theorem whole_one {t : Tok} (h : t ≠ y "(" ∧ t ≠ y ")" ∧ t ≠ y ",") : Whole [t] := by
  intro k acc r
  rw [List.singleton_append]
  conv => lhs; unfold body
  rw [if_neg h.1, if_neg h.2.1, if_neg fun h' => h.2.2 h'.1]

theorem inner_comma : Inner [y ","] := by
  intro k acc r
  rw [List.singleton_append]
  conv => lhs; unfold body
  rw [if_neg (by decide), if_neg (by decide), if_neg fun h' => by omega]

theorem whole_paren {ts : List Tok} (h : Inner ts) : Whole (y "(" :: ts ++ [y ")"]) := by
  intro k acc r
  have h1 : body k acc (y "(" :: (ts ++ y ")" :: r)) = body (k + 1) (acc ++ [y "("]) (ts ++ y ")" :: r) := by
    conv => lhs; unfold body
    rw [if_pos rfl]
  have h2 : ∀ a, body (k + 1) a (y ")" :: r) = body k (a ++ [y ")"]) r := by
    intro a
    conv => lhs; unfold body
    rw [if_neg (by decide), if_pos rfl]
  simp only [List.cons_append, List.append_assoc, List.nil_append]
  rw [h1, h, h2]
  simp

theorem names_split : ∀ {ns : List Str}, ns ≠ [] → ∃ ts, nameToks ns = ts ++ [y ")"] ∧ Inner ts
  | [n], _ => ⟨[.name n], rfl, whole_inner (whole_one ⟨by simp [y], by simp [y], by simp [y]⟩)⟩
  | n :: m :: ns, _ => by
    obtain ⟨ts, h1, h2⟩ := names_split (ns := m :: ns) (by simp)
    refine ⟨[.name n] ++ [y ","] ++ ts, by simp [nameToks, h1], ?_⟩
    exact inner_append (inner_append (whole_inner (whole_one ⟨by simp [y], by simp [y], by simp [y]⟩)) inner_comma) h2

theorem whole_names {ns : List Str} (h : ns ≠ []) : Whole (y "(" :: nameToks ns) := by
  obtain ⟨ts, h1, h2⟩ := names_split h
  rw [h1]
  exact whole_paren h2

theorem whole_list {ts : List Tok} (h : ∀ t ∈ ts, t ≠ y "(" ∧ t ≠ y ")" ∧ t ≠ y ",") : Whole ts := by
  induction ts with
  | nil => exact whole_nil
  | cons t ts ih => exact whole_append (whole_one (h t (by simp))) (ih fun u hu => h u (List.mem_cons_of_mem _ hu))

theorem whole_key {ns : List Str} (h : ns ≠ []) : Whole (keyToks ns) :=
  whole_append (a := [w "PRIMARY", w "KEY"]) (whole_list (by decide)) (whole_names h)

theorem whole_foreign {ns refs : List Str} {t : Str} (h : ns ≠ []) (h' : refs ≠ []) : Whole (foreignToks ns t refs) := by
  have he : foreignToks ns t refs = [w "FOREIGN", w "KEY"] ++ (y "(" :: nameToks ns) ++ [w "REFERENCES", .name t] ++ (y "(" :: nameToks refs) ++
      [w "ON", w "DELETE", w "CASCADE"] := by simp [foreignToks]
  rw [he]
  refine whole_append (whole_append (whole_append (whole_append (whole_list (by decide)) (whole_names h)) (whole_list ?_)) (whole_names h'))
    (whole_list (by decide))
  intro u hu
  simp only [List.mem_cons, List.not_mem_nil, or_false] at hu
  rcases hu with rfl | rfl <;> simp [w, y]

theorem whole_num {neg : Bool} {s : Str} : Whole (numToks neg s) := by
  refine whole_list ?_
  cases neg <;> simp [numToks, y] <;> decide

theorem whole_bound {b : Val} : Whole (boundToks b) := by
  unfold boundToks
  split
  · exact whole_num
  · exact whole_nil

theorem whole_func {f : Str} {t : Tok} (ht : t ≠ y "(" ∧ t ≠ y ")" ∧ t ≠ y ",") : Whole [.word f, y "(", t, y ")"] :=
  whole_append (a := [.word f]) (b := y "(" :: [t] ++ [y ")"]) (whole_one ⟨by simp [y], by simp [y], by simp [y]⟩) (whole_paren (whole_inner (whole_one ht)))

theorem whole_cond {str : Val → Str} {col : Str} {c : ColSpec.Cond} : Whole (condToks str col c) := by
  have hop : ∀ s, s = ">=" ∨ s = "<=" ∨ s = "=" → Whole [y s] := by
    rintro s (rfl | rfl | rfl) <;> exact whole_one (by decide)
  have hname : Whole [.name col] := whole_one ⟨by simp [y], by simp [y], by simp [y]⟩
  have hcf : ∀ f, Whole [.word f, y "(", .name col, y ")"] := fun f => whole_func ⟨by simp [y], by simp [y], by simp [y]⟩
  have htf : ∀ f s, Whole [.word f, y "(", .text s, y ")"] := fun f s => whole_func ⟨by simp [y], by simp [y], by simp [y]⟩
  cases c with
  | ge f b => cases f with
    | none => exact whole_append (whole_append (a := [.name col]) (b := [y ">="]) hname (hop _ (.inl rfl))) whole_bound
    | some f => exact whole_append (whole_append (b := [y ">="]) (hcf f) (hop _ (.inl rfl))) (htf f _)
  | le f b => cases f with
    | none => exact whole_append (whole_append (a := [.name col]) (b := [y "<="]) hname (hop _ (.inr (.inl rfl)))) whole_bound
    | some f => exact whole_append (whole_append (b := [y "<="]) (hcf f) (hop _ (.inr (.inl rfl)))) (htf f _)
  | lenEq n => exact whole_append (whole_append (b := [y "="]) (hcf _) (hop _ (.inr (.inr rfl)))) whole_num
  | lenGe n => exact whole_append (whole_append (b := [y ">="]) (hcf _) (hop _ (.inl rfl))) whole_num
  | lenLe n => exact whole_append (whole_append (b := [y "<="]) (hcf _) (hop _ (.inr (.inl rfl)))) whole_num

theorem whole_sep {t : Tok} (ht : Whole [t]) : ∀ {l : List (List Tok)}, (∀ a ∈ l, Whole a) → Whole (sepToks t l)
  | [], _ => whole_nil
  | [a], h => h a (by simp)
  | a :: b :: r, h => by
    have ih := whole_sep ht (l := b :: r) fun c hc => h c (List.mem_cons_of_mem _ hc)
    exact whole_append (h a (by simp)) (whole_append (a := [t]) ht ih)

theorem whole_col {str : Val → Str} {col : Str} {c : ColSpec} : Whole (colToks str col c) := by
  unfold colToks
  refine whole_append (whole_append (whole_list ?_) ?_) ?_
  · simp [y]
  · split
    · exact whole_list (by decide)
    · exact whole_nil
  · split
    · exact whole_nil
    · refine whole_append (a := [w "CHECK"]) (b := y "(" :: sepToks (w "AND") (c.check.map (condToks str col)) ++ [y ")"]) (whole_one (by decide))
        (whole_paren (whole_inner (whole_sep (whole_one (by decide)) ?_)))
      intro a ha
      obtain ⟨k, _, rfl⟩ := List.mem_map.1 ha
      exact whole_cond

theorem body_sep : ∀ {l : List (List Tok)}, l ≠ [] → (∀ a ∈ l, Whole a) → body 0 [] (sepToks (y ",") l ++ [y ")"]) = some (l, [])
  | [a], _, h => by
    show body 0 [] (a ++ [y ")"]) = _
    rw [h a (by simp)]
    rfl
  | a :: b :: r, _, h => by
    have ih := body_sep (l := b :: r) (by simp) fun c hc => h c (List.mem_cons_of_mem _ hc)
    have he : sepToks (y ",") (a :: b :: r) ++ [y ")"] = a ++ (y "," :: (sepToks (y ",") (b :: r) ++ [y ")"])) := by simp [sepToks]
    rw [he, h a (by simp)]
    conv => lhs; unfold body
    rw [if_neg (by decide), if_neg (by decide), if_pos ⟨rfl, rfl⟩, ih]
    rfl

theorem check_texts {str : Val → Str} {tr : Translator} {t : TableSpec} (h : SqlExpressible str tr t) {c : ColSpec} (hc : c ∈ t.columns) :
    ∀ k ∈ c.check, CondText str k := by
  have hb := h.bounds c hc
  have hf : ∀ g, c.func = some g → g = "date".toList ∨ g = "datetime".toList := by
    intro g hg
    unfold ColSpec.func at hg
    split at hg
    · exact .inl (Option.some.inj hg).symm
    · exact .inr (Option.some.inj hg).symm
    · cases hg
  intro k hk
  unfold ColSpec.check at hk
  cases hd : c.csvw with
  | none => rw [hd] at hk; cases hk
  | some d =>
    rw [hd] at hk
    dsimp only at hk
    split at hk
    · rcases List.mem_append.1 hk with hk | hk
      · obtain ⟨b, hbm, rfl⟩ := List.mem_map.1 hk
        refine ⟨?_, hf⟩
        rw [func_eq]
        exact hb d hd b (.inl (by simpa using hbm))
      · obtain ⟨b, hbm, rfl⟩ := List.mem_map.1 hk
        refine ⟨?_, hf⟩
        rw [func_eq]
        exact hb d hd b (.inr (by simpa using hbm))
    · have hl : ∀ (mk : Int → ColSpec.Cond) n, (∀ i, CondText str (mk i)) → k ∈ ColSpec.lenCond mk n → CondText str k := by
        intro mk n hmk hk
        unfold ColSpec.lenCond at hk
        split at hk
        · split at hk
          · cases hk
          · rw [List.mem_singleton.1 hk]; exact hmk _
        · cases hk
      rcases List.mem_append.1 hk with hk | hk
      · rcases List.mem_append.1 hk with hk | hk
        · exact hl .lenEq _ (fun _ => trivial) hk
        · exact hl .lenGe _ (fun _ => trivial) hk
      · exact hl .lenLe _ (fun _ => trivial) hk

/-- The clauses of a statement, their tokens and what they mean. -/
theorem clauses_all {str : Val → Str} {tr : Translator} {t : TableSpec} (h : SqlExpressible str tr t) :
    ∃ l : List (Str × List Tok × Clause), l.map (fun p => p.1) = clauses str tr t ∧ l.map (fun p => p.2.2) = clausesOf str tr t ∧ l ≠ [] ∧
      ∀ p ∈ l, Gives p.1 p.2.1 ∧ Whole p.2.1 ∧ clause p.2.1 = some p.2.2 := by
  let l1 : List (Str × List Tok × Clause) := t.columns.map fun c =>
    (colText str (tr t.name (some c.name)) c, colToks str (tr t.name (some c.name)) c,
      .column (tr t.name (some c.name)) (typeName c.dbType) c.required (c.check.map (comparisonOf str (tr t.name (some c.name)))))
  let l2 : List (Str × List Tok × Clause) := (t.primaryKey.toList.filter (· ≠ [])).map fun pk =>
    (keyText (pk.map fun k => tr t.name (some k)), keyToks (pk.map fun k => tr t.name (some k)), .primaryKey (pk.map fun k => tr t.name (some k)))
  let l3 : List (Str × List Tok × Clause) := t.foreignKeys.map fun fk =>
    (foreignText (fk.1.map fun k => tr t.name (some k)) (tr fk.2.1 none) (fk.2.2.map fun k => tr fk.2.1 (some k)),
     foreignToks (fk.1.map fun k => tr t.name (some k)) (tr fk.2.1 none) (fk.2.2.map fun k => tr fk.2.1 (some k)),
     .foreignKey (fk.1.map fun k => tr t.name (some k)) (tr fk.2.1 none) (fk.2.2.map fun k => tr fk.2.1 (some k)))
  refine ⟨l1 ++ l2 ++ l3, ?_, ?_, ?_, ?_⟩
  · simp only [l1, l2, l3, List.map_append, List.map_map]
    unfold clauses
    congr 2
    cases t.primaryKey with
    | none => rfl
    | some pk => cases pk <;> rfl
  · simp only [l1, l2, l3, List.map_append, List.map_map]
    rfl
  · have := h.columns.1
    intro he
    simp only [List.append_eq_nil_iff] at he
    exact this (List.map_eq_nil_iff.1 he.1.1)
  · intro p hp
    rcases List.mem_append.1 hp with hp | hp
    · rcases List.mem_append.1 hp with hp | hp
      · obtain ⟨c, hc, rfl⟩ := List.mem_map.1 hp
        exact ⟨gives_col (h.columns.2 c hc) (check_texts h hc), whole_col, clause_col (check_texts h hc)⟩
      · obtain ⟨pk, hpk, rfl⟩ := List.mem_map.1 hp
        obtain ⟨h1, h2⟩ := List.mem_filter.1 hpk
        have hne : (pk.map fun k => tr t.name (some k)) ≠ [] := by simpa using h2
        refine ⟨gives_key hne ?_, whole_key hne, clause_key hne⟩
        intro n hn
        obtain ⟨k, hk, rfl⟩ := List.mem_map.1 hn
        exact h.key pk (by simpa using h1) k hk
    · obtain ⟨fk, hfk, rfl⟩ := List.mem_map.1 hp
      obtain ⟨h1, h2, h3, h4, h5⟩ := h.foreign fk hfk
      have hne : (fk.1.map fun k => tr t.name (some k)) ≠ [] := by simpa using h1
      have hne' : (fk.2.2.map fun k => tr fk.2.1 (some k)) ≠ [] := by simpa using h4
      refine ⟨gives_foreign hne ?_ h3 hne' ?_, whole_foreign hne hne', clause_foreign hne hne'⟩
      · intro n hn
        obtain ⟨k, hk, rfl⟩ := List.mem_map.1 hn
        exact h2 k hk
      · intro n hn
        obtain ⟨k, hk, rfl⟩ := List.mem_map.1 hn
        exact h5 k hk

theorem create_shape {L M A B C D E n q r : Str} (h : L = A ++ ' ' :: (B ++ ' ' :: (C ++ ' ' :: (D ++ ' ' :: (E ++ [' '])))))
    (h2 : M = [' ', '(', '\n', ' ', ' ', ' ', ' ']) :
    L ++ n ++ M ++ q ++ r = A ++ ' ' :: (B ++ ' ' :: (C ++ ' ' :: (D ++ ' ' :: (E ++ ' ' :: (n ++ ' ' :: '(' :: '\n' :: ' ' :: ' ' :: ' ' :: ' ' :: (q ++ r)))))) := by
  subst h h2
  simp

/-! ## Theorems -/

/-- **C86** The statement for creating a table, as SQLite reads it: it creates a table of this name with columns of these names and types, and with exactly the
constraints of the specification. -/
theorem C86_create {str : Val → Str} {tr : Translator} {t : TableSpec} (h : SqlExpressible str tr t) :
    ∃ ts, Lex (createText str tr t) ts ∧ createTable ts = some (tr t.name none, clausesOf str tr t) := by
  obtain ⟨l, h1, h2, hne, h3⟩ := clauses_all h
  have hsep : ∀ r us, Lex r us → Lex (",\n    ".toList ++ r) (y "," :: us) := by
    intro r us hl
    have hL : ",\n    ".toList = [',', '\n', ' ', ' ', ' ', ' '] := by decide
    rw [hL]
    simp only [List.cons_append, List.nil_append]
    exact lex_sym (by decide) (lex_blank (by decide) (lex_blank (by decide) (lex_blank (by decide) (lex_blank (by decide) (lex_blank (by decide) hl)))))
  have hbody := gives_sep (f := fun p : Str × List Tok × Clause => p.1) (g := fun p => p.2.1) (sep := ",\n    ".toList) (t := y ",")
    (delim_cons (by decide)) (by decide) hsep hne (fun p hp => (h3 p hp).1) "\n)".toList [y ")"] (delim_cons (by decide))
    (lex_blank (c := '\n') (by decide) (lex_sym (c := ')') (by decide) .nil))
  rw [h1] at hbody
  have hhead := lex_word (s := "CREATE".toList) (word_of (by decide)) (delim_cons (c := ' ') (by decide)) (lex_kw (s := "TABLE".toList) (word_of (by decide))
    (delim_cons (c := ' ') (by decide)) (lex_kw (s := "IF".toList) (word_of (by decide)) (delim_cons (c := ' ') (by decide)) (lex_kw (s := "NOT".toList)
    (word_of (by decide)) (delim_cons (c := ' ') (by decide)) (lex_kw (s := "EXISTS".toList) (word_of (by decide)) (delim_cons (c := ' ') (by decide))
    (lex_blank (c := ' ') (by decide) (lex_tick h.name (delim_cons (c := ' ') (by decide)) (lex_blank (c := ' ') (by decide) (lex_sym (c := '(') (by decide)
    (lex_blank (c := '\n') (by decide) (lex_blank (c := ' ') (by decide) (lex_blank (c := ' ') (by decide) (lex_blank (c := ' ') (by decide)
    (lex_blank (c := ' ') (by decide) hbody)))))))))))))
  have he : createText str tr t = "CREATE".toList ++ ' ' :: ("TABLE".toList ++ ' ' :: ("IF".toList ++ ' ' :: ("NOT".toList ++ ' ' :: ("EXISTS".toList ++
        ' ' :: (tick (tr t.name none) ++ ' ' :: '(' :: '\n' :: ' ' :: ' ' :: ' ' :: ' ' :: (join ",\n    ".toList (clauses str tr t) ++ "\n)".toList)))))) :=
    create_shape (by decide) (by decide)
  rw [he]
  refine ⟨_, hhead, ?_⟩
  · have hb := body_sep (l := l.map fun p => p.2.1) (by simpa using hne) (by
      intro a ha
      obtain ⟨p, hp, rfl⟩ := List.mem_map.1 ha
      exact (h3 p hp).2.1)
    have hc := mapM_map_some (f := fun p : Str × List Tok × Clause => p.2.1) (g := clause) (h := fun p => p.2.2) fun p hp => (h3 p hp).2.2
    show (match body 0 [] (sepToks (y ",") (l.map fun p => p.2.1) ++ [y ")"]) with
      | some (cs, []) => (cs.mapM clause).map fun l => (tr t.name none, l)
      | _ => none) = _
    rw [hb]
    show ((l.map fun p => p.2.1).mapM clause).map _ = _
    rw [hc, h2]
    rfl

end Csvw.Props
