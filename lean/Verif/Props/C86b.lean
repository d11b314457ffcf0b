import Verif.Props.C86
/-!
# C86: inserting and reading, examples and deviations
-/

namespace Csvw.Props
open Csvw Csvw.Py Csvw.Db Csvw.Spec.Sql

/-! ## Proof -/

/-- The tokens of parameters, up to the closing parenthesis. -/
def paramToks : Nat → List Tok
  | 0 => [y ")"]
  | 1 => [y "?", y ")"]
  | n + 2 => y "?" :: y "," :: paramToks (n + 1)

theorem lex_params : ∀ {cols : List Str}, cols ≠ [] → Lex (join [','] (cols.map fun _ => ['?']) ++ [')']) (paramToks cols.length)
  | [_], _ => lex_sym (c := '?') (by decide) (lex_sym (c := ')') (by decide) .nil)
  | _ :: b :: l, _ => by
    have ih := lex_params (cols := b :: l) (by simp)
    exact lex_sym (c := '?') (by decide) (lex_sym (c := ',') (by decide) ih)

theorem params_toks : ∀ {n : Nat}, n ≠ 0 → params (paramToks n) = some n
  | 1, _ => rfl
  | n + 2, _ => by
    have ih := params_toks (n := n + 1) (by omega)
    show (if y "?" = y "?" then (if y "," = y ")" ∧ paramToks (n + 1) = [] then some 1 else
      if y "," = y "," then (params (paramToks (n + 1))).map (· + 1) else none) else none) = _
    rw [if_pos rfl, if_neg (by intro h; exact absurd h.1 (by decide)), if_pos rfl, ih]
    rfl

theorem insert_shape {L M N A B C n q p : Str} (h : L = A ++ ' ' :: (B ++ [' '])) (h2 : M = [' ', '(']) (h3 : N = ')' :: ' ' :: (C ++ [' ', '('])) :
    L ++ n ++ M ++ q ++ N ++ p ++ [')'] = A ++ ' ' :: (B ++ ' ' :: (n ++ ' ' :: '(' :: (q ++ ')' :: ' ' :: (C ++ ' ' :: '(' :: (p ++ [')']))))) := by
  subst h h2 h3
  simp

theorem select_shape {L A B n : Str} (h : L = A ++ ' ' :: '*' :: ' ' :: (B ++ [' '])) : L ++ n = A ++ ' ' :: '*' :: ' ' :: (B ++ ' ' :: (n ++ [])) := by
  subst h
  simp

theorem lex_sp {r : Str} {us : List Tok} (h : Lex r us) : Lex (' ' :: r) us := lex_blank (by decide) h

/-- The end of the statement for links. -/
theorem lex_group {a : Str} (ha : Quotable a) : Lex (' ' :: ("GROUP".toList ++ ' ' :: ("BY".toList ++ ' ' :: (tick a ++ [])))) [w "GROUP", w "BY", .name a] :=
  lex_kw (word_of (by decide)) (delim_cons (by decide)) (lex_kw (word_of (by decide)) (delim_cons (by decide)) (lex_sp (lex_tick ha delim_nil .nil)))

/-- The tokens of the condition for links. -/
def contextToks : Option Str → List Tok
  | some c => [w "WHERE", w "context", y "=", .text c]
  | none => []

theorem where_shape {L M A B C c t : Str} (h : L = A ++ ' ' :: (B ++ [' ', '=', ' ', '\''])) (h2 : M = ' ' :: (C ++ t)) :
    L ++ c ++ ['\''] ++ M = A ++ ' ' :: (B ++ ' ' :: '=' :: ' ' :: '\'' :: (c ++ '\'' :: ' ' :: (C ++ t))) := by
  subst h h2
  simp

theorem group_shape {L A B a : Str} (h : L = ' ' :: (A ++ ' ' :: (B ++ [' ']))) : L ++ a = ' ' :: (A ++ ' ' :: (B ++ ' ' :: (a ++ []))) := by
  subst h
  simp

theorem lex_context {a : Str} (ha : Quotable a) {context : Option Str} (hc : ∀ c, context = some c → '\'' ∉ c) :
    Lex (' ' :: whereText context ++ (" GROUP BY ".toList ++ tick a)) (contextToks context ++ [w "GROUP", w "BY", .name a]) := by
  have hg := lex_group ha
  have he : " GROUP BY ".toList ++ tick a = ' ' :: ("GROUP".toList ++ ' ' :: ("BY".toList ++ ' ' :: (tick a ++ []))) := group_shape (by decide)
  rw [he]
  cases context with
  | none => exact lex_sp hg
  | some c =>
    have h := lex_word (s := "WHERE".toList) (word_of (by decide)) (delim_cons (c := ' ') (by decide)) (lex_kw (s := "context".toList) (word_of (by decide))
      (delim_cons (c := ' ') (by decide)) (lex_sp (lex_sym (c := '=') (by decide) (lex_sp (lex_text (hc c rfl) (delim_cons (c := ' ') (by decide)) hg)))))
    have he : ("WHERE context = '".toList ++ c ++ ['\'']) ++ (' ' :: ("GROUP".toList ++ ' ' :: ("BY".toList ++ ' ' :: (tick a ++ [])))) =
        "WHERE".toList ++ ' ' :: ("context".toList ++ ' ' :: '=' :: ' ' :: '\'' :: (c ++ '\'' :: ' ' :: ("GROUP".toList ++ ' ' :: ("BY".toList ++ ' ' ::
          (tick a ++ []))))) := where_shape (by decide) rfl
    refine lex_sp ?_
    show Lex (("WHERE context = '".toList ++ c ++ ['\'']) ++ _) _
    rw [he]
    exact h

theorem links_shape {L M N A G C X F a b t r s : Str} (h : L = A ++ [' ']) (h2 : M = ',' :: ' ' :: (G ++ ['(']))
    (h3 : N = ',' :: ' ' :: '\'' :: ([' '] ++ '\'' :: ')' :: ',' :: ' ' :: (G ++ '(' :: (C ++ '(' :: (X ++ ',' :: ' ' :: '\'' :: ([] ++ '\'' :: ')' :: ',' :: ' ' :: '\'' ::
      (['|', '|'] ++ '\'' :: ')' :: '\n' :: (F ++ [' '])))))))) :
    L ++ a ++ M ++ b ++ N ++ t ++ r ++ s = A ++ ' ' :: (a ++ ',' :: ' ' :: (G ++ '(' :: (b ++ ',' :: ' ' :: '\'' :: ([' '] ++ '\'' :: ')' :: ',' :: ' ' :: (G ++ '(' ::
      (C ++ '(' :: (X ++ ',' :: ' ' :: '\'' :: ([] ++ '\'' :: ')' :: ',' :: ' ' :: '\'' :: (['|', '|'] ++ '\'' :: ')' :: '\n' :: (F ++ ' ' :: (t ++ (r ++ s)))))))))))) := by
  subst h h2 h3
  simp

/-- The tokens of a text, by steps. -/
def lexN : Nat → Str → Option (List Tok)
  | _, [] => some []
  | 0, _ => none
  | n + 1, s => match first s with
    | some (none, r) => lexN n r
    | some (some t, r) => (lexN n r).map (t :: ·)
    | none => none

theorem lexN_sound : ∀ {n : Nat} {s : Str} {ts : List Tok}, lexN n s = some ts → Lex s ts
  | _, [], ts, h => by
    have : ts = [] := by cases ‹Nat› <;> simpa [lexN, eq_comm] using h
    subst this
    exact .nil
  | 0, c :: s, ts, h => by simp [lexN] at h
  | n + 1, c :: s, ts, h => by
    unfold lexN at h
    split at h
    · rename_i r hf
      exact .skip hf (lexN_sound h)
    · rename_i t r hf
      obtain ⟨us, hus, rfl⟩ := Option.map_eq_some_iff.1 h
      exact .tok hf (lexN_sound hus)
    · cases h

/-! ## Theorems -/

/-- The texts of bounds: no apostrophe in those for functions, and floating point numbers as numerals. -/
def BoundTexts (str : Val → Str) (t : TableSpec) : Prop :=
  ∀ c ∈ t.columns, ∀ d, c.csvw = some d → ∀ b, d.minimum = some b ∨ d.maximum = some b →
    (sqlFunction c.base ≠ none → '\'' ∉ boundText str b) ∧ ∀ f, b = .flt f → FloatText f

theorem expressible_of {str : Val → Str} {tr : Translator} {t : TableSpec} (ho : oddTable tr t = false) (hb : badTable tr t = false) (hx : BoundTexts str t) :
    SqlExpressible str tr t := by
  have hname : ∀ {n : Str}, oddName n = false → Quotable n := by
    intro n hn hm
    unfold oddName at hn
    rw [List.any_eq_false] at hn
    exact hn '`' hm (by decide)
  unfold oddTable at ho
  simp only [Bool.or_eq_false_iff, List.any_eq_false, Bool.not_eq_true] at ho
  obtain ⟨⟨⟨o1, o2⟩, o3⟩, o4⟩ := ho
  unfold badTable at hb
  simp only [Bool.or_eq_false_iff, List.any_eq_false, Bool.not_eq_true] at hb
  obtain ⟨⟨⟨⟨⟨⟨b1, b2⟩, b3⟩, b4⟩, b5⟩, b6⟩, b7⟩ := hb
  refine ⟨hname o1, ⟨by simpa using b1, fun c hc => hname (o2 c hc)⟩, ?_, ?_, ?_⟩
  · intro pk hpk k hk
    exact hname (o3 k (by rw [hpk]; exact hk))
  · intro fk hfk
    obtain ⟨⟨o5, o6⟩, o7⟩ := o4 fk hfk
    have h7 := b7 fk hfk
    have hne : fk.1 ≠ [] := by simpa using h7.1
    have hlen : fk.1.length = fk.2.2.length := by simpa using h7.2
    refine ⟨hne, fun k hk => hname (o5 k hk), hname o6, ?_, fun k hk => hname (o7 k hk)⟩
    intro h0
    rw [h0] at hlen
    exact hne (List.length_eq_zero_iff.1 hlen)
  · intro c hc d hd b hb
    obtain ⟨x1, x2⟩ := hx c hc d hd b hb
    cases hf : sqlFunction c.base with
    | some f => exact x1 (by rw [hf]; simp)
    | none =>
      refine ⟨?_, x2⟩
      have hm := b3 c hc
      have hcheck : c.check = (d.minimum.toList.map fun b => ColSpec.Cond.ge c.func b) ++ (d.maximum.toList.map fun b => ColSpec.Cond.le c.func b) := by
        unfold ColSpec.check
        rw [hd]
        dsimp only
        rw [if_pos]
        rcases hb with hb | hb
        · exact .inl (by rw [hb]; simp)
        · exact .inr (by rw [hb]; simp)
      rw [hcheck, func_eq, hf] at hm
      have hmal : (ColSpec.Cond.ge none b).malformed = false ∨ (ColSpec.Cond.le none b).malformed = false := by
        rcases hb with hb | hb
        · exact .inl (hm _ (List.mem_append_left _ (List.mem_map.2 ⟨b, by rw [hb]; simp, rfl⟩)))
        · exact .inr (hm _ (List.mem_append_right _ (List.mem_map.2 ⟨b, by rw [hb]; simp, rfl⟩)))
      cases b with
      | dec x => cases x <;> simp [Numeric, ColSpec.Cond.malformed] at hmal ⊢
      | _ => simp [Numeric, ColSpec.Cond.malformed] at hmal ⊢

theorem createAll_each {tr : Translator} : ∀ {ts : List TableSpec} {db0 db : Database}, createAll tr db0 ts = .ok db →
    ((db0.map fun u => foldName u.name) ++ ts.map fun t => foldName (tr t.name none)).Nodup →
    ∀ t ∈ ts, oddTable tr t = false ∧ badTable tr t = false
  | [], _, _, _, _, t, ht => by cases ht
  | t0 :: r, db0, db, h, hn, t, ht => by
    unfold createAll at h
    cases hc : create tr db0 t0 with
    | error e => rw [hc] at h; cases h
    | ok db1 =>
      rw [hc] at h
      dsimp only at h
      unfold create at hc
      dsimp only at hc
      have hnot : ¬ (db0.any fun u => foldName u.name = foldName (tr t0.name none)) = true := by
        rw [List.any_eq_true]
        rintro ⟨u, hu, he⟩
        simp only [decide_eq_true_eq] at he
        rw [List.map_cons, List.nodup_append] at hn
        exact hn.2.2 (foldName u.name) (List.mem_map_of_mem (f := fun u : DbTable => foldName u.name) hu) (foldName (tr t0.name none)) (List.mem_cons_self ..) he
      rw [if_neg hnot] at hc
      split at hc
      · cases hc
      · rename_i ho
        split at hc
        · cases hc
        · rename_i hb
          cases hc
          rcases List.mem_cons.1 ht with rfl | ht
          · exact ⟨by simpa using ho, by simpa using hb⟩
          · exact createAll_each h (by simpa using hn) t ht

/-- **C86** All tables of a database which was written: the statements by which they were created mean the specifications of the tables. -/
theorem C86_written (ext : Ext) (sx : SqlExt) {str : Val → Str} {tr : Translator} {skip : Bool} {tables : List TableSpec} {items : List (Str × List RowDict)}
    {db : Database} (h : Db.write ext sx tr skip tables items = .ok db) (hn : (tables.map fun t => foldName (tr t.name none)).Nodup)
    (hx : ∀ t ∈ tables, BoundTexts str t) : ∀ t ∈ tables, ∃ ts, Lex (createText str tr t) ts ∧ createTable ts = some (tr t.name none, clausesOf str tr t) := by
  intro t ht
  unfold Db.write at h
  cases hc : createAll tr [] tables with
  | error e => rw [hc] at h; cases h
  | ok db0 =>
    obtain ⟨ho, hb⟩ := createAll_each hc (by simpa using hn) t ht
    exact C86_create (expressible_of ho hb (hx t ht))

/-- **C86** The statement for inserting rows, as SQLite reads it: it inserts into this table, a parameter for each of these columns. -/
theorem C86_insert {table : Str} {cols : List Str} (ht : Quotable table) (hne : cols ≠ []) (hc : ∀ c ∈ cols, Quotable c) :
    ∃ ts, Lex (insertText table cols) ts ∧ insertInto ts = some (table, cols, cols.length) := by
  have h := lex_word (s := "INSERT".toList) (word_of (by decide)) (delim_cons (c := ' ') (by decide)) (lex_kw (s := "INTO".toList) (word_of (by decide))
    (delim_cons (c := ' ') (by decide)) (lex_blank (c := ' ') (by decide) (lex_tick ht (delim_cons (c := ' ') (by decide)) (lex_blank (c := ' ') (by decide)
    (lex_sym (c := '(') (by decide) (lex_names hne hc (lex_kw (s := "VALUES".toList) (word_of (by decide)) (delim_cons (c := ' ') (by decide))
    (lex_blank (c := ' ') (by decide) (lex_sym (c := '(') (by decide) (lex_params hne))))))))))
  have he : insertText table cols = "INSERT".toList ++ ' ' :: ("INTO".toList ++ ' ' :: (tick table ++ ' ' :: '(' :: (quoted cols ++ ')' :: ' ' ::
      ("VALUES".toList ++ ' ' :: '(' :: (join [','] (cols.map fun _ => ['?']) ++ [')']))))) :=
    insert_shape (n := tick table) (by decide) (by decide) (by decide)
  rw [he]
  refine ⟨_, h, ?_⟩
  show (match names (nameToks cols ++ (w "VALUES" :: y "(" :: paramToks cols.length)) with
      | some (cs, v :: o' :: r') => if v = w "VALUES" ∧ o' = y "(" then (params r').map fun k => (table, cs, k) else none
      | _ => none) = _
  rw [names_toks hne]
  show (if w "VALUES" = w "VALUES" ∧ y "(" = y "(" then (params (paramToks cols.length)).map fun k => (table, cols, k) else none) = _
  rw [if_pos ⟨rfl, rfl⟩, params_toks (by simpa using hne)]
  rfl

/-- **C86** The statement for reading a table, as SQLite reads it: it reads all columns of this table. -/
theorem C86_select {table : Str} (ht : Quotable table) : ∃ ts, Lex (selectText table) ts ∧ selectAll ts = some table := by
  have h := lex_word (s := "SELECT".toList) (word_of (by decide)) (delim_cons (c := ' ') (by decide)) (lex_blank (c := ' ') (by decide)
    (lex_sym (c := '*') (by decide) (lex_kw (s := "FROM".toList) (word_of (by decide)) (delim_cons (c := ' ') (by decide)) (lex_blank (c := ' ') (by decide)
    (lex_tick ht delim_nil .nil)))))
  have he : selectText table = "SELECT".toList ++ ' ' :: '*' :: ' ' :: ("FROM".toList ++ ' ' :: (tick table ++ [])) := select_shape (n := tick table) (by decide)
  rw [he]
  exact ⟨_, h, rfl⟩

/-- **C86** The statement for reading the links of an association table, as SQLite reads it: for each value of the column `a`, the values of the column `b` and
of the context, of all rows or of those with this context. -/
theorem C86_links {a b table : Str} {context : Option Str} (ha : Quotable a) (hb : Quotable b) (ht : Quotable table)
    (hc : ∀ c, context = some c → '\'' ∉ c) :
    ∃ ts, Lex (linksText a b table context) ts ∧ links ts = some (a, b, table, context) := by
  have h0 := lex_context ha hc
  have h1 := lex_blank (c := '\n') (by decide) (lex_word (s := "FROM".toList) (word_of (by decide)) (delim_cons (c := ' ') (by decide))
    (lex_sp (lex_tick ht (by cases context <;> exact delim_cons (c := ' ') (by decide)) h0)))
  have h2 := lex_sp (lex_text (n := []) (by simp) (delim_cons (c := ')') (by decide)) (lex_sym (c := ')') (by decide) (lex_sym (c := ',') (by decide)
    (lex_sp (lex_text (n := ['|', '|']) (by decide) (delim_cons (c := ')') (by decide)) (lex_sym (c := ')') (by decide) h1))))))
  have h3 := lex_sp (lex_text (n := [' ']) (by decide) (delim_cons (c := ')') (by decide)) (lex_sym (c := ')') (by decide) (lex_sym (c := ',') (by decide)
    (lex_kw (s := "group_concat".toList) (word_of (by decide)) (delim_cons (c := '(') (by decide)) (lex_sym (c := '(') (by decide)
    (lex_word (s := "COALESCE".toList) (word_of (by decide)) (delim_cons (c := '(') (by decide)) (lex_sym (c := '(') (by decide)
    (lex_word (s := "context".toList) (word_of (by decide)) (delim_cons (c := ',') (by decide)) (lex_sym (c := ',') (by decide) h2)))))))))
  have h := lex_word (s := "SELECT".toList) (word_of (by decide)) (delim_cons (c := ' ') (by decide)) (lex_sp (lex_tick ha (delim_cons (c := ',') (by decide))
    (lex_sym (c := ',') (by decide) (lex_kw (s := "group_concat".toList) (word_of (by decide)) (delim_cons (c := '(') (by decide)) (lex_sym (c := '(') (by decide)
    (lex_tick hb (delim_cons (c := ',') (by decide)) (lex_sym (c := ',') (by decide) h3)))))))
  have he := links_shape (L := "SELECT ".toList) (M := ", group_concat(".toList)
    (N := ", ' '), group_concat(COALESCE(context, ''), '||')\nFROM ".toList) (A := "SELECT".toList) (G := "group_concat".toList) (C := "COALESCE".toList)
    (X := "context".toList) (F := "FROM".toList) (a := tick a) (b := tick b) (t := tick table) (r := ' ' :: whereText context) (s := " GROUP BY ".toList ++ tick a) (by decide) (by decide) (by decide)
  have he' : linksText a b table context = "SELECT ".toList ++ tick a ++ ", group_concat(".toList ++ tick b ++
      ", ' '), group_concat(COALESCE(context, ''), '||')\nFROM ".toList ++ tick table ++ ' ' :: whereText context ++ (" GROUP BY ".toList ++ tick a) :=
    List.append_assoc _ _ _
  rw [he', he]
  refine ⟨_, h, ?_⟩
  cases context with
  | none => simp [links, contextToks, contextOf, w, y]
  | some c => simp [links, contextToks, contextOf, w, y]

/-! ## Examples and deviations -/

/-- A table with a required text of at least one character, a number within bounds, a date, a primary key and a foreign key. -/
def sqlSpec : TableSpec where
  name := "places".toList
  columns := [
    { name := "ID".toList, required := true, csvw := some { base := .string, minLength := some 1, maxLength := some 9 } },
    { name := "Height".toList, base := .decimal, csvw := some { base := .decimal, minimum := some (.dec (.fin true 4305 (-1))), maximum := some (.int 8849) } },
    { name := "Found".toList, base := .date, csvw := some { base := .date, minimum := some (.str "1000-01-01".toList) } },
    { name := "Country".toList } ]
  primaryKey := some ["ID".toList]
  foreignKeys := [(["Country".toList], "countries".toList, ["ID".toList])]

/-- The text of a bound which is no number, for the examples. -/
def exampleStr : Val → Str
  | .str s => s
  | _ => []

/-- **C86** The example can be expressed; its statement and its meaning. -/
theorem C86_example : SqlExpressible exampleStr nameTranslator sqlSpec ∧
    createText exampleStr nameTranslator sqlSpec = ("CREATE TABLE IF NOT EXISTS `places` (\n    `ID` TEXT NOT NULL CHECK (length(`ID`) >= 1 AND length(`ID`) <= 9),\n" ++
      "    `Height` REAL CHECK (`Height` >= -430.5 AND `Height` <= 8849),\n    `Found` TEXT CHECK (date(`Found`) >= date('1000-01-01')),\n    `Country` TEXT,\n" ++
      "    PRIMARY KEY(`ID`),\n    FOREIGN KEY(`Country`) REFERENCES `countries`(`ID`) ON DELETE CASCADE\n)").toList ∧
    ∃ ts, Lex (createText exampleStr nameTranslator sqlSpec) ts ∧ createTable ts = some ("places".toList,
      [.column "ID".toList "TEXT".toList true [⟨.columnFunc "length".toList "ID".toList, ">=".toList, .number false "1".toList⟩,
          ⟨.columnFunc "length".toList "ID".toList, "<=".toList, .number false "9".toList⟩],
       .column "Height".toList "REAL".toList false [⟨.column "Height".toList, ">=".toList, .number true "430.5".toList⟩,
          ⟨.column "Height".toList, "<=".toList, .number false "8849".toList⟩],
       .column "Found".toList "TEXT".toList false [⟨.columnFunc "date".toList "Found".toList, ">=".toList, .textFunc "date".toList "1000-01-01".toList⟩],
       .column "Country".toList "TEXT".toList false [],
       .primaryKey ["ID".toList],
       .foreignKey ["Country".toList] "countries".toList ["ID".toList]]) := by
  have h : SqlExpressible exampleStr nameTranslator sqlSpec := by
    refine ⟨by unfold Quotable; decide, ⟨by decide, by unfold Quotable; decide⟩, ?_, ?_, ?_⟩
    · intro pk hpk
      cases hpk
      unfold Quotable
      decide
    · intro fk hfk
      rw [List.mem_singleton.1 hfk]
      unfold Quotable
      decide
    · intro c hc d hd b hb
      simp only [sqlSpec, List.mem_cons, List.not_mem_nil, or_false] at hc
      rcases hc with rfl | rfl | rfl | rfl
      · cases hd; simp at hb
      · cases hd
        simp only [Option.some.injEq] at hb
        rcases hb with rfl | rfl
        · exact ⟨.inr (.inr ⟨_, _, _, rfl⟩), by rintro t ⟨⟩⟩
        · exact ⟨.inl ⟨_, rfl⟩, by rintro t ⟨⟩⟩
      · cases hd
        simp only [Option.some.injEq, reduceCtorEq, or_false] at hb
        subst hb
        show '\'' ∉ _
        decide
      · cases hd
  refine ⟨h, by decide +kernel, ?_⟩
  obtain ⟨ts, h1, h2⟩ := C86_create h
  refine ⟨ts, h1, ?_⟩
  rw [h2]
  decide +kernel

/-- The tables of the example for loading (`C72_example`) meet the conditions of `C86_written`. -/
theorem C86_written_example (str : Val → Str) :
    ([languages, forms, formsLanguages].map fun t => foldName (nameTranslator t.name none)).Nodup ∧ ∀ t ∈ [languages, forms, formsLanguages], BoundTexts str t := by
  refine ⟨by decide, ?_⟩
  intro t ht c hc d hd b hb
  simp only [List.mem_cons, List.not_mem_nil, or_false] at ht
  rcases ht with rfl | rfl | rfl
  · simp only [languages, List.mem_cons, List.not_mem_nil, or_false] at hc
    rcases hc with rfl | rfl <;> cases hd
    simp at hb
  · simp only [forms, List.mem_cons, List.not_mem_nil, or_false] at hc
    rcases hc with rfl | rfl | rfl <;> cases hd
    simp only [Option.some.injEq, reduceCtorEq, or_false] at hb
    subst hb
    exact ⟨fun h => absurd rfl h, by rintro f ⟨⟩⟩
  · simp only [formsLanguages, AssocSpec.toSpec, List.mem_cons, List.not_mem_nil, or_false] at hc
    rcases hc with rfl | rfl | rfl <;> cases hd

/-- A table with a column whose name has a backtick. -/
def tickSpec : TableSpec where
  name := "t".toList
  columns := [{ name := "a` TEXT,\n    `b".toList }]

/-- **C86** Deviation: names are put in backticks as they are. A table with one column whose name has backticks gives a statement for a table with two columns. -/
theorem C86_violated_backtick (str : Val → Str) : ∃ ts, Lex (createText str nameTranslator tickSpec) ts ∧
    createTable ts = some ("t".toList, [.column "a".toList "TEXT".toList false [], .column "b".toList "TEXT".toList false []]) ∧
    clausesOf str nameTranslator tickSpec = [.column "a` TEXT,\n    `b".toList "TEXT".toList false []] := by
  let t : TableSpec := { name := "t".toList, columns := [{ name := "a".toList }, { name := "b".toList }] }
  have h : SqlExpressible str nameTranslator t := by
    refine ⟨by unfold Quotable; decide, ⟨by simp [t], by unfold Quotable; decide⟩, ?_, ?_, ?_⟩
    · rintro pk ⟨⟩
    · rintro fk ⟨⟩
    · intro c hc d hd
      simp only [t, List.mem_cons, List.not_mem_nil, or_false] at hc
      rcases hc with rfl | rfl <;> cases hd
  obtain ⟨ts, h1, h2⟩ := C86_create h
  exact ⟨ts, h1, h2, rfl⟩

/-- **C86** Deviation: a context is put in quotes as it is. A context with two apostrophes is taken for one with a single one. -/
theorem C86_violated_quote : ∃ ts, Lex (linksText "a".toList "b".toList "t".toList (some "o''k".toList)) ts ∧
    links ts = some ("a".toList, "b".toList, "t".toList, some "o'k".toList) := by
  refine ⟨[w "SELECT", .name "a".toList, y ",", w "group_concat", y "(", .name "b".toList, y ",", .text [' '], y ")", y ",", w "group_concat", y "(",
    w "COALESCE", y "(", w "context", y ",", .text [], y ")", y ",", .text "||".toList, y ")", w "FROM", .name "t".toList, w "WHERE", w "context", y "=",
    .text "o'k".toList, w "GROUP", w "BY", .name "a".toList], lexN_sound (n := 100) (by decide +kernel), by decide +kernel⟩

end Csvw.Props
