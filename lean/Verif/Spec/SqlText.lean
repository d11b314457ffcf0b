import Verif.Model.Db
/-!
# Specification: the meaning of SQL statements

The lexical structure and the part of the grammar of SQLite which is needed: tokens (https://www.sqlite.org/lang_expr.html and
`tokenize.c`), `CREATE TABLE`, `INSERT` and `SELECT`.
-/

namespace Csvw.Spec.Sql
open Csvw Csvw.Py

/-! ## Tokens -/

/-- Tokens: keywords and plain names, quoted names, string and numeric literals, other symbols. -/
inductive Tok where
  | word (s : Str)
  | name (s : Str)
  | text (s : Str)
  | num (s : Str)
  | sym (s : Str)
  deriving DecidableEq, Repr

/-- The characters up to the closing quote `q`, and the rest; a doubled quote stands for one. `none` if there is no closing quote. -/
def unquote (q : Char) : Str → Option (Str × Str)
  | [] => none
  | [c] => if c = q then some ([], []) else none
  | c :: c' :: r =>
    if c = q then
      if c' = q then (unquote q r).map fun p => (q :: p.1, p.2) else some ([], c' :: r)
    else (unquote q (c' :: r)).map fun p => (c :: p.1, p.2)

def isBlank (c : Char) : Bool := c = ' ' || c = '\t' || c = '\n' || c = '\x0c' || c = '\r'
def isIdStart (c : Char) : Bool := c.isAlpha || c = '_' || decide (128 ≤ c.toNat)
def isIdChar (c : Char) : Bool := isIdStart c || c.isDigit || c = '$'

/-- The exponent at the start of a text, if there is one, and the rest. -/
def exponent : Str → Str × Str
  | e :: c :: r =>
    if e = 'e' ∨ e = 'E' then
      if c.isDigit then (e :: c :: r.takeWhile Char.isDigit, r.dropWhile Char.isDigit)
      else match r with
        | d :: _ => if (c = '+' ∨ c = '-') ∧ d.isDigit then (e :: c :: r.takeWhile Char.isDigit, r.dropWhile Char.isDigit) else ([], e :: c :: r)
        | [] => ([], e :: c :: r)
    else ([], e :: c :: r)
  | r => ([], r)

/-- The fraction at the start of a text, if there is one, and the rest. -/
def fraction : Str → Str × Str
  | '.' :: r => ('.' :: r.takeWhile Char.isDigit, r.dropWhile Char.isDigit)
  | r => ([], r)

/-- The number at the start of a text, and the rest. -/
def number (s : Str) : Str × Str :=
  let i := s.takeWhile Char.isDigit
  let f := fraction (s.dropWhile Char.isDigit)
  let e := exponent f.2
  (i ++ f.1 ++ e.1, e.2)

/-- The first token of a text which is not empty (`some none`: white space or a comment), and the rest; `none` if there is no token. -/
def first : Str → Option (Option Tok × Str)
  | [] => none
  | c :: r =>
    if isBlank c then some (none, r)
    else if c = '`' ∨ c = '"' then (unquote c r).map fun p => (some (.name p.1), p.2)
    else if c = '\'' then (unquote c r).map fun p => (some (.text p.1), p.2)
    else if c.isDigit then
      match (number (c :: r)).2 with
      | d :: _ => if isIdChar d then none else some (some (.num (number (c :: r)).1), (number (c :: r)).2)
      | [] => some (some (.num (number (c :: r)).1), [])
    else if isIdStart c then some (some (.word (c :: r.takeWhile isIdChar)), r.dropWhile isIdChar)
    else if c = '-' ∧ r.head? = some '-' then some (none, r.dropWhile (· ≠ '\n'))
    else if (c = '<' ∨ c = '>') ∧ r.head? = some '=' then some (some (.sym [c, '=']), r.tail)
    else if c ∈ ['(', ')', ',', ';', '?', '+', '-', '*', '=', '<', '>', '.'] then some (some (.sym [c]), r)
    else none

/-- The tokens of a text. -/
inductive Lex : Str → List Tok → Prop where
  | nil : Lex [] []
  | skip {s r : Str} {ts : List Tok} (h : first s = some (none, r)) (hr : Lex r ts) : Lex s ts
  | tok {s r : Str} {t : Tok} {ts : List Tok} (h : first s = some (some t, r)) (hr : Lex r ts) : Lex s (t :: ts)

/-! ## Expressions -/

/-- Operands in conditions: a column, a number with its sign, a function of a column or of a text. -/
inductive Operand where
  | column (name : Str)
  | number (neg : Bool) (s : Str)
  | columnFunc (f name : Str)
  | textFunc (f s : Str)
  deriving DecidableEq, Repr

/-- A comparison. -/
structure Comparison where
  left : Operand
  op : Str
  right : Operand
  deriving DecidableEq, Repr

def w (s : String) : Tok := .word s.toList
def y (s : String) : Tok := .sym s.toList

/-- An operand and the tokens after it. -/
def operand : List Tok → Option (Operand × List Tok)
  | .name n :: r => some (.column n, r)
  | .num s :: r => some (.number false s, r)
  | .sym m :: .num s :: r => if m = ['-'] then some (.number true s, r) else none
  | .word f :: .sym o :: .name n :: .sym c :: r => if o = ['('] ∧ c = [')'] then some (.columnFunc f n, r) else none
  | .word f :: .sym o :: .text s :: .sym c :: r => if o = ['('] ∧ c = [')'] then some (.textFunc f s, r) else none
  | _ => none

/-- A comparison (all tokens). -/
def comparison (l : List Tok) : Option Comparison :=
  match operand l with
  | some (a, .sym op :: r) => match operand r with
    | some (b, []) => if op ∈ ["=".toList, "<=".toList, ">=".toList] then some ⟨a, op, b⟩ else none
    | _ => none
  | _ => none

/-- The parts between tokens `t`. -/
def splitAt (t : Tok) : List Tok → List (List Tok)
  | [] => [[]]
  | u :: r => if u = t then [] :: splitAt t r else match splitAt t r with
    | [] => [[u]]
    | p :: ps => (u :: p) :: ps

/-- Comparisons joined by `AND`. -/
def condition (l : List Tok) : Option (List Comparison) := (splitAt (w "AND") l).mapM comparison

/-! ## Statements -/

/-- Names, separated by commas, up to a closing parenthesis; and the tokens after it. -/
def names : List Tok → Option (List Str × List Tok)
  | .name n :: .sym s :: r =>
    if s = [')'] then some ([n], r)
    else if s = [','] then (names r).map fun p => (n :: p.1, p.2)
    else none
  | _ => none

/-- Clauses of `CREATE TABLE`. Foreign keys are `ON DELETE CASCADE`. -/
inductive Clause where
  | column (name type : Str) (notNull : Bool) (check : List Comparison)
  | primaryKey (cols : List Str)
  | foreignKey (cols : List Str) (table : Str) (refs : List Str)
  deriving DecidableEq, Repr

/-- The constraint of a column. -/
def checkOf : List Tok → Option (List Comparison)
  | [] => some []
  | a :: b :: r =>
    if a = w "CHECK" ∧ b = y "(" ∧ r.getLast? = some (y ")") then condition r.dropLast else none
  | _ => none

/-- The constraints of a column. -/
def columnOf (n type : Str) : List Tok → Option Clause
  | a :: b :: r =>
    if a = w "NOT" ∧ b = w "NULL" then (checkOf r).map (.column n type true) else (checkOf (a :: b :: r)).map (.column n type false)
  | r => (checkOf r).map (.column n type false)

/-- `PRIMARY KEY (…)`, `FOREIGN KEY (…) REFERENCES … (…) ON DELETE CASCADE`. -/
def keyOf : List Tok → Option Clause
  | a :: b :: o :: r =>
    if b = w "KEY" ∧ o = y "(" then
      if a = w "PRIMARY" then match names r with
        | some (cols, []) => some (.primaryKey cols)
        | _ => none
      else if a = w "FOREIGN" then match names r with
        | some (cols, u :: .name t :: o' :: r') =>
          if u = w "REFERENCES" ∧ o' = y "(" then match names r' with
            | some (refs, e) => if e = [w "ON", w "DELETE", w "CASCADE"] then some (.foreignKey cols t refs) else none
            | none => none
          else none
        | _ => none
      else none
    else none
  | _ => none

/-- A clause. -/
def clause : List Tok → Option Clause
  | .name n :: .word type :: r => columnOf n type r
  | l => keyOf l

/-- The clauses in parentheses, separated by commas (outside of inner parentheses; `depth` is the number of these), up to the closing parenthesis; and
the tokens after it. `acc`: the clause up to here. -/
def body : Nat → List Tok → List Tok → Option (List (List Tok) × List Tok)
  | _, _, [] => none
  | depth, acc, t :: r =>
    if t = y "(" then body (depth + 1) (acc ++ [t]) r
    else if t = y ")" then match depth with
      | 0 => some ([acc], r)
      | d + 1 => body d (acc ++ [t]) r
    else if t = y "," ∧ depth = 0 then (body 0 [] r).map fun p => (acc :: p.1, p.2)
    else body depth (acc ++ [t]) r

/-- `CREATE TABLE IF NOT EXISTS … (…)`: the name and the clauses. -/
def createTable : List Tok → Option (Str × List Clause)
  | a :: b :: c :: d :: e :: .name n :: o :: r =>
    if [a, b, c, d, e, o] = [w "CREATE", w "TABLE", w "IF", w "NOT", w "EXISTS", y "("] then match body 0 [] r with
      | some (cs, []) => (cs.mapM clause).map fun l => (n, l)
      | _ => none
    else none
  | _ => none

/-- Parameters, separated by commas, up to a closing parenthesis at the end: their number. -/
def params : List Tok → Option Nat
  | q :: s :: r =>
    if q = y "?" then
      if s = y ")" ∧ r = [] then some 1
      else if s = y "," then (params r).map (· + 1)
      else none
    else none
  | _ => none

/-- `INSERT INTO … (…) VALUES (?, …)`: table, columns and the number of parameters. -/
def insertInto : List Tok → Option (Str × List Str × Nat)
  | a :: b :: .name n :: o :: r =>
    if [a, b, o] = [w "INSERT", w "INTO", y "("] then match names r with
      | some (cols, v :: o' :: r') => if v = w "VALUES" ∧ o' = y "(" then (params r').map fun k => (n, cols, k) else none
      | _ => none
    else none
  | _ => none

/-- `SELECT * FROM …`: the table. -/
def selectAll : List Tok → Option Str
  | [a, b, c, .name n] => if [a, b, c] = [w "SELECT", y "*", w "FROM"] then some n else none
  | _ => none

/-- The condition of `links`: none, or on the column `context`. -/
def contextOf : List Tok → Option (Option Str × List Tok)
  | a :: b :: c :: .text s :: r => if [a, b, c] = [w "WHERE", w "context", y "="] then some (some s, r) else some (none, a :: b :: c :: .text s :: r)
  | r => some (none, r)

/-- `SELECT a, group_concat(b, ' '), group_concat(COALESCE(context, ''), '||') FROM table [WHERE context = c] GROUP BY a`: `a`, `b`, table and `c`. -/
def links : List Tok → Option (Str × Str × Str × Option Str)
  | s :: .name a :: c :: g :: o :: .name b :: l =>
    if [s, c, g, o] = [w "SELECT", y ",", w "group_concat", y "("] ∧
        l.take 16 = [y ",", .text [' '], y ")", y ",", w "group_concat", y "(", w "COALESCE", y "(", w "context", y ",", .text [], y ")", y ",",
          .text "||".toList, y ")", w "FROM"] then
      match l.drop 16 with
      | .name t :: r => match contextOf r with
        | some (ctx, e) => if e = [w "GROUP", w "BY", .name a] then some (a, b, t, ctx) else none
        | none => none
      | _ => none
    else none
  | _ => none

end Csvw.Spec.Sql
