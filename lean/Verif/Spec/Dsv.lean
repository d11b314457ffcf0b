import Verif.Model.Dialect
/-!
# Specification vocabulary for DSV reading and writing

Independent of the model of `dsv.py`; only the attribute names of `Dialect` are used.
-/

namespace Csvw.Spec

/-- The byte order mark U+FEFF. -/
def bom : Char := Char.ofNat 0xfeff

/-- The very first cell of the data begins with a byte order mark. -/
def StartsWithBom (rows : List (List Str)) : Prop :=
  ∃ s cells rest, rows = ((bom :: s) :: cells) :: rest

/-- Quote characters are doubled; or they are escaped with a backslash, which is neither the delimiter nor the quote character, and which does not occur
in the cells (unless `csv.writer` is the one of Python ≤ 3.9, which does not escape it once more). -/
def EscapesKept (v : CsvLib.CsvVer) (d : Dialect) (rows : List (List Str)) : Prop :=
  d.doubleQuote = true ∨
    (d.delimiter ≠ ['\\'] ∧ d.quoteChar ≠ .str ['\\'] ∧ (v.escEsc = false ∨ ∀ r ∈ rows, ∀ s ∈ r, '\\' ∉ s))

/-- `r` is a comment row: its first cell begins with the (non-empty) comment prefix. -/
def CommentRow (d : Dialect) (r : List Str) : Prop :=
  ∃ p s rest, d.commentPrefix = some p ∧ p ≠ [] ∧ r = s :: rest ∧ p <+: s

/-- `r` has no cell with content. -/
def BlankRow (r : List Str) : Prop := ∀ s ∈ r, s = []

/-- Row `r`, on line `n` (0-based), is not data under dialect `d`. -/
def Skipped (d : Dialect) (n : Int) (r : List Str) : Prop :=
  CommentRow d r ∨ (d.skipBlankRows = true ∧ BlankRow r) ∨ n < d.skipRows

/-- Row `r`, on line `n`, is recorded as comment: comment rows and non-blank rows of the leading `skipRows` lines. -/
def IsRecorded (d : Dialect) (n : Int) (r : List Str) : Prop :=
  CommentRow d r ∨ (r ≠ [] ∧ n < d.skipRows)

instance : DecidablePred BlankRow := fun r => inferInstanceAs (Decidable (∀ s ∈ r, s = []))

instance (d : Dialect) : DecidablePred (CommentRow d) := fun r =>
  match hp : d.commentPrefix, hr : r with
  | some p, s :: rest =>
    if h : p ≠ [] ∧ p <+: s then isTrue ⟨p, s, rest, hp, h.1, rfl, h.2⟩
    else isFalse (by
      rintro ⟨p', s', rest', h1, h2, h3, h4⟩
      rw [hp] at h1; cases h1; cases h3
      exact h ⟨h2, h4⟩)
  | none, _ => isFalse (by rintro ⟨p', s', rest', h1, _⟩; rw [hp] at h1; simp at h1)
  | some _, [] => isFalse (by rintro ⟨p', s', rest', _, _, h3, _⟩; simp at h3)

instance (d : Dialect) (n : Int) : DecidablePred (Skipped d n) := fun _ =>
  inferInstanceAs (Decidable (_ ∨ _))
instance (d : Dialect) (n : Int) : DecidablePred (IsRecorded d n) := fun _ =>
  inferInstanceAs (Decidable (_ ∨ _))

/-- Number of line feeds in the cells of a row. -/
def lineFeeds (r : List Str) : Nat := (r.flatten).count '\n'

/-- Rows with their line numbers (0-based): a row without line feeds is on the line after the previous row;
`n` is the line number before the first row. -/
def numberFrom : Int → List (List Str) → List (Int × List Str)
  | _, [] => []
  | n, r :: rs => (n + 1 + lineFeeds r, r) :: numberFrom (n + 1 + lineFeeds r) rs

def numbered (rs : List (List Str)) : List (Int × List Str) := numberFrom (-1) rs

/-- `s` without leading / trailing characters satisfying `p`, characterised by what is removed. -/
def IsTrimmedLeft (p : Char → Bool) (s t : Str) : Prop :=
  ∃ a, s = a ++ t ∧ (∀ c ∈ a, p c = true) ∧ (∀ c cs, t = c :: cs → p c = false)
def IsTrimmedRight (p : Char → Bool) (s t : Str) : Prop :=
  ∃ b, s = t ++ b ∧ (∀ c ∈ b, p c = true) ∧ (∀ c cs, t = cs ++ [c] → p c = false)

/-- Cell `t` is cell `s` trimmed as demanded by `trim`. -/
def Trimmed : Trim → Str → Str → Prop
  | .false_, s, t => t = s
  | .start, s, t => IsTrimmedLeft Py.isSpace s t
  | .end_, s, t => IsTrimmedRight Py.isSpace s t
  | .true_, s, t => ∃ u, IsTrimmedLeft Py.isSpace s u ∧ IsTrimmedRight Py.isSpace u t

/-- All elements of two lists correspond. -/
inductive All2 {α β : Type} (R : α → β → Prop) : List α → List β → Prop where
  | nil : All2 R [] []
  | cons {a : α} {b : β} {as : List α} {bs : List β} : R a b → All2 R as bs → All2 R (a :: as) (b :: bs)

/-- Row `out` is data row `r` with cells trimmed and the first `skipColumns` cells dropped. -/
def Finished (d : Dialect) (r out : List Str) : Prop :=
  ∃ r', All2 (Trimmed d.trim) r r' ∧ out = r'.drop d.skipColumns

end Csvw.Spec
