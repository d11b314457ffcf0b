import Verif.Py.Basic
/-!
# Model of `utils.normalize_name`, `utils.slug` (`src/csvw/utils.py` 61-105)

The Unicode database is a parameter.
-/

namespace Csvw.Names

/-- The parts of Python's Unicode database the code uses. -/
structure Unicode where
  /-- `unicodedata.normalize('NFD', s)` -/
  nfd : Str → Str
  /-- `unicodedata.category(c) == 'Mn'` -/
  isMn : Char → Bool
  /-- `s.lower()` -/
  lower : Str → Str

/-- `keyword.kwlist`. -/
def kwlist : List Str :=
  ["False", "None", "True", "and", "as", "assert", "async", "await", "break", "class", "continue", "def", "del", "elif",
   "else", "except", "finally", "for", "from", "global", "if", "import", "in", "is", "lambda", "nonlocal", "not", "or",
   "pass", "raise", "return", "try", "while", "with", "yield"].map String.toList

/-- `string.punctuation`. -/
def punctuation : Str := "!\"#$%&'()*+,-./:;<=>?@[\\]^_`{|}~".toList

def isAscii (c : Char) : Bool := decide (c.toNat < 128)
/-- `string.ascii_letters`. -/
def isLetter (c : Char) : Bool := ('a' ≤ c && c ≤ 'z') || ('A' ≤ c && c ≤ 'Z')
/-- `[0-9]`. -/
def isDigit (c : Char) : Bool := '0' ≤ c && c ≤ '9'

/-- `re.sub(r'\s+', rep, s)`: each maximal run of whitespace is replaced. `inWs`: the previous character was
whitespace. -/
def subWs (rep : Str) : Bool → Str → Str
  | _, [] => []
  | inWs, c :: cs =>
    if Py.isSpace c then (if inWs then [] else rep) ++ subWs rep true cs
    else c :: subWs rep false cs

/-- `slug`, utils.py 90-105. The assertion of line 104 (`[ A-Za-z0-9]*$`; a trailing newline, which `$` would allow,
cannot be left after line 102). -/
def slug (u : Unicode) (s : Str) (removeWhitespace lowercase : Bool) : Res Str :=
  let res := (u.nfd s).filter (fun c => !u.isMn c)
  let res := if lowercase then u.lower res else res
  let res := punctuation.foldl (fun r c => Py.replace [c] [] r) res
  let res := subWs (if removeWhitespace then [] else [' ']) false res
  let res := res.filter isAscii
  if res.all (fun c => c == ' ' || isLetter c || isDigit c) then .ok res else .error .assertionError

/-- The generator expression in utils.py 82. -/
def slugParts (u : Unicode) : List Str → Res (List Str)
  | [] => .ok []
  | p :: ps =>
    match slug u p true false with
    | .error e => .error e
    | .ok a =>
      match slugParts u ps with
      | .error e => .error e
      | .ok r => .ok (a :: r)

/-- `normalize_name`, utils.py 61-87. -/
def normalizeName (u : Unicode) (s : Str) : Res Str :=
  let s := Py.replace [' '] ['_'] (Py.replace ['.'] ['_'] (Py.replace ['-'] ['_'] s))
  if kwlist.contains s then .ok (s ++ ['_'])
  else
    match slugParts u (Py.split ['_'] s) with
    | .error e => .error e
    | .ok parts =>
      let s := Py.join ['_'] parts
      let s := if s.isEmpty then ['_'] else s
      match s with
      | [] => .ok s            -- not reached
      | c :: _ => .ok (if isLetter c || c == '_' then s else '_' :: s)

end Csvw.Names
