/-!
# Python primitives

Not part of `/repo`: the semantics of the Python builtins the code relies on.
A Python `str` is modelled as the list of its code points (lone surrogates, which `Char` excludes, are
not modelled).
-/

namespace Csvw

/-- Python `str`. -/
abbrev Str := List Char

/-- The exception classes that matter for the modelled code. `InvalidOperation`/`TypeError` which are
caught inside the code do not appear. -/
inductive PyErr where
  | valueError | typeError | keyError | indexError | csvError | overflowError | assertionError
  | stopIteration | attributeError | zeroDivisionError | arithmeticError | osError | notImplemented | dbError
  deriving DecidableEq, Repr

/-- Result of a Python call: exceptions as values. -/
abbrev Res (α : Type _) := Except PyErr α

deriving instance DecidableEq for Except

namespace Py

/-- `c.isspace()` as used by `str.strip()`/`str.split()` without argument (all Unicode whitespace). -/
def isSpace (c : Char) : Bool :=
  let n := c.toNat
  (9 ≤ n && n ≤ 13) || (28 ≤ n && n ≤ 32) || n == 0x85 || n == 0xa0 || n == 0x1680 ||
  (0x2000 ≤ n && n ≤ 0x200a) || n == 0x2028 || n == 0x2029 || n == 0x202f || n == 0x205f || n == 0x3000

/-- `s.lstrip(chars)` with the membership test of `chars` as predicate. -/
def lstripP (p : Char → Bool) (s : Str) : Str := s.dropWhile p
/-- `s.rstrip(chars)`. -/
def rstripP (p : Char → Bool) (s : Str) : Str := (s.reverse.dropWhile p).reverse
/-- `s.lstrip()`. -/
def lstrip (s : Str) : Str := lstripP isSpace s
/-- `s.rstrip()`. -/
def rstrip (s : Str) : Str := rstripP isSpace s
/-- `s.strip()`. -/
def strip (s : Str) : Str := rstrip (lstrip s)

/-- `s.startswith(p)`. -/
def startsWith (s p : Str) : Bool := p.isPrefixOf s

/-- `sep.join(parts)`. -/
def join (sep : Str) : List Str → Str
  | [] => []
  | [x] => x
  | x :: y :: r => x ++ sep ++ join sep (y :: r)

/-- Worker for `split`: `k` characters of a separator occurrence are still to be skipped,
`acc` is the current part, reversed. -/
def splitGo (sep : Str) : Nat → Str → Str → List Str
  | _, acc, [] => [acc.reverse]
  | k + 1, acc, _ :: cs => splitGo sep k acc cs
  | 0, acc, c :: cs =>
    if sep.isPrefixOf (c :: cs) then acc.reverse :: splitGo sep (sep.length - 1) [] cs
    else splitGo sep 0 (c :: acc) cs

/-- `s.split(sep)` for a non-empty separator. -/
def split (sep : Str) (s : Str) : List Str := splitGo sep 0 [] s

/-- Worker for `replace`. -/
def replaceGo (old new : Str) : Nat → Str → Str
  | _, [] => []
  | k + 1, _ :: cs => replaceGo old new k cs
  | 0, c :: cs =>
    if old.isPrefixOf (c :: cs) then new ++ replaceGo old new (old.length - 1) cs
    else c :: replaceGo old new 0 cs

/-- `s.replace(old, new)` for non-empty `old` (leftmost, non-overlapping). -/
def replace (old new : Str) (s : Str) : Str := replaceGo old new 0 s

/-- `sub in s`. -/
def contains (sub : Str) : Str → Bool
  | [] => sub.isEmpty
  | c :: cs => sub.isPrefixOf (c :: cs) || contains sub cs

/-- `s.partition(sep)` for a single-character separator: (before, found, after). -/
def partition (sep : Char) : Str → Str × Bool × Str
  | [] => ([], false, [])
  | c :: cs =>
    if c = sep then ([], true, cs)
    else let (a, f, b) := partition sep cs; (c :: a, f, b)

end Py
end Csvw
