import Verif.Model.Names
/-!
# Normalized names of ASCII strings, specified by character classes
-/

namespace Csvw.Spec

/-- ASCII letters. -/
def letter (c : Char) : Bool := decide ('a' ≤ c ∧ c ≤ 'z') || decide ('A' ≤ c ∧ c ≤ 'Z')
/-- ASCII letters and digits. -/
def letterOrDigit (c : Char) : Bool := letter c || decide ('0' ≤ c ∧ c ≤ '9')
/-- The control characters which are not whitespace. -/
def control (c : Char) : Bool := decide (c.toNat ≤ 8) || decide (14 ≤ c.toNat ∧ c.toNat ≤ 27) || decide (c.toNat = 127)

/-- Dashes, dots and spaces as underscores. -/
def underscored (s : Str) : Str := s.map fun c => if c = '-' ∨ c = '.' ∨ c = ' ' then '_' else c

/-- What remains of a name: letters, digits and underscores. -/
def keptOfName (s : Str) : Str := (underscored s).filter fun c => letterOrDigit c || c == '_'

/-- With an underscore in front, if the string does not begin with a letter or an underscore. -/
def startedName (s : Str) : Str :=
  match s with
  | [] => ['_']
  | c :: cs => if letter c || c == '_' then c :: cs else '_' :: c :: cs

/-- The characters of the decomposed text which are no marks, in lower case if `lower` is true. -/
def unmarked (u : Names.Unicode) (lower : Bool) (s : Str) : Str :=
  if lower then u.lower ((u.nfd s).filter fun c => !u.isMn c) else (u.nfd s).filter fun c => !u.isMn c

end Csvw.Spec
