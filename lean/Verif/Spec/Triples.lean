import Verif.Model.JsonLd
/-!
# Specification vocabulary: the values of triples
-/

namespace Csvw.Spec.Triples
open JsonLd

/-- The values of the triples with a property. -/
def valuesOf (p : Str) (ts : List Triple) : List CVal := (ts.filter fun t => t.property = p).map Triple.value

/-- The objects in a value. -/
def flatC : CVal → List Val
  | .one v => [v]
  | .many l => l

/-- The objects in the value of a property. -/
def flatP : PropVal → List Val
  | .one v => [v]
  | .many l => l.flatMap flatC

/-- The first occurrences. -/
def firsts : List Str → List Str
  | [] => []
  | p :: r => p :: (firsts r).filter fun q => q ≠ p

end Csvw.Spec.Triples
