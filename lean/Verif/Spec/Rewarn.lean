import Verif.Model.Metadata2
/-!
# Specification vocabulary: bounds which are finite
-/

namespace Csvw.Spec

/-- The bounds of the datatype which are decimal numbers are finite. -/
def FiniteBounds (dt : Datatype) : Prop := ∀ o ∈ [dt.minimum, dt.maximum, dt.minInclusive, dt.maxInclusive, dt.minExclusive, dt.maxExclusive],
  ∀ d : Dec, o = some (.dec d) → ∃ neg coef exp, d = .fin neg coef exp

/-- The same for the datatype of a description, if there is one. -/
def FiniteDescr (D : Descr) : Prop := ∀ dt, D.datatype = .dtype dt → FiniteBounds dt

/-- The same for all datatypes in the description of a table or a table group (apart from the tables of the latter). -/
structure FiniteLike (t : TableLike) : Prop where
  props : FiniteDescr t.props
  schema : FiniteDescr t.schema.props
  columns : ∀ c ∈ t.schema.columns, FiniteDescr c.props

end Csvw.Spec
