import Verif.Spec.Metadata
import Verif.Model.Csvw
/-!
# Specification vocabulary: descriptions which describe data in the same way
-/

namespace Csvw.Spec
open Table

/-- No empty JSON array or object stands for one of the inherited properties `required`, `separator` and `datatype`. (Such a value keeps a
column from inheriting the property, but is not written.) -/
structure NoEmptyProps (d : Descr) : Prop where
  required : ¬ EmptyValue d.required
  separator : ¬ EmptyValue d.separator
  datatype : ∀ j, d.datatype = .json j → ¬ EmptyValue j

/-- The same for a table or group, its schema and columns. -/
structure NoEmptyLike (t : TableLike) : Prop where
  props : NoEmptyProps t.props
  schema : NoEmptyProps t.schema.props
  columns : ∀ c ∈ t.schema.columns, NoEmptyProps c.props

/-- The tables have the same URL, and for all data: reading gives the same rows, errors and warnings; the primary key check has the same
result; writing gives the same text or exception. -/
structure SameData (t t' : Table) : Prop where
  url : t'.url = t.url
  read : ∀ ext x strict log text, t'.iterdicts ext x strict log text = t.iterdicts ext x strict log text
  key : ∀ ext x eq log text, t'.checkPrimaryKey ext x eq log text = t.checkPrimaryKey ext x eq log text
  write : ∀ ext x ver strict items, t'.write ext x ver strict items = t.write ext x ver strict items

end Csvw.Spec
