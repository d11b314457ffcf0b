import Verif.Spec.ForeignKeys
import Verif.Model.Common
/-!
# Specification: metadata describing a data file
-/

namespace Csvw.Spec

/-- `n` is the last path component of `u`: what comes after the last slash. -/
def LastComponent (u n : Str) : Prop := '/' ∉ n ∧ (u = n ∨ ∃ p, u = p ++ '/' :: n)

/-- The member `k` of the object `j` is `v`. -/
def Member (j : J) (k : String) (v : J) : Prop := ∃ m, j = .obj m ∧ Dict.get k.toList m = some v

/-- `t` is one of the table descriptions in the metadata: an item of its `tables`, or the metadata itself if it has no `tables`. -/
def TableDescription (md t : J) : Prop :=
  (∃ l, Member md "tables" (.arr l) ∧ t ∈ l) ∨ (t = md ∧ ∃ m, md = .obj m ∧ Dict.get "tables".toList m = none)

/-- A table description describes the data file if the last components of the two URLs are the same. -/
def TableDescribes (t : J) (url : Str) : Prop :=
  ∃ u n, Member t "url" (.str u) ∧ LastComponent u n ∧ LastComponent url n

/-- The metadata describes the data file. -/
def Describes (md : J) (url : Str) : Prop := ∃ t, TableDescription md t ∧ TableDescribes t url

/-- The metadata is a table description with URL, or a list of such. -/
def Regular (md : J) : Prop :=
  ∃ m, md = .obj m ∧
    ((Dict.get "tables".toList m = none ∧ ∃ u, Member md "url" (.str u)) ∨
     ∃ l, Dict.get "tables".toList m = some (.arr l) ∧ ∀ t ∈ l, ∃ u, Member t "url" (.str u))

end Csvw.Spec
