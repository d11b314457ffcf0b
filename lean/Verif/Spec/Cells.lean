import Verif.Model.Column
/-!
# Specification of cell values and their serializations
-/

namespace Csvw.Spec

/-- The string `s` is the serialization of the value `v` in the column, and stands for it: without datatype, the value is the
string itself, otherwise the datatype formats `v` as `s` and reads `s` as `v`. -/
def Serializes (ext : Ext) (c : CCol) (v : Val) (s : Str) : Prop :=
  match c.datatype with
  | none => v = .str s
  | some d => d.formatted ext v = .ok s ∧ d.read ext s = .ok v

/-- A string which is not empty, unless nothing is substituted for empty cells. -/
def NotDefaulted (c : CCol) (s : Str) : Prop := s ≠ [] ∨ c.default = []

/-- `s` is the serialization of an item `v` of a list, and can be recognized: a value with a serialization which is no null
marker, or `None`, represented by the first null marker. -/
def ItemOk (ext : Ext) (c : CCol) (v : Val) (s : Str) : Prop :=
  (v ≠ .none ∧ Serializes ext c v s ∧ s ∉ c.null ∧ NotDefaulted c s) ∨
  (v = .none ∧ c.null.head? = some s ∧ (s ≠ [] ∨ c.default ∈ c.null))

end Csvw.Spec
